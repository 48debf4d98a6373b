import Verif.Spec.Tec
import Verif.Model.Heap
/-!
# Specification vocabulary: bytes in memory
-/
namespace Verif.Tec

/-- `n` consecutive cells of a block from offset `o` on -/
def window {α : Type} (c : Nat → α) (o n : Nat) : List α := (List.range' o n).map c

/-- the memory at `p` holds these bytes (`none`: not initialised) -/
def Holds (h : Heap UInt8) (p : Ptr) (bytes : List (Option UInt8)) : Prop :=
  ∃ b o len c, p = .at b o ∧ h.blk b = some (.vals len c) ∧ o + bytes.length ≤ len ∧ window c o bytes.length = bytes

/-- blocks are numbered in the order of their creation -/
def Fresh (h : Heap UInt8) : Prop := ∀ c, h.next ≤ c → h.blk c = none

/-- old blocks are untouched -/
structure Kept (h h' : Heap UInt8) : Prop where
  blk : ∀ c < h.next, h'.blk c = h.blk c
  next : h.next ≤ h'.next
  mem : h'.mem = h.mem

end Verif.Tec
