import Verif.Base
/-!
# Memory

The C++ free store as used by `PointData`: `new T[k]`, `delete[]`, pointer
arithmetic, loads and stores.  This models the language runtime, not a file of
/repo; the uses are cited in `D1.lean`, `D2.lean`, `D3.lean`.
-/
namespace Verif

/-- a pointer into the free store: null or (block, offset in elements) -/
inductive Ptr
  | null
  | at (blk off : Nat)
  deriving DecidableEq, Repr

/-- A block created by `new[]`: either elements of the user's number type (`none`
is the indeterminate value of a fresh element) or pointers (`none`: indeterminate). -/
inductive Block (V : Type)
  | vals (len : Nat) (cell : Nat → Option V)
  | ptrs (len : Nat) (cell : Nat → Option Ptr)

def Block.len {V : Type} : Block V → Nat
  | .vals l _ => l
  | .ptrs l _ => l

/-- The free store.  `mem k sz` is the environment's decision whether the `k`-th
`new[]`, asking for `sz` elements, succeeds; it is arbitrary. -/
structure Heap (V : Type) where
  blk : Nat → Option (Block V)
  next : Nat
  mem : Nat → Nat → Bool

variable {V : Type}

namespace Heap

/-- replace block `b` -/
def upd (h : Heap V) (b : Nat) (x : Option (Block V)) : Heap V :=
  { h with blk := fun c => if c = b then x else h.blk c }

/-- `new T[sz]` of number elements, uninitialised; throws `std::bad_alloc` on failure -/
def newVals (sz : Nat) : M (Heap V) Ptr := fun h =>
  if h.mem h.next sz then
    .ok (.at h.next 0) { h with
      blk := fun c => if c = h.next then some (.vals sz (fun _ => none)) else h.blk c
      next := h.next + 1 }
  else .err .badAlloc { h with next := h.next + 1 }

/-- `new T*[sz]` -/
def newPtrs (sz : Nat) : M (Heap V) Ptr := fun h =>
  if h.mem h.next sz then
    .ok (.at h.next 0) { h with
      blk := fun c => if c = h.next then some (.ptrs sz (fun _ => none)) else h.blk c
      next := h.next + 1 }
  else .err .badAlloc { h with next := h.next + 1 }

/-- `delete[] p` -/
def delArr (p : Ptr) : M (Heap V) Unit := fun h =>
  match p with
  | .null => .ok () h
  | .at b o => if o = 0 ∧ (h.blk b).isSome then .ok () (h.upd b none) else .ub .badFree

/-- `p + k`: the result must lie inside the block or one past its end -/
def padd (p : Ptr) (k : Int) : M (Heap V) Ptr := fun h =>
  match p with
  | .null => if k = 0 then .ok .null h else .ub .null
  | .at b o =>
    match h.blk b with
    | none => .ub .dangling
    | some B =>
      if 0 ≤ (o : Int) + k ∧ (o : Int) + k ≤ B.len then .ok (.at b ((o : Int) + k).toNat) h
      else .ub .oob

/-- the lvalue `*p`: a reference to an existing element -/
def lval (p : Ptr) : M (Heap V) Ptr := fun h =>
  match p with
  | .null => .ub .null
  | .at b o =>
    match h.blk b with
    | none => .ub .dangling
    | some B => if o < B.len then .ok (.at b o) h else .ub .oob

/-- read a number through a pointer or reference -/
def loadV (p : Ptr) : M (Heap V) (Option V) := fun h =>
  match p with
  | .null => .ub .null
  | .at b o =>
    match h.blk b with
    | none => .ub .dangling
    | some (.vals len cell) => if o < len then .ok (cell o) h else .ub .oob
    | some (.ptrs _ _) => .ub .uninit

/-- write a number through a pointer or reference -/
def storeV (p : Ptr) (v : Option V) : M (Heap V) Unit := fun h =>
  match p with
  | .null => .ub .null
  | .at b o =>
    match h.blk b with
    | none => .ub .dangling
    | some (.vals len cell) =>
      if o < len then .ok () (h.upd b (some (.vals len (fun k => if k = o then v else cell k))))
      else .ub .oob
    | some (.ptrs _ _) => .ub .uninit

/-- read a pointer through a pointer -/
def loadP (p : Ptr) : M (Heap V) Ptr := fun h =>
  match p with
  | .null => .ub .null
  | .at b o =>
    match h.blk b with
    | none => .ub .dangling
    | some (.ptrs len cell) =>
      if o < len then
        match cell o with
        | some q => .ok q h
        | none => .ub .uninit
      else .ub .oob
    | some (.vals _ _) => .ub .uninit

/-- write a pointer through a pointer -/
def storeP (p : Ptr) (q : Ptr) : M (Heap V) Unit := fun h =>
  match p with
  | .null => .ub .null
  | .at b o =>
    match h.blk b with
    | none => .ub .dangling
    | some (.ptrs len cell) =>
      if o < len then .ok () (h.upd b (some (.ptrs len (fun k => if k = o then some q else cell k))))
      else .ub .oob
    | some (.vals _ _) => .ub .uninit

/-- `p[k]` for a pointer to numbers: the lvalue -/
def idx (p : Ptr) (k : Int) : M (Heap V) Ptr := do
  let q ← padd p k
  lval q

end Heap

/-- state of a member function that modifies its object: free store and object -/
structure St (V O : Type) where
  h : Heap V
  o : O

namespace St
variable {O α : Type}
/-- run a free store action inside a member function -/
def heap (m : M (Heap V) α) : M (St V O) α := fun s =>
  match m s.h with
  | .ok a h => .ok a { s with h := h }
  | .err e h => .err e { s with h := h }
  | .ub u => .ub u

def obj : M (St V O) O := fun s => .ok s.o s
def modObj (f : O → O) : M (St V O) Unit := fun s => .ok () { s with o := f s.o }
end St

/-- `catch (const std::bad_alloc &) { throw std::runtime_error("no more memory for
allocating"); }` — PointData_1D.hpp:402-405, PointData_2D.hpp:531-534,
PointData_3D.hpp:666-669 -/
def tryAlloc {σ α : Type} (m : M σ α) : M σ α :=
  M.catchAs (fun e => e == .badAlloc) (fun _ => .noMemory) m

end Verif
