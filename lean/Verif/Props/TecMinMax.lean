import Verif.Proof.TecMinMax
import Verif.Proof.TecValue
import Verif.Props.TecBuf
/-!
# C37: minimum and maximum of a variable
-/
namespace Verif.Props
open Spec Tec

/-- C37: for any element type whose `<` and `>` are those of a linear order (through `key`), and any
non-empty vector `v 0 … v (N-1)` that can be read, `get_minmax` returns elements of the vector that bound
all of them. -/
theorem C37 {σ T κ : Type} [LinearOrder κ] (key : T → κ) (gt lt : T → T → Bool)
    (hgt : ∀ a b, gt a b = decide (key b < key a)) (hlt : ∀ a b, lt a b = decide (key a < key b))
    (data : Nat → M σ T) (v : Nat → T) {N : Nat} (hN : 0 < N) {s : σ} (hd : ∀ i < N, data i s = .ok (v i) s) :
    ∃ mn mx, get_minmax gt lt data N s = .ok (mn, mx) s ∧
      (∃ i < N, v i = mn) ∧ (∃ i < N, v i = mx) ∧ ∀ i < N, key mn ≤ key (v i) ∧ key (v i) ≤ key mx := by
  obtain ⟨mm, r, m⟩ := get_minmax_ok key gt lt data v hN hd (fun i _ j _ => hgt _ _) (fun i _ j _ => hlt _ _)
  exact ⟨mm.1, mm.2, r, m.min_mem, m.max_mem, m.bound⟩

/-- seven numbers in no particular order -/
example : (get_minmax (fun a b => decide (b < a)) (fun a b => decide (a < b))
    (fun i => (pure ([3, -2, 8, 8, -5, 7, -6][i]?.getD 0) : M Unit Int)) 7 ()) = .ok (-6, 8) () := by rfl

/-- C37 (in memory): `TEC_DATA::minmax` on a buffer of `N > 0` elements, none of them NaN, answers with
the converted values of two of the elements that bound all of them. -/
theorem C37_memory {h : Heap Byte} {d : TecData} {l : Str} {N : Nat} (ht : d.type ≠ .null) (H : Holds h d.buf (l.map some))
    (hl : l.length = N * d.type.bytes) (hN : 0 < N) (hk : ∀ i < N, (d.type.key (elem d.type.bytes l i)).isSome) :
    ∃ mn mx, d.minmax N h = .ok (d.type.toF64 mn, d.type.toF64 mx) h ∧
      (∃ i < N, elem d.type.bytes l i = mn) ∧ (∃ i < N, elem d.type.bytes l i = mx) ∧
      ∀ i < N, (d.type.key mn).getD 0 ≤ (d.type.key (elem d.type.bytes l i)).getD 0 ∧
        (d.type.key (elem d.type.bytes l i)).getD 0 ≤ (d.type.key mx).getD 0 := by
  obtain ⟨mm, r, m⟩ := TecData.minmax_ok ht H hl hN hk
  exact ⟨mm.1, mm.2, r, m.min_mem, m.max_mem, m.bound⟩

/-- C37 (values): for finite data the two `double` numbers answered are exactly values of the data and
bound all of them — for each of the five element types. -/
theorem C37_value {h : Heap Byte} {d : TecData} {l : Str} {N : Nat} (ht : d.type ≠ .null) (H : Holds h d.buf (l.map some))
    (hl : l.length = N * d.type.bytes) (hN : 0 < N) (hf : ∀ i < N, Finite d.type (elem d.type.bytes l i)) :
    ∃ mn mx : F64, d.minmax N h = .ok (mn, mx) h ∧
      (∃ i < N, scaled 64 52 mn.toNat = value d.type (elem d.type.bytes l i)) ∧
      (∃ i < N, scaled 64 52 mx.toNat = value d.type (elem d.type.bytes l i)) ∧
      ∀ i < N, scaled 64 52 mn.toNat ≤ value d.type (elem d.type.bytes l i) ∧
        value d.type (elem d.type.bytes l i) ≤ scaled 64 52 mx.toNat := by
  obtain ⟨mn, mx, r, ⟨i1, l1, rfl⟩, ⟨i2, l2, rfl⟩, hb⟩ := C37_memory ht H hl hN fun i hi => (hf i hi).key
  have hlt : ∀ i < N, elem d.type.bytes l i < 2 ^ (8 * d.type.bytes) := by
    intro i hi
    have hm : i * d.type.bytes + d.type.bytes ≤ N * d.type.bytes := by
      have := Nat.mul_le_mul_right d.type.bytes (by omega : i + 1 ≤ N)
      rw [Nat.add_mul, Nat.one_mul] at this; exact this
    have := leVal_lt ((l.drop (i * d.type.bytes)).take d.type.bytes)
    rw [List.length_take, List.length_drop, Nat.min_eq_left (by omega)] at this
    exact this
  refine ⟨_, _, r, ⟨i1, l1, toF64_exact ht (hlt i1 l1) (hf i1 l1)⟩, ⟨i2, l2, toF64_exact ht (hlt i2 l2) (hf i2 l2)⟩, ?_⟩
  intro i hi
  rw [toF64_exact ht (hlt i1 l1) (hf i1 l1), toF64_exact ht (hlt i2 l2) (hf i2 l2)]
  exact ⟨value_mono (hf i1 l1) (hf i hi) (hb i hi).1, value_mono (hf i hi) (hf i2 l2) (hb i hi).2⟩

/-- three `float` elements -1.5, 0.75, 2.0 in memory -/
def demoFloats : Str := leBytes 4 0xBFC00000 ++ leBytes 4 0x3F400000 ++ leBytes 4 0x40000000

def byteHeap (l : Str) : Heap Byte where
  blk := fun b => if b = 0 then some (.vals l.length fun k => l[k]?) else none
  next := 1
  mem := fun _ _ => true

theorem byteHeap_holds (l : Str) : Holds (byteHeap l) (.at 0 0) (l.map some) := by
  refine ⟨0, 0, l.length, fun k => l[k]?, rfl, rfl, by simp, ?_⟩
  unfold window
  apply List.ext_getElem
  · simp
  · intro n h1 h2
    simp only [List.length_map] at h2
    simp [List.getElem?_eq_getElem h2]

def Res.val {σ α : Type} : Res σ α → Option α
  | .ok a _ => some a
  | _ => none

/-- the hypotheses hold and the answers are -1.5 and 2.0 -/
example : (∀ i < 3, Finite .float (elem 4 demoFloats i)) ∧
    Holds (byteHeap demoFloats) (.at 0 0) (demoFloats.map some) ∧
    Res.val (TecData.minmax { type := .float, size := 4, buf := .at 0 0 } 3 (byteHeap demoFloats)) =
      some (0xBFF8000000000000#64, 0x4000000000000000#64) := by
  refine ⟨?_, byteHeap_holds _, by decide +kernel⟩
  intro i hi
  match i, hi with
  | 0, _ => show _ < _; decide +kernel
  | 1, _ => show _ < _; decide +kernel
  | 2, _ => show _ < _; decide +kernel

/-- With NaN among the elements the answers can be wrong: 5.0, NaN in this order after 1.0, 1.0 gives
the maximum 1.0. -/
theorem C37_nan : Res.val (TecData.minmax { type := .float, size := 4, buf := .at 0 0 } 4
      (byteHeap (leBytes 4 0x3F800000 ++ leBytes 4 0x3F800000 ++ leBytes 4 0x40A00000 ++ leBytes 4 0x7FC00000))) =
    some (0x3FF0000000000000#64, 0x3FF0000000000000#64) := by decide +kernel

/-- The answers for an empty vector do not exist: `data[0]` is read. -/
theorem C37_empty : TecData.minmax { type := .byte, size := 1, buf := .at 0 0 } 0 (byteHeap []) = .ub .oob := by rfl

end Verif.Props
