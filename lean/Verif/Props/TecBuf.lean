import Verif.Proof.Tec5
import Verif.Props.TecSize
/-!
# C36: zone buffers

Vocabulary (`Spec/Tec.lean`, `Spec/TecMem.lean`): `Holds h p l` — the memory at `p` holds the bytes `l`;
`Kept h h'` — no block of `h` is changed or freed in `h'`; `Fresh h` — blocks are numbered in the order of
their creation; `selectedBytes` — the bytes of the selected points, first index fastest.
-/
namespace Verif.Props
open Spec Tec

/-- the selection as a list of points: every selected point once, the first index fastest -/
theorem C36_order (x y z : DimSel) (sx : x.Sane) (sy : y.Sane) (sz : z.Sane) :
    (∀ i j k, (i, j, k) ∈ selection x y z ↔ i ∈ x.picks ∧ j ∈ y.picks ∧ k ∈ z.picks) ∧
    (selection x y z).Pairwise fun p q => p.2.2 < q.2.2 ∨ (p.2.2 = q.2.2 ∧ (p.2.1 < q.2.1 ∨ (p.2.1 = q.2.1 ∧ p.1 < q.1))) := by
  refine ⟨fun i j k => mem_selection, ?_⟩
  have hx := (C35_picks sx).2; have hy := (C35_picks sy).2; have hz := (C35_picks sz).2
  unfold selection
  rw [List.pairwise_flatMap]
  constructor
  · intro k _
    rw [List.pairwise_flatMap]
    constructor
    · intro j _
      rw [List.pairwise_map]
      exact hx.imp fun h => .inr ⟨rfl, .inr ⟨rfl, h⟩⟩
    · refine hy.imp fun h => ?_
      intro p hp q hq
      obtain ⟨i, _, rfl⟩ := List.mem_map.mp hp
      obtain ⟨i', _, rfl⟩ := List.mem_map.mp hq
      exact .inr ⟨rfl, .inl h⟩
  · refine hz.imp fun h => ?_
    intro p hp q hq
    obtain ⟨j, _, hp⟩ := List.mem_flatMap.mp hp
    obtain ⟨i, _, rfl⟩ := List.mem_map.mp hp
    obtain ⟨j', _, hq⟩ := List.mem_flatMap.mp hq
    obtain ⟨i', _, rfl⟩ := List.mem_map.mp hq
    exact .inl h

/-- C36 (content): after `gather_real_size`, `make_buf` either leaves every variable with a buffer
that holds exactly the bytes of the selected points, or reports that memory is exhausted — exactly
when an allocation fails.  There is no undefined behaviour, so nothing outside the user's arrays is
read and nothing outside the buffers is written; the memory that existed before is unchanged.

`data i` is the content of the `i`-th user array; it may contain bytes that were never written.

Partial: the product of the three `Max` must be inside `int` and the loop variables must not leave
`int` after the last selected index (part of `Zone.Fits`), see `C36_false_stride`, `C36_false_product`. -/
theorem C36_partial {z : Zone} (f : z.Fits) {h : Heap Byte} (fr : Fresh h) (data : Nat → List (Option Byte))
    (hv : ∀ i d, z.Data[i]? = some d →
      z.Max.x * z.Max.y * z.Max.z * d.size < 18446744073709551616 ∧
      (data i).length = (z.Max.x * z.Max.y * z.Max.z).toNat * d.size ∧ Holds h d.DataP (data i)) :
    (∃ D h' nr, Zone.make_buf ⟨h, z.gathered⟩ = .ok () ⟨h', { z.gathered with Data := D, needreal := nr }⟩ ∧
      Kept h h' ∧ D.length = z.Data.length ∧
      ∀ i d, z.Data[i]? = some d → ∃ p, D[i]? = some { d with buf := p } ∧
        Holds h' p (selectedBytes (z.sel 0) (z.sel 1) (z.sel 2) d.size (data i))) ∨
    ((∃ i d, z.Data[i]? = some d ∧
        h.mem (h.next + i) (d.size * ((z.sel 0).count.toNat * (z.sel 1).count.toNat * (z.sel 2).count.toNat)) = false) ∧
      ∃ D h', Zone.make_buf ⟨h, z.gathered⟩ =
          .err (.text (lit "maybe out of memory: std::bad_alloc")) ⟨h', { z.gathered with Data := D }⟩ ∧ Kept h h') := by
  rcases Zone.make_buf_ok f fr data (fun i d hi => ⟨(hv i d hi).1, (hv i d hi).2.1, (hv i d hi).2.2⟩) with
    ⟨-, D, h', nr, r, b⟩ | ⟨-, hm, D, h', r, k, -⟩
  · exact .inl ⟨D, h', nr, r, b.kept, b.len, b.holds⟩
  · exact .inr ⟨hm, D, h', r, k⟩

/-- C36 (success): the first alternative of `C36_partial` occurs when no allocation fails. -/
theorem C36_success_partial {z : Zone} (f : z.Fits) {h : Heap Byte} (fr : Fresh h) (data : Nat → List (Option Byte))
    (hv : ∀ i d, z.Data[i]? = some d →
      z.Max.x * z.Max.y * z.Max.z * d.size < 18446744073709551616 ∧
      (data i).length = (z.Max.x * z.Max.y * z.Max.z).toNat * d.size ∧ Holds h d.DataP (data i))
    (hm : ∀ k n, h.mem k n = true) :
    ∃ s', Zone.make_buf ⟨h, z.gathered⟩ = .ok () s' := by
  rcases C36_partial f fr data hv with ⟨D, h', nr, r, -⟩ | ⟨⟨i, d, -, h1⟩, -⟩
  · exact ⟨_, r⟩
  · rw [hm] at h1; cases h1

/-- C36 (release): `realise_buf` after a successful `make_buf` frees exactly the buffers. -/
theorem C36_release_partial {z : Zone} (f : z.Fits) {h : Heap Byte} (fr : Fresh h) (data : Nat → List (Option Byte))
    (hv : ∀ i d, z.Data[i]? = some d →
      z.Max.x * z.Max.y * z.Max.z * d.size < 18446744073709551616 ∧
      (data i).length = (z.Max.x * z.Max.y * z.Max.z).toNat * d.size ∧ Holds h d.DataP (data i))
    {s' : St Byte Zone} (r : Zone.make_buf ⟨h, z.gathered⟩ = .ok () s') :
    ∃ h'' z'', Zone.realise_buf s' = .ok () ⟨h'', z''⟩ ∧ h''.blk = h.blk ∧ z''.needreal = false := by
  rcases Zone.make_buf_ok f fr data (fun i d hi => ⟨(hv i d hi).1, (hv i d hi).2.1, (hv i d hi).2.2⟩) with
    ⟨-, D, h', nr, r', b⟩ | ⟨-, -, D, h', r', -⟩
  · rw [r'] at r; cases r
    obtain ⟨h'', D', e, hb, -⟩ := Zone.realise_ok fr b { z.gathered with Data := D, needreal := nr } rfl rfl
    exact ⟨h'', _, e, hb, rfl⟩
  · rw [r'] at r; cases r

/-- a free store with two user arrays: 70 elements of 1 byte and, from byte 3 on, 70 elements of 2 bytes -/
def demoHeap : Heap Byte where
  blk := fun b =>
    if b = 0 then some (.vals 70 fun k => some (UInt8.ofNat k))
    else if b = 1 then some (.vals 143 fun k => some (UInt8.ofNat (k * 3)))
    else none
  next := 2
  mem := fun _ _ => true

def demoVars : Zone := { demoZone with Data := [{ type := .byte, size := 1, DataP := .at 0 0 }, { type := .shortint, size := 2, DataP := .at 1 3 }] }

def demoData (i : Nat) : List (Option Byte) :=
  if i = 0 then window (fun k => some (UInt8.ofNat k)) 0 70 else window (fun k => some (UInt8.ofNat (k * 3))) 3 140

theorem demoFits : demoVars.Fits where
  sane := by
    intro i hi
    match i, hi with
    | 0, _ => constructor <;> decide
    | 1, _ => constructor <;> decide
    | 2, _ => constructor <;> decide
  acc := by
    intro i hi
    match i, hi with
    | 0, _ => show _ < _; decide
    | 1, _ => show _ < _; decide
    | 2, _ => show _ < _; decide
  prod := by decide
  last := by
    intro i hi
    match i, hi with
    | 0, _ => decide +kernel
    | 1, _ => decide +kernel
    | 2, _ => decide +kernel

theorem demoHolds : ∀ i d, demoVars.Data[i]? = some d →
    demoVars.Max.x * demoVars.Max.y * demoVars.Max.z * d.size < 18446744073709551616 ∧
    (demoData i).length = (demoVars.Max.x * demoVars.Max.y * demoVars.Max.z).toNat * d.size ∧ Holds demoHeap d.DataP (demoData i) := by
  intro i d hi
  match i, hi with
  | 0, rfl => exact ⟨by decide, by simp [demoData, window]; rfl, 0, 0, 70, _, rfl, rfl, by simp [demoData, window], by simp [demoData, window]⟩
  | 1, rfl => exact ⟨by decide, by simp [demoData, window]; rfl, 1, 3, 143, _, rfl, rfl, by simp [demoData, window], by simp [demoData, window]⟩

theorem demoFresh : Fresh demoHeap := by
  intro c hc
  have h : 2 ≤ c := hc
  simp only [demoHeap]
  rw [if_neg (by omega), if_neg (by omega)]

/-- the hypotheses of the theorems above hold for a zone with strides, excluded points and two
variables; the selected points are those at 1, 4, 7 in rows 0, 2, 4 of 10 points -/
example : demoVars.Fits ∧ Fresh demoHeap ∧
    selectedBytes (demoVars.sel 0) (demoVars.sel 1) (demoVars.sel 2) 1 (demoData 0) =
      [1, 4, 7, 21, 24, 27, 41, 44, 47].map (fun n => some (UInt8.ofNat n)) ∧
    selectedBytes (demoVars.sel 0) (demoVars.sel 1) (demoVars.sel 2) 2 (demoData 1) =
      [5, 6, 11, 12, 17, 18, 45, 46, 51, 52, 57, 58, 85, 86, 91, 92, 97, 98].map (fun n => some (UInt8.ofNat (n * 3))) :=
  ⟨demoFits, demoFresh, by decide +kernel, by decide +kernel⟩

def Res.isUb {σ α : Type} : Res σ α → Option UB
  | .ub u => some u
  | _ => none

def strideZone : Zone := { demoZone with
  Max := ⟨5, 1, 1⟩, Skip := ⟨2147483647, 1, 1⟩, Begin := ⟨1, 0, 0⟩, End := ⟨0, 0, 0⟩
  Data := [{ type := .byte, size := 1, DataP := .at 0 0 }] }
def bigZone : Zone := { demoZone with
  Max := ⟨65536, 65537, 1⟩, Skip := ⟨2, 1, 1⟩, Begin := ⟨0, 0, 0⟩, End := ⟨0, 0, 0⟩
  Data := [{ type := .byte, size := 1, DataP := .at 0 0 }] }

/-- C36 is false when the loop variable leaves `int`: five points, `Begin = 1`, `Skip = 2147483647` is
accepted by `gather_real_size`, but `si += Skip` overflows. -/
theorem C36_false_stride : ∃ (z : Zone) (h : Heap Byte) (d : TecData) (data : List (Option Byte)),
    (∀ i < 3, (z.sel i).Sane ∧ (z.sel i).Accepted) ∧ z.Max.x * z.Max.y * z.Max.z = 5 ∧ z.Data = [d] ∧ data.length = 5 * d.size ∧
    Fresh h ∧ Holds h d.DataP data ∧ (∀ k n, h.mem k n = true) ∧ Zone.make_buf ⟨h, z.gathered⟩ = .ub .overflow := by
  refine ⟨strideZone,
    demoHeap, { type := .byte, size := 1, DataP := .at 0 0 }, window (fun k => some (UInt8.ofNat k)) 0 5, ?_, by decide, rfl, by decide, demoFresh,
    ⟨0, 0, 70, _, rfl, rfl, by decide, rfl⟩, fun _ _ => rfl, ?_⟩
  · intro i hi
    match i, hi with
    | 0, _ => exact ⟨by constructor <;> decide, by show _ < _; decide⟩
    | 1, _ => exact ⟨by constructor <;> decide, by show _ < _; decide⟩
    | 2, _ => exact ⟨by constructor <;> decide, by show _ < _; decide⟩
  · generalize hr : Zone.make_buf _ = r
    have : Res.isUb r = some .overflow := by rw [← hr]; decide +kernel
    cases r <;> simp_all [Res.isUb]

theorem length_window {α : Type} (c : Nat → α) (o n : Nat) : (window c o n).length = n := by simp [window]

theorem holds_window {h : Heap Byte} {b len n : Nat} {c : Nat → Option Byte} (hb : h.blk b = some (.vals len c)) (hn : n ≤ len) :
    Holds h (.at b 0) (window c 0 n) :=
  ⟨b, 0, len, c, rfl, hb, by rw [length_window]; omega, by rw [length_window]⟩

/-- C36 is false for large zones: with 65536 × 65537 points and `Skip = 2` in the first dimension the
number of selected points overflows `int`. -/
theorem C36_false_product : ∃ (z : Zone) (h : Heap Byte) (d : TecData) (data : List (Option Byte)),
    (∀ i < 3, (z.sel i).Sane ∧ (z.sel i).Accepted) ∧ z.Data = [d] ∧
    data.length = (z.Max.x * z.Max.y * z.Max.z).toNat * d.size ∧
    Fresh h ∧ Holds h d.DataP data ∧ (∀ k n, h.mem k n = true) ∧ Zone.make_buf ⟨h, z.gathered⟩ = .ub .overflow := by
  have s : ∀ i < 3, ((bigZone.sel i).Sane ∧ (bigZone.sel i).Accepted) := by
    intro i hi
    match i, hi with
    | 0, _ => exact ⟨by constructor <;> decide, by show _ < _; decide⟩
    | 1, _ => exact ⟨by constructor <;> decide, by show _ < _; decide⟩
    | 2, _ => exact ⟨by constructor <;> decide, by show _ < _; decide⟩
  refine ⟨bigZone,
    { blk := fun b => if b = 0 then some (.vals 4295032832 fun _ => some 0) else none, next := 1, mem := fun _ _ => true },
    { type := .byte, size := 1, DataP := .at 0 0 }, window (fun _ => some 0) 0 4295032832, s, rfl,
    (length_window _ _ _).trans (by decide), ?_, holds_window rfl (Nat.le_refl _), fun _ _ => rfl, ?_⟩
  · intro c hc
    have h : 1 ≤ c := hc
    simp only []
    rw [if_neg (by omega)]
  · have c0 := Sane.count_eq (s 0 (by decide)).1 (s 0 (by decide)).2
    have c1 := Sane.count_eq (s 1 (by decide)).1 (s 1 (by decide)).2
    generalize hz : bigZone = z at c0 c1 s
    have e0 : (z.sel 0).count = 32768 := by rw [c0, ← hz]; decide
    have e1 : (z.sel 1).count = 65537 := by rw [c1, ← hz]; decide
    have ep : z.gathered.realProd = .ub .overflow := by
      unfold Zone.realProd Zone.gathered
      simp only [e0, e1]; rfl
    unfold Zone.make_buf
    rw [M.bind_ok (St.obj_run _), if_neg (by rw [← hz]; decide)]
    have eD : z.gathered.Data = [{ type := .byte, size := 1, DataP := .at 0 0 }] := by rw [← hz]; rfl
    simp only [eD, eachIdx, Zone.fillBuf, Zone.newBuf, bind_assoc]
    rw [M.bind_ok (St.obj_run _)]
    simp only [ep, M.liftM_eq, M.lift_ub, M.undef_bind, M.undef_run]

end Verif.Props
