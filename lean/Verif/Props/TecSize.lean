import Verif.Proof.Tec1
/-!
# C35: real size of a Tecplot zone

`Zone.sel z i` are the four numbers `Max[i], Skip[i], Begin[i], End[i]`; `DimSel.picks` the list of
selected indices and `DimSel.count` its length (`Spec/Tec.lean`).
-/
namespace Verif.Props
open Spec Tec

/-- C35 (selection): `picks` lists exactly the indices `Begin + t * Skip` below `Max - End`, in
increasing order. -/
theorem C35_picks {d : DimSel} (s : d.Sane) :
    (∀ v, v ∈ d.picks ↔ ∃ t : Nat, v = d.head + t * d.skip ∧ v < d.max - d.tail) ∧ d.picks.Pairwise (· < ·) := by
  constructor
  · intro v
    unfold DimSel.picks
    rw [mem_picks]
    constructor
    · rintro ⟨h1, h2, h3⟩
      refine ⟨((v - d.head) / d.skip).toNat, ?_, h2⟩
      have := Int.mul_ediv_add_emod (v - d.head) d.skip
      have h4 : 0 ≤ (v - d.head) / d.skip := Int.ediv_nonneg (by omega) (by have := s.pos; omega)
      rw [Int.toNat_of_nonneg h4, Int.mul_comm ((v - d.head) / d.skip)]; omega
    · rintro ⟨t, h1, h2⟩
      have : 0 ≤ (t : Int) * d.skip := Int.mul_nonneg (by omega) (by have := s.pos; omega)
      refine ⟨by omega, h2, ?_⟩
      rw [h1, show d.head + t * d.skip - d.head = t * d.skip by omega, Int.mul_emod_left]
  · unfold DimSel.picks picks upto
    apply List.Pairwise.filter
    rw [List.pairwise_map]
    apply List.Pairwise.imp _ List.pairwise_lt_range
    intro a b h; omega

/-- C35 (size): for settings inside `int` with positive stride, nothing negative left out and
`Begin + End` inside `int`: when all three selections are non-empty `gather_real_size` returns, sets
the real size to the number of selected indices, `Dim` and `Real_Dim` to the number of
extents different from 1, and changes nothing else but the two flags.

Partial: without `InI32 (Begin + End)` the check itself overflows, see `C35_false`. -/
theorem C35_partial {z : Zone} (s : ∀ i < 3, (z.sel i).Sane) (a : ∀ i < 3, (z.sel i).Accepted) :
    ∃ z', Zone.gather_real_size z = .ok () z' ∧
      (∀ i < 3, z'.Real_Max.get i = .ok (z.sel i).count ∧ 1 ≤ (z.sel i).count) ∧
      (∀ i < 3, (z.sel i).skip = 1 → (z.sel i).head = 0 → (z.sel i).tail = 0 → (z.sel i).count = (z.sel i).max) ∧
      z'.Dim = nonUnit (fun i => (z.sel i).max) ∧ z'.Real_Dim = nonUnit (fun i => (z.sel i).count) ∧
      (z'.noskip = true ↔ ∀ i < 3, (z.sel i).skip = 1) ∧
      (z'.noexc = true ↔ ∀ i < 3, (z.sel i).head = 0 ∧ (z.sel i).tail = 0) ∧
      { z' with Dim := z.Dim, Real_Dim := z.Real_Dim, Real_Max := z.Real_Max, noskip := z.noskip, noexc := z.noexc } = z := by
  refine ⟨_, Zone.gather_ok s a, ?_, ?_, rfl, rfl, ?_, ?_, rfl⟩
  · intro i hi
    refine ⟨?_, Sane.count_pos (s i hi) (a i hi)⟩
    match i, hi with
    | 0, _ => rfl
    | 1, _ => rfl
    | 2, _ => rfl
  · intro i hi h1 h2 h3
    have := Sane.count_eq (s i hi) (a i hi)
    rw [this, h1, h2, h3]; simp
  · simp only [Zone.gathered, Bool.and_eq_true, beq_iff_eq]
    constructor
    · rintro ⟨⟨h0, h1⟩, h2⟩ i hi
      match i, hi with
      | 0, _ => exact h0
      | 1, _ => exact h1
      | 2, _ => exact h2
    · intro h; exact ⟨⟨h 0 (by decide), h 1 (by decide)⟩, h 2 (by decide)⟩
  · simp only [Zone.gathered, Bool.and_eq_true, beq_iff_eq]
    constructor
    · rintro ⟨⟨h0, h1⟩, h2⟩ i hi
      match i, hi with
      | 0, _ => exact h0
      | 1, _ => exact h1
      | 2, _ => exact h2
    · intro h; exact ⟨⟨h 0 (by decide), h 1 (by decide)⟩, h 2 (by decide)⟩

/-- C35 (rejection): an empty selection in any dimension is rejected; the zone is unchanged. -/
theorem C35_reject {z : Zone} (s : ∀ i < 3, (z.sel i).Sane) (a : ∃ i < 3, ¬(z.sel i).Accepted) :
    ∃ m, Zone.gather_real_size z = .err (.text m) z := by
  apply Zone.gather_err s
  rintro h; obtain ⟨i, hi, a⟩ := a; exact a (h i hi)

/-- C35 (rejection): a zero stride is rejected, unless an earlier test failed or overflowed. -/
theorem C35_skip {z : Zone} {i : Nat} (hi : i < 3) (h0 : (z.sel i).skip = 0)
    (hb : ∀ j < i, (z.sel j).Sane ∧ (z.sel j).Accepted) : ∃ m, Zone.gather_real_size z = .err (.text m) z :=
  Zone.gather_skip hi h0 hb

/-- C35 (getters): `get_real_max`, `get_real_max_C` and `get_real_dim` answer with the numbers of
the specification; `get_real_max_C` counts the dimensions of a `DIM`-dimensional zone from the last. -/
theorem C35_get {z : Zone} (s : ∀ i < 3, (z.sel i).Sane) (a : ∀ i < 3, (z.sel i).Accepted) :
    (∀ d < 3, Zone.get_real_max d z = .ok (z.sel d).count z.gathered) ∧
    (∀ DIM ≤ 3, ∀ d < DIM, Zone.get_real_max_C DIM d z = .ok (z.sel (DIM - 1 - d)).count z.gathered) ∧
    Zone.get_real_dim z = .ok (nonUnit fun i => (z.sel i).count) z.gathered := by
  refine ⟨?_, ?_, ?_⟩
  · intro d hd
    unfold Zone.get_real_max
    rw [M.bind_ok (Zone.gather_ok s a), M.get_bind_run]
    match d, hd with
    | 0, _ => rfl
    | 1, _ => rfl
    | 2, _ => rfl
  · intro DIM hD d hd
    unfold Zone.get_real_max_C
    rw [M.bind_ok (Zone.gather_ok s a), M.get_bind_run]
    have : toU32 ((DIM : Int) - 1 - d) = DIM - 1 - d := by unfold toU32; omega
    rw [this]
    generalize hi : DIM - 1 - d = i
    have hi : i < 3 := by omega
    match i, hi with
    | 0, _ => rfl
    | 1, _ => rfl
    | 2, _ => rfl
  · unfold Zone.get_real_dim
    rw [M.bind_ok (Zone.gather_ok s a), M.get_bind_run]; rfl

def demoZone : Zone := { (Zone.new (lit "z") 0) with
  Max := ⟨10, 7, 1⟩, Skip := ⟨3, 2, 1⟩, Begin := ⟨1, 0, 0⟩, End := ⟨1, 1, 0⟩ }

/-- the hypotheses hold for a zone with strides and excluded points -/
example : (∀ i < 3, (demoZone.sel i).Sane) ∧ (∀ i < 3, (demoZone.sel i).Accepted) ∧
    (demoZone.sel 0).picks = [1, 4, 7] ∧ (demoZone.sel 1).picks = [0, 2, 4] ∧
    demoZone.gathered.Real_Max = ⟨3, 3, 1⟩ ∧ demoZone.gathered.Real_Dim = 2 := by
  refine ⟨?_, ?_, by decide +kernel, by decide +kernel, by decide +kernel, by decide +kernel⟩
  · intro i hi
    match i, hi with
    | 0, _ => constructor <;> decide
    | 1, _ => constructor <;> decide
    | 2, _ => constructor <;> decide
  · intro i hi
    match i, hi with
    | 0, _ => show _ < _; decide
    | 1, _ => show _ < _; decide
    | 2, _ => show _ < _; decide

/-- C35 is false without the bound on `Begin + End`: the test of the settings overflows. -/
theorem C35_false : ∃ z : Zone, (∀ i < 3, InI32 (z.sel i).max ∧ (z.sel i).skip = 1 ∧ InI32 (z.sel i).head ∧
    0 ≤ (z.sel i).head ∧ InI32 (z.sel i).tail ∧ 0 ≤ (z.sel i).tail) ∧ Zone.gather_real_size z = .ub .overflow := by
  refine ⟨{ demoZone with Skip := ⟨1, 1, 1⟩, Begin := ⟨2147483647, 0, 0⟩, End := ⟨1, 0, 0⟩ }, ?_, rfl⟩
  intro i hi
  match i, hi with
  | 0, _ => decide
  | 1, _ => decide
  | 2, _ => decide

/-- A negative stride passes although the text of the message says `Skip must be positive`;
the real size is then negative or zero. -/
theorem C35_negative_skip : ∃ z : Zone, (z.sel 0).skip < 0 ∧ ∃ z', Zone.gather_real_size z = .ok () z' ∧ z'.Real_Max.x < 0 :=
  ⟨{ demoZone with Skip := ⟨-1, 1, 1⟩ }, by decide, _, rfl, by decide⟩

/-- A negative `Begin` passes: the selection then starts before the user's array. -/
theorem C35_negative_begin : ∃ z : Zone, (z.sel 0).head < 0 ∧ ∃ z', Zone.gather_real_size z = .ok () z' ∧
    z'.Real_Max.x > (z.sel 0).max :=
  ⟨{ demoZone with Begin := ⟨-5, 0, 0⟩, Skip := ⟨1, 1, 1⟩ }, by decide, _, rfl, by decide⟩

/-- A zone with a negative `Max` passes when `Begin` is negative enough. -/
theorem C35_negative_max : ∃ z : Zone, (z.sel 0).max < 0 ∧ ∃ z', Zone.gather_real_size z = .ok () z' :=
  ⟨{ demoZone with Max := ⟨-3, 7, 1⟩, Begin := ⟨-5, 0, 0⟩, Skip := ⟨1, 1, 1⟩ }, by decide, _, rfl⟩

end Verif.Props
