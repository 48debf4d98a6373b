import Verif.Proof.Tec1
import Verif.Proof.Quiet
import Verif.Spec.TecSizeAll
/-!
# `gather_real_size` of arbitrary settings
-/
namespace Verif.Tec
open Spec

/-- the messages of `gather_real_size` -/
def sizeMsg (name : Str) (i n : Nat) : Str :=
  if n = 0 then lit "Zone(" ++ name ++ lit "): " ++ [index3 i] ++ lit "Max connot be zero"
  else if n = 1 then lit "Zone(" ++ name ++ lit "): " ++ [index3 i] ++ lit "Skip must be positive"
  else lit "Zone(" ++ name ++ lit "): sum of " ++ [index3 i] ++ lit "Begin and " ++ [index3 i]
    ++ lit "End is not smaller than " ++ [index3 i] ++ lit "Max"

theorem Zone.checkDim_eq (z : Zone) {i : Nat} (hi : i < 3) :
    z.checkDim i = match (z.sel i).verdict with
      | .pass => .ok ()
      | .refuse n => .err (.text (sizeMsg z.ZoneName i n))
      | .overflow => .ub .overflow := by
  unfold Zone.checkDim DimSel.verdict
  rw [z.get_Max hi, z.get_Skip hi, z.get_Begin hi, z.get_End hi]
  simp only [Out.ok_bind]
  by_cases h0 : (z.sel i).max = 0
  · rw [if_pos h0, if_pos h0]; rfl
  · rw [if_neg h0, if_neg h0]
    by_cases h1 : (z.sel i).skip = 0
    · rw [if_pos h1, if_pos h1]; rfl
    · rw [if_neg h1, if_neg h1]
      by_cases h2 : InI32 ((z.sel i).head + (z.sel i).tail)
      · rw [i32_ok h2, if_neg (by simpa using h2)]
        simp only [Out.ok_bind]
        by_cases h3 : (z.sel i).max ≤ (z.sel i).head + (z.sel i).tail
        · rw [if_pos h3, if_pos h3]; rfl
        · rw [if_neg h3, if_neg h3]
      · rw [if_pos h2, i32_bad' h2]; rfl

theorem verdict_pass {d : DimSel} : d.verdict = .pass ↔ d.max ≠ 0 ∧ d.skip ≠ 0 ∧ InI32 (d.head + d.tail) ∧ d.head + d.tail < d.max := by
  unfold DimSel.verdict
  by_cases h0 : d.max = 0
  · simp [h0]
  · by_cases h1 : d.skip = 0
    · simp [h0, h1]
    · by_cases h2 : InI32 (d.head + d.tail)
      · by_cases h3 : d.max ≤ d.head + d.tail
        · simp [h0, h1, h2, h3]
        · simp [h0, h1, h2, h3]; omega
      · simp [h0, h1, h2]

theorem real_eq {d : DimSel} (h : d.verdict = .pass) :
    d.real = (d.max - d.head - d.tail).tdiv d.skip + (if (d.max - d.head - d.tail).tmod d.skip ≠ 0 then 1 else 0) := by
  obtain ⟨-, h1, -, h3⟩ := verdict_pass.1 h
  unfold DimSel.real
  have hx : 0 ≤ d.max - d.head - d.tail := by omega
  by_cases hp : 0 < d.skip
  · rw [if_pos hp]
    unfold DimSel.count DimSel.picks
    rw [length_picks hp (by omega)]
    rw [Int.tdiv_eq_ediv_of_nonneg hx, Int.tmod_eq_emod_of_nonneg hx]
    generalize hA : d.max - d.head - d.tail = A at *
    rw [show d.max - d.tail - d.head + d.skip - 1 = A + d.skip - 1 by omega]
    have h1 := Int.mul_ediv_add_emod A d.skip
    have h2 := Int.emod_nonneg A (b := d.skip) (by omega)
    have h3 := Int.emod_lt_of_pos A hp
    generalize A / d.skip = q at *
    generalize A % d.skip = r at *
    rw [show A + d.skip - 1 = (r + d.skip - 1) + q * d.skip by rw [Int.mul_comm q]; omega, Int.add_mul_ediv_right _ _ (by omega)]
    by_cases hr : r = 0
    · subst hr
      rw [if_neg (by simp), Int.ediv_eq_zero_of_lt (by omega) (by omega)]; omega
    · rw [if_pos hr, show r + d.skip - 1 = (r - 1) + 1 * d.skip by omega, Int.add_mul_ediv_right _ _ (by omega),
        Int.ediv_eq_zero_of_lt (by omega) (by omega)]; omega
  · rw [if_neg hp]
    generalize hA : d.max - d.head - d.tail = A at *
    generalize d.skip = k at *
    obtain ⟨k, rfl⟩ : ∃ j, k = -j := ⟨-k, by omega⟩
    rw [Int.neg_neg, Int.tdiv_neg, Int.tmod_neg, Int.tdiv_eq_ediv_of_nonneg hx, Int.tmod_eq_emod_of_nonneg hx]
    by_cases hr : A % k = 0
    · rw [if_pos hr, if_neg (by simpa using hr)]; omega
    · rw [if_neg hr, if_pos hr]; omega

theorem real_int {d : DimSel} (h : d.verdict = .pass) (hf : d.SpanFits) (hi : d.IsInt) :
    InI32 ((d.max - d.head - d.tail).tdiv d.skip) ∧ InI32 d.real := by
  rw [real_eq h]
  obtain ⟨-, h1, -, h3⟩ := verdict_pass.1 h
  obtain ⟨-, hf⟩ := hf
  obtain ⟨-, hs, -, -⟩ := hi
  have hx : 1 ≤ d.max - d.head - d.tail := by omega
  unfold InI32 at *
  generalize d.max - d.head - d.tail = A at *
  generalize d.skip = k at *
  have e := Int.tmod_add_mul_tdiv A k
  have b : (A.tdiv k).natAbs ≤ A.natAbs := by
    rw [Int.natAbs_tdiv]; exact Nat.div_le_self _ _
  by_cases hr : A.tmod k ≠ 0
  · rw [if_pos hr]
    have hk : k.natAbs ≠ 1 := by
      intro c
      have : k = 1 ∨ k = -1 := by omega
      rcases this with rfl | rfl
      · exact hr (Int.tmod_one _)
      · rw [Int.tmod_neg] at hr; exact hr (Int.tmod_one _)
    have b2 : (A.tdiv k).natAbs ≤ A.natAbs / 2 := by
      rw [Int.natAbs_tdiv]; exact Nat.div_le_div_left (by omega) (by decide)
    omega
  · rw [if_neg hr]; omega

theorem Zone.realDim_all {z : Zone} {i : Nat} (hi : i < 3) (v : (z.sel i).verdict = .pass) (hf : (z.sel i).SpanFits) (ht : (z.sel i).IsInt) :
    Zone.realDim i z = .ok () { z with
      Real_Max := z.Real_Max.set i (z.sel i).real
      Real_Dim := if (z.sel i).real = 1 then z.Real_Dim - 1 else z.Real_Dim
      noskip := z.noskip && (z.sel i).skip == 1
      noexc := z.noexc && (z.sel i).head == 0 && (z.sel i).tail == 0 } := by
  have c := real_eq v
  obtain ⟨hq1, hq2⟩ := real_int v hf ht
  obtain ⟨-, h1, -, h3⟩ := verdict_pass.1 v
  unfold Zone.realDim
  rw [M.bind_ok (M.get_run z), z.get_Max hi, z.get_Skip hi, z.get_Begin hi, z.get_End hi]
  simp only [M.liftM_eq, M.lift_ok, pure_bind]
  generalize z.sel i = d at *
  rw [i32_ok hf.1]
  simp only [M.lift_ok, pure_bind]
  rw [i32_ok hf.2]
  simp only [M.lift_ok, pure_bind]
  unfold cdiv cmod
  rw [if_neg h1, if_neg h1, i32_ok hq1, if_pos hq1]
  simp only [M.lift_ok, pure_bind]
  rw [M.modify_bind_run]
  by_cases hr : (d.max - d.head - d.tail).tmod d.skip ≠ 0
  · rw [if_pos hr] at c
    rw [if_pos hr, ← c, i32_ok hq2]
    simp only [M.lift_ok, pure_bind, M.modify_bind_run, M.get_bind_run, I3.set_set, I3.set_get _ hi]
    split <;> rename_i h <;> simp [h, M.bind_run]
  · rw [if_neg hr, Int.add_zero] at c
    rw [if_neg hr, ← c]
    simp only [M.lift_ok, pure_bind, M.get_bind_run, I3.set_get _ hi]
    split <;> rename_i h <;> simp [h, M.bind_run]

theorem Zone.realDim_over {z : Zone} {i : Nat} (hi : i < 3) (hf : ¬(z.sel i).SpanFits) : Zone.realDim i z = .ub .overflow := by
  unfold Zone.realDim
  rw [M.bind_ok (M.get_run z), z.get_Max hi, z.get_Skip hi, z.get_Begin hi, z.get_End hi]
  simp only [M.liftM_eq, M.lift_ok, pure_bind]
  generalize z.sel i = d at *
  by_cases h1 : InI32 (d.max - d.head)
  · rw [i32_ok h1]
    simp only [M.lift_ok, pure_bind]
    rw [i32_bad' (fun c => hf ⟨h1, c⟩)]; rfl
  · rw [i32_bad' h1]; rfl

/-- the zone after `gather_real_size` -/
def Zone.measured (z : Zone) : Zone := { z with
  Dim := nonUnit fun i => (z.sel i).max
  Real_Max := ⟨(z.sel 0).real, (z.sel 1).real, (z.sel 2).real⟩
  Real_Dim := nonUnit fun i => (z.sel i).real
  noskip := (z.sel 0).skip == 1 && (z.sel 1).skip == 1 && (z.sel 2).skip == 1
  noexc := ((z.sel 0).head == 0 && (z.sel 0).tail == 0) && ((z.sel 1).head == 0 && (z.sel 1).tail == 0) &&
    ((z.sel 2).head == 0 && (z.sel 2).tail == 0) }

theorem Zone.gather_refuse {z : Zone} {i n : Nat} (hi : i < 3) (hb : ∀ j < i, (z.sel j).verdict = .pass) (h : (z.sel i).verdict = .refuse n) :
    Zone.gather_real_size z = .err (.text (sizeMsg z.ZoneName i n)) z := by
  have e := z.checkDim_eq hi
  rw [h] at e
  have p : ∀ j < i, z.checkDim j = .ok () := fun j hj => by rw [z.checkDim_eq (by omega), hb j hj]
  unfold Zone.gather_real_size
  rw [M.get_bind_run]
  match i, hi with
  | 0, _ => rw [e]; rfl
  | 1, _ => rw [p 0 (by decide), e]; rfl
  | 2, _ => rw [p 0 (by decide), p 1 (by decide), e]; rfl

theorem Zone.gather_over {z : Zone} {i : Nat} (hi : i < 3) (hb : ∀ j < i, (z.sel j).verdict = .pass) (h : (z.sel i).verdict = .overflow) :
    Zone.gather_real_size z = .ub .overflow := by
  have e := z.checkDim_eq hi
  rw [h] at e
  have p : ∀ j < i, z.checkDim j = .ok () := fun j hj => by rw [z.checkDim_eq (by omega), hb j hj]
  unfold Zone.gather_real_size
  rw [M.get_bind_run]
  match i, hi with
  | 0, _ => rw [e]; rfl
  | 1, _ => rw [p 0 (by decide), e]; rfl
  | 2, _ => rw [p 0 (by decide), p 1 (by decide), e]; rfl

theorem Zone.gather_pass {z : Zone} (hb : ∀ j < 3, (z.sel j).verdict = .pass) (ht : ∀ j < 3, (z.sel j).IsInt) :
    ((∀ j < 3, (z.sel j).SpanFits) → Zone.gather_real_size z = .ok () z.measured) ∧
    ((∃ j < 3, ¬(z.sel j).SpanFits) → Zone.gather_real_size z = .ub .overflow) := by
  have p : ∀ j < 3, z.checkDim j = .ok () := fun j hj => by rw [z.checkDim_eq (by omega), hb j hj]
  unfold Zone.gather_real_size
  rw [M.get_bind_run, p 0 (by decide), p 1 (by decide), p 2 (by decide)]
  simp only [M.liftM_eq, M.lift_ok, pure_bind, M.modify_bind_run]
  simp only [each]
  rw [M.bind_run, M.bind_ok (Zone.orgDim_eq (by decide)), M.bind_ok (Zone.orgDim_eq (by decide)),
    M.bind_ok (Zone.orgDim_eq (by decide))]
  simp only [M.pure_run, M.modify_bind_run]
  constructor
  · intro hf
    rw [M.bind_ok (Zone.realDim_all (by decide) (by exact hb 2 (by decide)) (by exact hf 2 (by decide)) (by exact ht 2 (by decide)))]
    rw [M.bind_ok (Zone.realDim_all (by decide) (by exact hb 1 (by decide)) (by exact hf 1 (by decide)) (by exact ht 1 (by decide)))]
    rw [M.bind_ok (Zone.realDim_all (by decide) (by exact hb 0 (by decide)) (by exact hf 0 (by decide)) (by exact ht 0 (by decide)))]
    rw [M.pure_run]
    congr 1
    unfold Zone.measured nonUnit
    simp only [Zone.sel, Bool.true_and]
    congr 1
    · simp only [List.filter_cons, List.filter_nil]
      generalize z.Max.x = A; generalize z.Max.y = B; generalize z.Max.z = C
      by_cases h0 : A = 1 <;> by_cases h1 : B = 1 <;> by_cases h2 : C = 1 <;> simp [h0, h1, h2]
    · simp only [List.filter_cons, List.filter_nil]
      generalize DimSel.real _ = A; generalize DimSel.real _ = B; generalize DimSel.real _ = C
      by_cases h0 : A = 1 <;> by_cases h1 : B = 1 <;> by_cases h2 : C = 1 <;> simp [h0, h1, h2]
    · generalize (z.Skip.x == 1) = A; generalize (z.Skip.y == 1) = B; generalize (z.Skip.z == 1) = C
      cases A <;> cases B <;> cases C <;> rfl
    · generalize (z.Begin.x == 0) = A; generalize (z.Begin.y == 0) = B; generalize (z.Begin.z == 0) = C
      generalize (z.End.x == 0) = A'; generalize (z.End.y == 0) = B'; generalize (z.End.z == 0) = C'
      cases A <;> cases B <;> cases C <;> cases A' <;> cases B' <;> cases C' <;> rfl
  · intro hf
    by_cases f2 : (z.sel 2).SpanFits
    · rw [M.bind_ok (Zone.realDim_all (by decide) (by exact hb 2 (by decide)) (by exact f2) (by exact ht 2 (by decide)))]
      by_cases f1 : (z.sel 1).SpanFits
      · rw [M.bind_ok (Zone.realDim_all (by decide) (by exact hb 1 (by decide)) (by exact f1) (by exact ht 1 (by decide)))]
        by_cases f0 : (z.sel 0).SpanFits
        · obtain ⟨j, hj, c⟩ := hf
          exfalso; apply c
          match j, hj with
          | 0, _ => exact f0
          | 1, _ => exact f1
          | 2, _ => exact f2
        · rw [M.bind_ub (Zone.realDim_over (by decide) (by exact f0))]
      · rw [M.bind_ub (Zone.realDim_over (by decide) (by exact f1))]
    · rw [M.bind_ub (Zone.realDim_over (by decide) (by exact f2))]

end Verif.Tec
