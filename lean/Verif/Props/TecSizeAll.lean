import Verif.Proof.TecSizeAll
import Verif.Props.TecSize
/-!
# Arbitrary settings of a zone: C35
-/
namespace Verif.Props
open Spec Tec

/-- C35 for all `int` settings, negative ones included: the first dimension that does not pass decides; it is refused with its
message and an unchanged zone, or `Begin + End` overflows.  If all dimensions pass, the sizes are `DimSel.real`, unless
`Max - Begin` or `Max - Begin - End` overflows. -/
theorem C35_exact (z : Zone) (ht : ∀ i < 3, (z.sel i).IsInt) :
    (∀ i < 3, ∀ n, (∀ j < i, (z.sel j).verdict = .pass) → (z.sel i).verdict = .refuse n →
      Zone.gather_real_size z = .err (.text (sizeMsg z.ZoneName i n)) z) ∧
    (∀ i < 3, (∀ j < i, (z.sel j).verdict = .pass) → (z.sel i).verdict = .overflow → Zone.gather_real_size z = .ub .overflow) ∧
    ((∀ i < 3, (z.sel i).verdict = .pass) → (∃ i < 3, ¬(z.sel i).SpanFits) → Zone.gather_real_size z = .ub .overflow) ∧
    ((∀ i < 3, (z.sel i).verdict = .pass) → (∀ i < 3, (z.sel i).SpanFits) →
      ∃ z', Zone.gather_real_size z = .ok () z' ∧
        (∀ i < 3, z'.Real_Max.get i = .ok (z.sel i).real) ∧
        z'.Dim = nonUnit (fun i => (z.sel i).max) ∧ z'.Real_Dim = nonUnit (fun i => (z.sel i).real) ∧
        { z' with Dim := z.Dim, Real_Dim := z.Real_Dim, Real_Max := z.Real_Max, noskip := z.noskip, noexc := z.noexc } = z) := by
  refine ⟨fun i hi n hb h => Zone.gather_refuse hi hb h, fun i hi hb h => Zone.gather_over hi hb h, fun hb h => (Zone.gather_pass hb ht).2 h,
    fun hb h => ⟨_, (Zone.gather_pass hb ht).1 h, ?_, rfl, rfl, rfl⟩⟩
  intro i hi
  match i, hi with
  | 0, _ => rfl
  | 1, _ => rfl
  | 2, _ => rfl

/-- for positive strides the size is the number of selected indices, for negative ones it is not positive unless the stride
exceeds the number of points left -/
theorem C35_exact_real (d : DimSel) (h : d.verdict = .pass) :
    (0 < d.skip → d.real = d.picks.length) ∧ (d.skip < 0 → d.real ≤ 1 ∧ (d.real = 1 ↔ d.max - d.head - d.tail < -d.skip)) := by
  obtain ⟨-, h1, -, h3⟩ := verdict_pass.1 h
  constructor
  · intro hp
    unfold DimSel.real
    rw [if_pos hp]; rfl
  · intro hn
    unfold DimSel.real
    rw [if_neg (by omega)]
    have hx : 1 ≤ d.max - d.head - d.tail := by omega
    generalize d.max - d.head - d.tail = A at *
    have hk : 0 < -d.skip := by omega
    generalize -d.skip = k at *
    have e := Int.mul_ediv_add_emod A k
    have h4 := Int.emod_lt_of_pos A hk
    have h5 := Int.ediv_nonneg (a := A) (b := k) (by omega) (by omega)
    have h6 : A / k = 0 ↔ A < k := by
      constructor
      · intro c; rw [c] at e; omega
      · intro c; exact Int.ediv_eq_zero_of_lt (by omega) c
    by_cases hr : A % k = 0
    · rw [if_pos hr]
      have : A / k ≠ 0 := by intro c; rw [c, hr] at e; omega
      refine ⟨by omega, ?_⟩
      rw [← h6]; omega
    · rw [if_neg hr]
      refine ⟨by omega, ?_⟩
      rw [← h6]; omega

/-- three settings, one for each kind of judgement; and one whose span overflows -/
example : (DimSel.mk 10 (-3) 0 0).verdict = .pass ∧ (DimSel.mk 10 (-3) 0 0).real = -2 ∧ (DimSel.mk 10 0 0 0).verdict = .refuse 1 ∧
    (DimSel.mk 10 1 2147483647 1).verdict = .overflow ∧ (DimSel.mk 2147483647 1 (-5) 0).verdict = .pass ∧
    ¬(DimSel.mk 2147483647 1 (-5) 0).SpanFits := by
  refine ⟨by decide, by decide, by decide, by decide, by decide, fun h => ?_⟩
  have := h.1.2
  simp only at this; omega

/-- `int` settings: a zone with a negative stride -/
example : ∀ i < 3, ({ demoZone with Skip := ⟨-1, 1, 1⟩ } : Zone).sel i |>.IsInt := by
  intro i hi
  match i, hi with
  | 0, _ => unfold DimSel.IsInt; decide
  | 1, _ => unfold DimSel.IsInt; decide
  | 2, _ => unfold DimSel.IsInt; decide

end Verif.Props
