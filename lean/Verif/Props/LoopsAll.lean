import Verif.Proof.Quiet
import Verif.Proof.Range
/-!
# C21: every range

`EndsFit`: the ends of the range are representable.
-/
namespace Verif.Props
open Spec

/-- C21 (1D), every range that C19 leaves out: if an end is no `int` the loop is undefined
behaviour; if the first size that is not positive is zero, the function is not called, whatever the
later sizes are; if it is negative, the loop of a function that throws nothing is undefined behaviour. -/
theorem C21_exact_d1 (chk : Bool) (r : D1.RangeT) (σ : Type) (fn : Int → M σ Unit) :
    (¬ r.EndsFit → ∀ s, D1.PD_For_1D chk r fn s = .ub .overflow) ∧
    (r.EndsFit → (r.s = 0) → D1.PD_For_1D chk r fn = pure ()) ∧
    (r.EndsFit → (r.s < 0) → (∀ i s e s', fn i s ≠ .err e s') → ∀ s, ∃ u, D1.PD_For_1D chk r fn s = .ub u) := by
  unfold D1.RangeT.EndsFit
  refine ⟨fun he s => ?_, fun he hs => ?_, fun he hs q s => ?_⟩
  · simp only [D1.PD_For_1D, D1.RangeT.begin_0, D1.RangeT.end_0, M.monadLift_eq, M.liftM_eq, i32_bad' he]; rfl
  · funext s
    simp only [D1.PD_For_1D, D1.RangeT.begin_0, D1.RangeT.end_0, M.monadLift_eq, M.liftM_eq, i32_ok he, M.lift_ok, pure_bind]
    exact forI_none (by omega) _ _
  · simp only [D1.PD_For_1D, D1.RangeT.begin_0, D1.RangeT.end_0, M.monadLift_eq, M.liftM_eq, i32_ok he, M.lift_ok, pure_bind]
    exact forI_ub (by omega) q s

/-- the three cases -/
example : (D1.RangeT.mk 3 0).EndsFit ∧ (D1.RangeT.mk 3 (-2)).EndsFit ∧
    ¬ (D1.RangeT.mk 2147483647 1).EndsFit ∧
    D1.PD_For_1D true ⟨3, 0⟩ (fun _ n => .ok () (n + 1)) (0 : Nat) = .ok () 0 := by
  simp only [D1.RangeT.EndsFit, InI32]
  exact ⟨by omega, by omega, by omega, rfl⟩

/-- C21 (2D), every range that C19 leaves out: if an end is no `int` the loop is undefined
behaviour; if the first size that is not positive is zero, the function is not called, whatever the
later sizes are; if it is negative, the loop of a function that throws nothing is undefined behaviour. -/
theorem C21_exact_d2 (chk : Bool) (r : D2.RangeT) (σ : Type) (fn : Int → Int → M σ Unit) :
    (¬ r.EndsFit → ∀ s, D2.PD_For_2D chk r fn s = .ub .overflow) ∧
    (r.EndsFit → (r.s0 = 0 ∨ (0 < r.s0 ∧ r.s1 = 0)) → D2.PD_For_2D chk r fn = pure ()) ∧
    (r.EndsFit → (r.s0 < 0 ∨ (0 < r.s0 ∧ r.s1 < 0)) → (∀ i j s e s', fn i j s ≠ .err e s') → ∀ s, ∃ u, D2.PD_For_2D chk r fn s = .ub u) := by
  unfold D2.RangeT.EndsFit
  refine ⟨fun he s => ?_, fun he hs => ?_, fun he hs q s => ?_⟩
  · simp only [D2.PD_For_2D, D2.RangeT.begin_0, D2.RangeT.end_0, D2.RangeT.begin_1, D2.RangeT.end_1, M.monadLift_eq, M.liftM_eq, M.lift_ok, pure_bind]
    by_cases f0 : InI32 (r.b0 + r.s0)
    · simp only [i32_ok f0, i32_bad' (fun h => he ⟨f0, h⟩)]; rfl
    · simp only [i32_bad' f0]; rfl
  · funext s
    obtain ⟨f0, f1⟩ := he
    simp only [D2.PD_For_2D, D2.RangeT.begin_0, D2.RangeT.end_0, D2.RangeT.begin_1, D2.RangeT.end_1, M.monadLift_eq, M.liftM_eq, i32_ok f0, i32_ok f1, M.lift_ok, pure_bind]
    rcases hs with h | ⟨h0, h⟩
    · exact forI_none (by omega) _ _
    · exact forI_still (by omega) fun _ => forI_none (by omega) _ _
  · obtain ⟨f0, f1⟩ := he
    simp only [D2.PD_For_2D, D2.RangeT.begin_0, D2.RangeT.end_0, D2.RangeT.begin_1, D2.RangeT.end_1, M.monadLift_eq, M.liftM_eq, i32_ok f0, i32_ok f1, M.lift_ok, pure_bind]
    rcases hs with h | ⟨h0, h⟩
    · exact forI_ub (by omega) (fun i => Quiet.forI (q i) _ _) _
    · exact forI_first (by omega) (forI_ub (by omega) (q _) _)

/-- the three cases -/
example : (D2.RangeT.mk 3 0 1 (-5)).EndsFit ∧ (D2.RangeT.mk 3 2 1 (-5)).EndsFit ∧
    ¬ (D2.RangeT.mk 3 0 2147483647 1).EndsFit ∧
    D2.PD_For_2D true ⟨3, 0, 1, -5⟩ (fun _ _ n => .ok () (n + 1)) (0 : Nat) = .ok () 0 := by
  simp only [D2.RangeT.EndsFit, InI32]
  exact ⟨by omega, by omega, by omega, rfl⟩

/-- C21 (3D), every range that C19 leaves out: if an end is no `int` the loop is undefined
behaviour; if the first size that is not positive is zero, the function is not called, whatever the
later sizes are; if it is negative, the loop of a function that throws nothing is undefined behaviour. -/
theorem C21_exact_d3 (chk : Bool) (r : D3.RangeT) (σ : Type) (fn : Int → Int → Int → M σ Unit) :
    (¬ r.EndsFit → ∀ s, D3.PD_For_3D chk r fn s = .ub .overflow) ∧
    (r.EndsFit → (r.s0 = 0 ∨ (0 < r.s0 ∧ r.s1 = 0) ∨ (0 < r.s0 ∧ 0 < r.s1 ∧ r.s2 = 0)) → D3.PD_For_3D chk r fn = pure ()) ∧
    (r.EndsFit → (r.s0 < 0 ∨ (0 < r.s0 ∧ r.s1 < 0) ∨ (0 < r.s0 ∧ 0 < r.s1 ∧ r.s2 < 0)) → (∀ i j k s e s', fn i j k s ≠ .err e s') → ∀ s, ∃ u, D3.PD_For_3D chk r fn s = .ub u) := by
  unfold D3.RangeT.EndsFit
  refine ⟨fun he s => ?_, fun he hs => ?_, fun he hs q s => ?_⟩
  · simp only [D3.PD_For_3D, D3.RangeT.begin_0, D3.RangeT.end_0, D3.RangeT.begin_1, D3.RangeT.end_1, D3.RangeT.begin_2, D3.RangeT.end_2, M.monadLift_eq, M.liftM_eq, M.lift_ok, pure_bind]
    by_cases f0 : InI32 (r.b0 + r.s0)
    · by_cases f1 : InI32 (r.b1 + r.s1)
      · simp only [i32_ok f0, i32_ok f1, i32_bad' (fun h => he ⟨f0, f1, h⟩)]; rfl
      · simp only [i32_ok f0, i32_bad' f1]; rfl
    · simp only [i32_bad' f0]; rfl
  · funext s
    obtain ⟨f0, f1, f2⟩ := he
    simp only [D3.PD_For_3D, D3.RangeT.begin_0, D3.RangeT.end_0, D3.RangeT.begin_1, D3.RangeT.end_1, D3.RangeT.begin_2, D3.RangeT.end_2, M.monadLift_eq, M.liftM_eq, i32_ok f0, i32_ok f1, i32_ok f2, M.lift_ok, pure_bind]
    rcases hs with h | ⟨h0, h⟩ | ⟨h0, h1, h⟩
    · exact forI_none (by omega) _ _
    · exact forI_still (by omega) fun _ => forI_none (by omega) _ _
    · exact forI_still (by omega) fun _ => forI_still (by omega) fun _ => forI_none (by omega) _ _
  · obtain ⟨f0, f1, f2⟩ := he
    simp only [D3.PD_For_3D, D3.RangeT.begin_0, D3.RangeT.end_0, D3.RangeT.begin_1, D3.RangeT.end_1, D3.RangeT.begin_2, D3.RangeT.end_2, M.monadLift_eq, M.liftM_eq, i32_ok f0, i32_ok f1, i32_ok f2, M.lift_ok, pure_bind]
    rcases hs with h | ⟨h0, h⟩ | ⟨h0, h1, h⟩
    · exact forI_ub (by omega) (fun i => Quiet.forI (fun j => Quiet.forI (q i j) _ _) _ _) _
    · exact forI_first (by omega) (forI_ub (by omega) (fun j => Quiet.forI (q _ j) _ _) _)
    · exact forI_first (by omega) (forI_first (by omega) (forI_ub (by omega) (q _ _) _))

/-- the three cases -/
example : (D3.RangeT.mk 3 1 3 0 1 (-5)).EndsFit ∧ (D3.RangeT.mk 3 2 0 1 1 (-5)).EndsFit ∧
    ¬ (D3.RangeT.mk 3 0 2147483647 1 0 0).EndsFit ∧
    D3.PD_For_3D true ⟨3, 1, 3, 0, 1, -5⟩ (fun _ _ _ n => .ok () (n + 1)) (0 : Nat) = .ok () 0 := by
  simp only [D3.RangeT.EndsFit, InI32]
  exact ⟨by omega, by omega, by omega, rfl⟩

end Verif.Props
