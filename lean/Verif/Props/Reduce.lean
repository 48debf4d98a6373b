import Verif.Proof.Reduce
import Verif.Props.Loops
/-!
# C23, C24: reductions with the predefined reducers

`S` is the finite set of points of the range (its hypothesis says exactly that), `f s p` the
value of the loop function at point `p` in state `s`; values come from an ordered commutative
ring, so sums, products and absolute values are exact.
-/
set_option linter.unusedSimpArgs false
namespace Verif.Props
open Spec
open scoped BigOperators

/-- C23 fails: `PD_Reduce_*` copies the caller's variable into its accumulator and then adds
(multiplies) the accumulator to the variable again, so the old value counts twice. -/
theorem C23_false_d1 (chk : Bool) : ∃ (r : D1.RangeT) (f : Int → Int → Int) (a : Int), r.NonNeg ∧ r.EndsFit ∧
    let ans : Ref Int Int := ⟨id, fun v _ => v⟩
    (∃ v, D1.PD_Reduce_1D chk r ans (computes PD_RF_SUM) (reads f) a = .ok () v ∧ v ≠ a + (f a 0 + f a 1)) ∧
    (∃ v, D1.PD_Reduce_1D chk r ans (computes PD_RF_PRO) (reads f) a = .ok () v ∧ v ≠ a * (f a 0 * f a 1)) ∧
    (∀ x, r.Has x ↔ x = 0 ∨ x = 1) := by
  refine ⟨⟨0, 2⟩, fun _ i => i + 1, 5, by simp [D1.RangeT.NonNeg], by simp [D1.RangeT.EndsFit, InI32], ⟨13, ?_, by decide⟩,
    ⟨50, ?_, by decide⟩, ?_⟩
  · cases chk <;> rfl
  · cases chk <;> rfl
  · intro x; simp only [D1.RangeT.Has, Seg]; omega

section
variable {σ T : Type} [CommRing T] [LinearOrder T] [IsStrictOrderedRing T]

/-- C23, partial (`PD_Reduce_N`): the new value is the old one plus (times) the accumulated
one, which itself starts from the old value; so it is the plain sum (product) when the
variable starts at 0 (1).  Missing: other initial values, for which the claim is false
(`C23_false_d1`). -/
theorem C23_n_partial (N_b N_e : Nat) (hN : N_b ≤ N_e) (hE : N_e < 4294967296) (S : Finset (Nat)) (hS : ∀ p, p ∈ S ↔ N_b ≤ p ∧ p < N_e)
    (ans : Ref σ T) (f : σ → Nat → T) (s : σ) :
    PD_Reduce_N N_b N_e ans (computes PD_RF_SUM) (reads f) s = .ok () (ans.set (ans.get s + (ans.get s + ∑ p ∈ S, f s p)) s) ∧
    PD_Reduce_N N_b N_e ans (computes PD_RF_SUM_ABS) (reads f) s = .ok () (ans.set (ans.get s + abs (ans.get s + ∑ p ∈ S, |f s p|)) s) ∧
    PD_Reduce_N N_b N_e ans (computes PD_RF_PRO) (reads f) s = .ok () (ans.set (ans.get s * (ans.get s * ∏ p ∈ S, f s p)) s) ∧
    PD_Reduce_N N_b N_e ans (computes PD_RF_PRO_ABS) (reads f) s = .ok () (ans.set (ans.get s * abs (ans.get s * ∏ p ∈ S, |f s p|)) s) ∧
    (ans.get s = 0 → PD_Reduce_N N_b N_e ans (computes PD_RF_SUM) (reads f) s = .ok () (ans.set (∑ p ∈ S, f s p) s) ∧
      PD_Reduce_N N_b N_e ans (computes PD_RF_SUM_ABS) (reads f) s = .ok () (ans.set (∑ p ∈ S, |f s p|) s)) ∧
    (ans.get s = 1 → PD_Reduce_N N_b N_e ans (computes PD_RF_PRO) (reads f) s = .ok () (ans.set (∏ p ∈ S, f s p) s) ∧
      PD_Reduce_N N_b N_e ans (computes PD_RF_PRO_ABS) (reads f) s = .ok () (ans.set (∏ p ∈ S, |f s p|) s)) := by
  obtain ⟨l, hl, h⟩ := C22_n N_b N_e hN hE
  have e : ∀ R, PD_Reduce_N N_b N_e ans (computes R) (reads f) = reduceSpec l ans (computes R) (reads f) := fun R => (h σ T ans _ _).1
  obtain ⟨h1, h2, h3, h4⟩ := red_sum hl irr_nat S hS ans f s
  simp only [e, h1, h2, h3, h4, true_and]
  refine ⟨fun h0 => ?_, fun h0 => ?_⟩
  · have : 0 ≤ ∑ p ∈ S, |f s p| := Finset.sum_nonneg fun p _ => abs_nonneg _
    simp only [h0, zero_add, abs_of_nonneg this, and_self]
  · have : 0 ≤ ∏ p ∈ S, |f s p| := Finset.prod_nonneg fun p _ => abs_nonneg _
    simp only [h0, one_mul, abs_of_nonneg this, and_self]

example : (2 : Nat) ≤ 7 ∧ 7 < 4294967296 := by decide

/-- C24, partial (`PD_Reduce_N`): the variable becomes the maximum (minimum) of its old value
and all values over the range; likewise with absolute values.  Missing: `MAX_ABS` over an
empty range with a negative initial value (`C24_false_d1`). -/
theorem C24_n_partial (N_b N_e : Nat) (hN : N_b ≤ N_e) (hE : N_e < 4294967296) (ans : Ref σ T) (f : σ → Nat → T) (s : σ) :
    (∃ v, IsGreatest {v | v = ans.get s ∨ ∃ p, (N_b ≤ p ∧ p < N_e) ∧ v = f s p} v ∧
      PD_Reduce_N N_b N_e ans (computes PD_RF_MAX) (reads f) s = .ok () (ans.set v s)) ∧
    (∃ v, IsLeast {v | v = ans.get s ∨ ∃ p, (N_b ≤ p ∧ p < N_e) ∧ v = f s p} v ∧
      PD_Reduce_N N_b N_e ans (computes PD_RF_MIN) (reads f) s = .ok () (ans.set v s)) ∧
    (0 ≤ ans.get s ∨ (∃ p : Nat, N_b ≤ p ∧ p < N_e) → ∃ v, IsGreatest {v | v = ans.get s ∨ ∃ p, (N_b ≤ p ∧ p < N_e) ∧ v = |f s p|} v ∧
      PD_Reduce_N N_b N_e ans (computes PD_RF_MAX_ABS) (reads f) s = .ok () (ans.set v s)) ∧
    (∃ v, IsLeast {v | v = ans.get s ∨ ∃ p, (N_b ≤ p ∧ p < N_e) ∧ v = |f s p|} v ∧
      PD_Reduce_N N_b N_e ans (computes PD_RF_MIN_ABS) (reads f) s = .ok () (ans.set v s)) := by
  obtain ⟨l, hl, h⟩ := C22_n N_b N_e hN hE
  have e : ∀ R, PD_Reduce_N N_b N_e ans (computes R) (reads f) = reduceSpec l ans (computes R) (reads f) := fun R => (h σ T ans _ _).1
  simp only [e]
  exact red_max hl ans f s

example : (2 : Nat) ≤ 7 ∧ 7 < 4294967296 := by decide


/-- C23, partial (`D1::PD_Reduce_1D`): the new value is the old one plus (times) the accumulated
one, which itself starts from the old value; so it is the plain sum (product) when the
variable starts at 0 (1).  Missing: other initial values, for which the claim is false
(`C23_false_d1`). -/
theorem C23_d1_partial (chk : Bool) (r : D1.RangeT) (hs : r.NonNeg) (he : r.EndsFit) (S : Finset (Int)) (hS : ∀ p, p ∈ S ↔ r.Has p)
    (ans : Ref σ T) (f : σ → Int → T) (s : σ) :
    D1.PD_Reduce_1D chk r ans (computes PD_RF_SUM) (fun i => reads f i) s = .ok () (ans.set (ans.get s + (ans.get s + ∑ p ∈ S, f s p)) s) ∧
    D1.PD_Reduce_1D chk r ans (computes PD_RF_SUM_ABS) (fun i => reads f i) s = .ok () (ans.set (ans.get s + abs (ans.get s + ∑ p ∈ S, |f s p|)) s) ∧
    D1.PD_Reduce_1D chk r ans (computes PD_RF_PRO) (fun i => reads f i) s = .ok () (ans.set (ans.get s * (ans.get s * ∏ p ∈ S, f s p)) s) ∧
    D1.PD_Reduce_1D chk r ans (computes PD_RF_PRO_ABS) (fun i => reads f i) s = .ok () (ans.set (ans.get s * abs (ans.get s * ∏ p ∈ S, |f s p|)) s) ∧
    (ans.get s = 0 → D1.PD_Reduce_1D chk r ans (computes PD_RF_SUM) (fun i => reads f i) s = .ok () (ans.set (∑ p ∈ S, f s p) s) ∧
      D1.PD_Reduce_1D chk r ans (computes PD_RF_SUM_ABS) (fun i => reads f i) s = .ok () (ans.set (∑ p ∈ S, |f s p|) s)) ∧
    (ans.get s = 1 → D1.PD_Reduce_1D chk r ans (computes PD_RF_PRO) (fun i => reads f i) s = .ok () (ans.set (∏ p ∈ S, f s p) s) ∧
      D1.PD_Reduce_1D chk r ans (computes PD_RF_PRO_ABS) (fun i => reads f i) s = .ok () (ans.set (∏ p ∈ S, |f s p|) s)) := by
  obtain ⟨l, hl, h⟩ := C22_d1 chk r   hs he
  have e : ∀ R, D1.PD_Reduce_1D chk r ans (computes R) (fun i => reads f i) = reduceSpec l ans (computes R) (reads f) := fun R => (h σ T ans _ _).1
  obtain ⟨h1, h2, h3, h4⟩ := red_sum hl irr_int S hS ans f s
  simp only [e, h1, h2, h3, h4, true_and]
  refine ⟨fun h0 => ?_, fun h0 => ?_⟩
  · have : 0 ≤ ∑ p ∈ S, |f s p| := Finset.sum_nonneg fun p _ => abs_nonneg _
    simp only [h0, zero_add, abs_of_nonneg this, and_self]
  · have : 0 ≤ ∏ p ∈ S, |f s p| := Finset.prod_nonneg fun p _ => abs_nonneg _
    simp only [h0, one_mul, abs_of_nonneg this, and_self]

example : (D1.RangeT.mk (-2) 3).NonNeg ∧ (D1.RangeT.mk (-2) 3).EndsFit := by
  simp [D1.RangeT.NonNeg, D1.RangeT.EndsFit, InI32]

/-- C24, partial (`D1::PD_Reduce_1D`): the variable becomes the maximum (minimum) of its old value
and all values over the range; likewise with absolute values.  Missing: `MAX_ABS` over an
empty range with a negative initial value (`C24_false_d1`). -/
theorem C24_d1_partial (chk : Bool) (r : D1.RangeT) (hs : r.NonNeg) (he : r.EndsFit) (ans : Ref σ T) (f : σ → Int → T) (s : σ) :
    (∃ v, IsGreatest {v | v = ans.get s ∨ ∃ p, (r.Has p) ∧ v = f s p} v ∧
      D1.PD_Reduce_1D chk r ans (computes PD_RF_MAX) (fun i => reads f i) s = .ok () (ans.set v s)) ∧
    (∃ v, IsLeast {v | v = ans.get s ∨ ∃ p, (r.Has p) ∧ v = f s p} v ∧
      D1.PD_Reduce_1D chk r ans (computes PD_RF_MIN) (fun i => reads f i) s = .ok () (ans.set v s)) ∧
    (0 ≤ ans.get s ∨ (∃ p : Int, r.Has p) → ∃ v, IsGreatest {v | v = ans.get s ∨ ∃ p, (r.Has p) ∧ v = |f s p|} v ∧
      D1.PD_Reduce_1D chk r ans (computes PD_RF_MAX_ABS) (fun i => reads f i) s = .ok () (ans.set v s)) ∧
    (∃ v, IsLeast {v | v = ans.get s ∨ ∃ p, (r.Has p) ∧ v = |f s p|} v ∧
      D1.PD_Reduce_1D chk r ans (computes PD_RF_MIN_ABS) (fun i => reads f i) s = .ok () (ans.set v s)) := by
  obtain ⟨l, hl, h⟩ := C22_d1 chk r   hs he
  have e : ∀ R, D1.PD_Reduce_1D chk r ans (computes R) (fun i => reads f i) = reduceSpec l ans (computes R) (reads f) := fun R => (h σ T ans _ _).1
  simp only [e]
  exact red_max hl ans f s

example : (D1.RangeT.mk (-2) 3).NonNeg ∧ (D1.RangeT.mk (-2) 3).EndsFit := by
  simp [D1.RangeT.NonNeg, D1.RangeT.EndsFit, InI32]


/-- C23, partial (`D1::PD_Reduce_N_1D`): the new value is the old one plus (times) the accumulated
one, which itself starts from the old value; so it is the plain sum (product) when the
variable starts at 0 (1).  Missing: other initial values, for which the claim is false
(`C23_false_d1`). -/
theorem C23_d1_n_partial (chk : Bool) (r : D1.RangeT) (N_b N_e : Nat) (hs : r.NonNeg) (he : r.EndsFit) (hN : N_b ≤ N_e) (hE : N_e < 4294967296) (S : Finset (Nat × Int)) (hS : ∀ p, p ∈ S ↔ (N_b ≤ p.1 ∧ p.1 < N_e) ∧ r.Has p.2)
    (ans : Ref σ T) (f : σ → Nat × Int → T) (s : σ) :
    D1.PD_Reduce_N_1D chk N_b N_e r ans (computes PD_RF_SUM) (fun n i => reads f (n, i)) s = .ok () (ans.set (ans.get s + (ans.get s + ∑ p ∈ S, f s p)) s) ∧
    D1.PD_Reduce_N_1D chk N_b N_e r ans (computes PD_RF_SUM_ABS) (fun n i => reads f (n, i)) s = .ok () (ans.set (ans.get s + abs (ans.get s + ∑ p ∈ S, |f s p|)) s) ∧
    D1.PD_Reduce_N_1D chk N_b N_e r ans (computes PD_RF_PRO) (fun n i => reads f (n, i)) s = .ok () (ans.set (ans.get s * (ans.get s * ∏ p ∈ S, f s p)) s) ∧
    D1.PD_Reduce_N_1D chk N_b N_e r ans (computes PD_RF_PRO_ABS) (fun n i => reads f (n, i)) s = .ok () (ans.set (ans.get s * abs (ans.get s * ∏ p ∈ S, |f s p|)) s) ∧
    (ans.get s = 0 → D1.PD_Reduce_N_1D chk N_b N_e r ans (computes PD_RF_SUM) (fun n i => reads f (n, i)) s = .ok () (ans.set (∑ p ∈ S, f s p) s) ∧
      D1.PD_Reduce_N_1D chk N_b N_e r ans (computes PD_RF_SUM_ABS) (fun n i => reads f (n, i)) s = .ok () (ans.set (∑ p ∈ S, |f s p|) s)) ∧
    (ans.get s = 1 → D1.PD_Reduce_N_1D chk N_b N_e r ans (computes PD_RF_PRO) (fun n i => reads f (n, i)) s = .ok () (ans.set (∏ p ∈ S, f s p) s) ∧
      D1.PD_Reduce_N_1D chk N_b N_e r ans (computes PD_RF_PRO_ABS) (fun n i => reads f (n, i)) s = .ok () (ans.set (∏ p ∈ S, |f s p|) s)) := by
  obtain ⟨l, hl, h⟩ := C22_d1_n chk r   N_b N_e hs he hN hE
  have e : ∀ R, D1.PD_Reduce_N_1D chk N_b N_e r ans (computes R) (fun n i => reads f (n, i)) = reduceSpec l ans (computes R) (reads f) := fun R => (h σ T ans _ _).1
  obtain ⟨h1, h2, h3, h4⟩ := red_sum hl (irr_lex irr_nat irr_int) S hS ans f s
  simp only [e, h1, h2, h3, h4, true_and]
  refine ⟨fun h0 => ?_, fun h0 => ?_⟩
  · have : 0 ≤ ∑ p ∈ S, |f s p| := Finset.sum_nonneg fun p _ => abs_nonneg _
    simp only [h0, zero_add, abs_of_nonneg this, and_self]
  · have : 0 ≤ ∏ p ∈ S, |f s p| := Finset.prod_nonneg fun p _ => abs_nonneg _
    simp only [h0, one_mul, abs_of_nonneg this, and_self]

example : (D1.RangeT.mk (-2) 3).NonNeg ∧ (D1.RangeT.mk (-2) 3).EndsFit := by
  simp [D1.RangeT.NonNeg, D1.RangeT.EndsFit, InI32]

/-- C24, partial (`D1::PD_Reduce_N_1D`): the variable becomes the maximum (minimum) of its old value
and all values over the range; likewise with absolute values.  Missing: `MAX_ABS` over an
empty range with a negative initial value (`C24_false_d1`). -/
theorem C24_d1_n_partial (chk : Bool) (r : D1.RangeT) (N_b N_e : Nat) (hs : r.NonNeg) (he : r.EndsFit) (hN : N_b ≤ N_e) (hE : N_e < 4294967296) (ans : Ref σ T) (f : σ → Nat × Int → T) (s : σ) :
    (∃ v, IsGreatest {v | v = ans.get s ∨ ∃ p, ((N_b ≤ p.1 ∧ p.1 < N_e) ∧ r.Has p.2) ∧ v = f s p} v ∧
      D1.PD_Reduce_N_1D chk N_b N_e r ans (computes PD_RF_MAX) (fun n i => reads f (n, i)) s = .ok () (ans.set v s)) ∧
    (∃ v, IsLeast {v | v = ans.get s ∨ ∃ p, ((N_b ≤ p.1 ∧ p.1 < N_e) ∧ r.Has p.2) ∧ v = f s p} v ∧
      D1.PD_Reduce_N_1D chk N_b N_e r ans (computes PD_RF_MIN) (fun n i => reads f (n, i)) s = .ok () (ans.set v s)) ∧
    (0 ≤ ans.get s ∨ (∃ p : Nat × Int, (N_b ≤ p.1 ∧ p.1 < N_e) ∧ r.Has p.2) → ∃ v, IsGreatest {v | v = ans.get s ∨ ∃ p, ((N_b ≤ p.1 ∧ p.1 < N_e) ∧ r.Has p.2) ∧ v = |f s p|} v ∧
      D1.PD_Reduce_N_1D chk N_b N_e r ans (computes PD_RF_MAX_ABS) (fun n i => reads f (n, i)) s = .ok () (ans.set v s)) ∧
    (∃ v, IsLeast {v | v = ans.get s ∨ ∃ p, ((N_b ≤ p.1 ∧ p.1 < N_e) ∧ r.Has p.2) ∧ v = |f s p|} v ∧
      D1.PD_Reduce_N_1D chk N_b N_e r ans (computes PD_RF_MIN_ABS) (fun n i => reads f (n, i)) s = .ok () (ans.set v s)) := by
  obtain ⟨l, hl, h⟩ := C22_d1_n chk r   N_b N_e hs he hN hE
  have e : ∀ R, D1.PD_Reduce_N_1D chk N_b N_e r ans (computes R) (fun n i => reads f (n, i)) = reduceSpec l ans (computes R) (reads f) := fun R => (h σ T ans _ _).1
  simp only [e]
  exact red_max hl ans f s

example : (D1.RangeT.mk (-2) 3).NonNeg ∧ (D1.RangeT.mk (-2) 3).EndsFit := by
  simp [D1.RangeT.NonNeg, D1.RangeT.EndsFit, InI32]


/-- C23, partial (`D2::PD_Reduce_2D`): the new value is the old one plus (times) the accumulated
one, which itself starts from the old value; so it is the plain sum (product) when the
variable starts at 0 (1).  Missing: other initial values, for which the claim is false
(`C23_false_d1`). -/
theorem C23_d2_partial (chk : Bool) (r : D2.RangeT) (hs : r.NonNeg) (he : r.EndsFit) (S : Finset (Int × Int)) (hS : ∀ p, p ∈ S ↔ r.Has p.1 p.2)
    (ans : Ref σ T) (f : σ → Int × Int → T) (s : σ) :
    D2.PD_Reduce_2D chk r ans (computes PD_RF_SUM) (fun i j => reads f (i, j)) s = .ok () (ans.set (ans.get s + (ans.get s + ∑ p ∈ S, f s p)) s) ∧
    D2.PD_Reduce_2D chk r ans (computes PD_RF_SUM_ABS) (fun i j => reads f (i, j)) s = .ok () (ans.set (ans.get s + abs (ans.get s + ∑ p ∈ S, |f s p|)) s) ∧
    D2.PD_Reduce_2D chk r ans (computes PD_RF_PRO) (fun i j => reads f (i, j)) s = .ok () (ans.set (ans.get s * (ans.get s * ∏ p ∈ S, f s p)) s) ∧
    D2.PD_Reduce_2D chk r ans (computes PD_RF_PRO_ABS) (fun i j => reads f (i, j)) s = .ok () (ans.set (ans.get s * abs (ans.get s * ∏ p ∈ S, |f s p|)) s) ∧
    (ans.get s = 0 → D2.PD_Reduce_2D chk r ans (computes PD_RF_SUM) (fun i j => reads f (i, j)) s = .ok () (ans.set (∑ p ∈ S, f s p) s) ∧
      D2.PD_Reduce_2D chk r ans (computes PD_RF_SUM_ABS) (fun i j => reads f (i, j)) s = .ok () (ans.set (∑ p ∈ S, |f s p|) s)) ∧
    (ans.get s = 1 → D2.PD_Reduce_2D chk r ans (computes PD_RF_PRO) (fun i j => reads f (i, j)) s = .ok () (ans.set (∏ p ∈ S, f s p) s) ∧
      D2.PD_Reduce_2D chk r ans (computes PD_RF_PRO_ABS) (fun i j => reads f (i, j)) s = .ok () (ans.set (∏ p ∈ S, |f s p|) s)) := by
  obtain ⟨l, hl, h⟩ := C22_d2 chk r   hs he
  have e : ∀ R, D2.PD_Reduce_2D chk r ans (computes R) (fun i j => reads f (i, j)) = reduceSpec l ans (computes R) (reads f) := fun R => (h σ T ans _ _).1
  obtain ⟨h1, h2, h3, h4⟩ := red_sum hl irr_II S hS ans f s
  simp only [e, h1, h2, h3, h4, true_and]
  refine ⟨fun h0 => ?_, fun h0 => ?_⟩
  · have : 0 ≤ ∑ p ∈ S, |f s p| := Finset.sum_nonneg fun p _ => abs_nonneg _
    simp only [h0, zero_add, abs_of_nonneg this, and_self]
  · have : 0 ≤ ∏ p ∈ S, |f s p| := Finset.prod_nonneg fun p _ => abs_nonneg _
    simp only [h0, one_mul, abs_of_nonneg this, and_self]

example : (D2.RangeT.mk (-2) 3 0 4).NonNeg ∧ (D2.RangeT.mk (-2) 3 0 4).EndsFit := by
  simp [D2.RangeT.NonNeg, D2.RangeT.EndsFit, InI32]

/-- C24, partial (`D2::PD_Reduce_2D`): the variable becomes the maximum (minimum) of its old value
and all values over the range; likewise with absolute values.  Missing: `MAX_ABS` over an
empty range with a negative initial value (`C24_false_d1`). -/
theorem C24_d2_partial (chk : Bool) (r : D2.RangeT) (hs : r.NonNeg) (he : r.EndsFit) (ans : Ref σ T) (f : σ → Int × Int → T) (s : σ) :
    (∃ v, IsGreatest {v | v = ans.get s ∨ ∃ p, (r.Has p.1 p.2) ∧ v = f s p} v ∧
      D2.PD_Reduce_2D chk r ans (computes PD_RF_MAX) (fun i j => reads f (i, j)) s = .ok () (ans.set v s)) ∧
    (∃ v, IsLeast {v | v = ans.get s ∨ ∃ p, (r.Has p.1 p.2) ∧ v = f s p} v ∧
      D2.PD_Reduce_2D chk r ans (computes PD_RF_MIN) (fun i j => reads f (i, j)) s = .ok () (ans.set v s)) ∧
    (0 ≤ ans.get s ∨ (∃ p : Int × Int, r.Has p.1 p.2) → ∃ v, IsGreatest {v | v = ans.get s ∨ ∃ p, (r.Has p.1 p.2) ∧ v = |f s p|} v ∧
      D2.PD_Reduce_2D chk r ans (computes PD_RF_MAX_ABS) (fun i j => reads f (i, j)) s = .ok () (ans.set v s)) ∧
    (∃ v, IsLeast {v | v = ans.get s ∨ ∃ p, (r.Has p.1 p.2) ∧ v = |f s p|} v ∧
      D2.PD_Reduce_2D chk r ans (computes PD_RF_MIN_ABS) (fun i j => reads f (i, j)) s = .ok () (ans.set v s)) := by
  obtain ⟨l, hl, h⟩ := C22_d2 chk r   hs he
  have e : ∀ R, D2.PD_Reduce_2D chk r ans (computes R) (fun i j => reads f (i, j)) = reduceSpec l ans (computes R) (reads f) := fun R => (h σ T ans _ _).1
  simp only [e]
  exact red_max hl ans f s

example : (D2.RangeT.mk (-2) 3 0 4).NonNeg ∧ (D2.RangeT.mk (-2) 3 0 4).EndsFit := by
  simp [D2.RangeT.NonNeg, D2.RangeT.EndsFit, InI32]


/-- C23, partial (`D2::PD_Reduce_N_2D`): the new value is the old one plus (times) the accumulated
one, which itself starts from the old value; so it is the plain sum (product) when the
variable starts at 0 (1).  Missing: other initial values, for which the claim is false
(`C23_false_d1`). -/
theorem C23_d2_n_partial (chk : Bool) (r : D2.RangeT) (N_b N_e : Nat) (hs : r.NonNeg) (he : r.EndsFit) (hN : N_b ≤ N_e) (hE : N_e < 4294967296) (S : Finset (Nat × Int × Int)) (hS : ∀ p, p ∈ S ↔ (N_b ≤ p.1 ∧ p.1 < N_e) ∧ r.Has p.2.1 p.2.2)
    (ans : Ref σ T) (f : σ → Nat × Int × Int → T) (s : σ) :
    D2.PD_Reduce_N_2D chk N_b N_e r ans (computes PD_RF_SUM) (fun n i j => reads f (n, i, j)) s = .ok () (ans.set (ans.get s + (ans.get s + ∑ p ∈ S, f s p)) s) ∧
    D2.PD_Reduce_N_2D chk N_b N_e r ans (computes PD_RF_SUM_ABS) (fun n i j => reads f (n, i, j)) s = .ok () (ans.set (ans.get s + abs (ans.get s + ∑ p ∈ S, |f s p|)) s) ∧
    D2.PD_Reduce_N_2D chk N_b N_e r ans (computes PD_RF_PRO) (fun n i j => reads f (n, i, j)) s = .ok () (ans.set (ans.get s * (ans.get s * ∏ p ∈ S, f s p)) s) ∧
    D2.PD_Reduce_N_2D chk N_b N_e r ans (computes PD_RF_PRO_ABS) (fun n i j => reads f (n, i, j)) s = .ok () (ans.set (ans.get s * abs (ans.get s * ∏ p ∈ S, |f s p|)) s) ∧
    (ans.get s = 0 → D2.PD_Reduce_N_2D chk N_b N_e r ans (computes PD_RF_SUM) (fun n i j => reads f (n, i, j)) s = .ok () (ans.set (∑ p ∈ S, f s p) s) ∧
      D2.PD_Reduce_N_2D chk N_b N_e r ans (computes PD_RF_SUM_ABS) (fun n i j => reads f (n, i, j)) s = .ok () (ans.set (∑ p ∈ S, |f s p|) s)) ∧
    (ans.get s = 1 → D2.PD_Reduce_N_2D chk N_b N_e r ans (computes PD_RF_PRO) (fun n i j => reads f (n, i, j)) s = .ok () (ans.set (∏ p ∈ S, f s p) s) ∧
      D2.PD_Reduce_N_2D chk N_b N_e r ans (computes PD_RF_PRO_ABS) (fun n i j => reads f (n, i, j)) s = .ok () (ans.set (∏ p ∈ S, |f s p|) s)) := by
  obtain ⟨l, hl, h⟩ := C22_d2_n chk r   N_b N_e hs he hN hE
  have e : ∀ R, D2.PD_Reduce_N_2D chk N_b N_e r ans (computes R) (fun n i j => reads f (n, i, j)) = reduceSpec l ans (computes R) (reads f) := fun R => (h σ T ans _ _).1
  obtain ⟨h1, h2, h3, h4⟩ := red_sum hl (irr_lex irr_nat irr_II) S hS ans f s
  simp only [e, h1, h2, h3, h4, true_and]
  refine ⟨fun h0 => ?_, fun h0 => ?_⟩
  · have : 0 ≤ ∑ p ∈ S, |f s p| := Finset.sum_nonneg fun p _ => abs_nonneg _
    simp only [h0, zero_add, abs_of_nonneg this, and_self]
  · have : 0 ≤ ∏ p ∈ S, |f s p| := Finset.prod_nonneg fun p _ => abs_nonneg _
    simp only [h0, one_mul, abs_of_nonneg this, and_self]

example : (D2.RangeT.mk (-2) 3 0 4).NonNeg ∧ (D2.RangeT.mk (-2) 3 0 4).EndsFit := by
  simp [D2.RangeT.NonNeg, D2.RangeT.EndsFit, InI32]

/-- C24, partial (`D2::PD_Reduce_N_2D`): the variable becomes the maximum (minimum) of its old value
and all values over the range; likewise with absolute values.  Missing: `MAX_ABS` over an
empty range with a negative initial value (`C24_false_d1`). -/
theorem C24_d2_n_partial (chk : Bool) (r : D2.RangeT) (N_b N_e : Nat) (hs : r.NonNeg) (he : r.EndsFit) (hN : N_b ≤ N_e) (hE : N_e < 4294967296) (ans : Ref σ T) (f : σ → Nat × Int × Int → T) (s : σ) :
    (∃ v, IsGreatest {v | v = ans.get s ∨ ∃ p, ((N_b ≤ p.1 ∧ p.1 < N_e) ∧ r.Has p.2.1 p.2.2) ∧ v = f s p} v ∧
      D2.PD_Reduce_N_2D chk N_b N_e r ans (computes PD_RF_MAX) (fun n i j => reads f (n, i, j)) s = .ok () (ans.set v s)) ∧
    (∃ v, IsLeast {v | v = ans.get s ∨ ∃ p, ((N_b ≤ p.1 ∧ p.1 < N_e) ∧ r.Has p.2.1 p.2.2) ∧ v = f s p} v ∧
      D2.PD_Reduce_N_2D chk N_b N_e r ans (computes PD_RF_MIN) (fun n i j => reads f (n, i, j)) s = .ok () (ans.set v s)) ∧
    (0 ≤ ans.get s ∨ (∃ p : Nat × Int × Int, (N_b ≤ p.1 ∧ p.1 < N_e) ∧ r.Has p.2.1 p.2.2) → ∃ v, IsGreatest {v | v = ans.get s ∨ ∃ p, ((N_b ≤ p.1 ∧ p.1 < N_e) ∧ r.Has p.2.1 p.2.2) ∧ v = |f s p|} v ∧
      D2.PD_Reduce_N_2D chk N_b N_e r ans (computes PD_RF_MAX_ABS) (fun n i j => reads f (n, i, j)) s = .ok () (ans.set v s)) ∧
    (∃ v, IsLeast {v | v = ans.get s ∨ ∃ p, ((N_b ≤ p.1 ∧ p.1 < N_e) ∧ r.Has p.2.1 p.2.2) ∧ v = |f s p|} v ∧
      D2.PD_Reduce_N_2D chk N_b N_e r ans (computes PD_RF_MIN_ABS) (fun n i j => reads f (n, i, j)) s = .ok () (ans.set v s)) := by
  obtain ⟨l, hl, h⟩ := C22_d2_n chk r   N_b N_e hs he hN hE
  have e : ∀ R, D2.PD_Reduce_N_2D chk N_b N_e r ans (computes R) (fun n i j => reads f (n, i, j)) = reduceSpec l ans (computes R) (reads f) := fun R => (h σ T ans _ _).1
  simp only [e]
  exact red_max hl ans f s

example : (D2.RangeT.mk (-2) 3 0 4).NonNeg ∧ (D2.RangeT.mk (-2) 3 0 4).EndsFit := by
  simp [D2.RangeT.NonNeg, D2.RangeT.EndsFit, InI32]


/-- C23, partial (`D3::PD_Reduce_3D`): the new value is the old one plus (times) the accumulated
one, which itself starts from the old value; so it is the plain sum (product) when the
variable starts at 0 (1).  Missing: other initial values, for which the claim is false
(`C23_false_d1`). -/
theorem C23_d3_partial (chk : Bool) (r : D3.RangeT) (hs : r.NonNeg) (he : r.EndsFit) (S : Finset (Int × Int × Int)) (hS : ∀ p, p ∈ S ↔ r.Has p.1 p.2.1 p.2.2)
    (ans : Ref σ T) (f : σ → Int × Int × Int → T) (s : σ) :
    D3.PD_Reduce_3D chk r ans (computes PD_RF_SUM) (fun i j k => reads f (i, j, k)) s = .ok () (ans.set (ans.get s + (ans.get s + ∑ p ∈ S, f s p)) s) ∧
    D3.PD_Reduce_3D chk r ans (computes PD_RF_SUM_ABS) (fun i j k => reads f (i, j, k)) s = .ok () (ans.set (ans.get s + abs (ans.get s + ∑ p ∈ S, |f s p|)) s) ∧
    D3.PD_Reduce_3D chk r ans (computes PD_RF_PRO) (fun i j k => reads f (i, j, k)) s = .ok () (ans.set (ans.get s * (ans.get s * ∏ p ∈ S, f s p)) s) ∧
    D3.PD_Reduce_3D chk r ans (computes PD_RF_PRO_ABS) (fun i j k => reads f (i, j, k)) s = .ok () (ans.set (ans.get s * abs (ans.get s * ∏ p ∈ S, |f s p|)) s) ∧
    (ans.get s = 0 → D3.PD_Reduce_3D chk r ans (computes PD_RF_SUM) (fun i j k => reads f (i, j, k)) s = .ok () (ans.set (∑ p ∈ S, f s p) s) ∧
      D3.PD_Reduce_3D chk r ans (computes PD_RF_SUM_ABS) (fun i j k => reads f (i, j, k)) s = .ok () (ans.set (∑ p ∈ S, |f s p|) s)) ∧
    (ans.get s = 1 → D3.PD_Reduce_3D chk r ans (computes PD_RF_PRO) (fun i j k => reads f (i, j, k)) s = .ok () (ans.set (∏ p ∈ S, f s p) s) ∧
      D3.PD_Reduce_3D chk r ans (computes PD_RF_PRO_ABS) (fun i j k => reads f (i, j, k)) s = .ok () (ans.set (∏ p ∈ S, |f s p|) s)) := by
  obtain ⟨l, hl, h⟩ := C22_d3 chk r   hs he
  have e : ∀ R, D3.PD_Reduce_3D chk r ans (computes R) (fun i j k => reads f (i, j, k)) = reduceSpec l ans (computes R) (reads f) := fun R => (h σ T ans _ _).1
  obtain ⟨h1, h2, h3, h4⟩ := red_sum hl irr_III S hS ans f s
  simp only [e, h1, h2, h3, h4, true_and]
  refine ⟨fun h0 => ?_, fun h0 => ?_⟩
  · have : 0 ≤ ∑ p ∈ S, |f s p| := Finset.sum_nonneg fun p _ => abs_nonneg _
    simp only [h0, zero_add, abs_of_nonneg this, and_self]
  · have : 0 ≤ ∏ p ∈ S, |f s p| := Finset.prod_nonneg fun p _ => abs_nonneg _
    simp only [h0, one_mul, abs_of_nonneg this, and_self]

example : (D3.RangeT.mk (-2) 3 0 4 5 2).NonNeg ∧ (D3.RangeT.mk (-2) 3 0 4 5 2).EndsFit := by
  simp [D3.RangeT.NonNeg, D3.RangeT.EndsFit, InI32]

/-- C24, partial (`D3::PD_Reduce_3D`): the variable becomes the maximum (minimum) of its old value
and all values over the range; likewise with absolute values.  Missing: `MAX_ABS` over an
empty range with a negative initial value (`C24_false_d1`). -/
theorem C24_d3_partial (chk : Bool) (r : D3.RangeT) (hs : r.NonNeg) (he : r.EndsFit) (ans : Ref σ T) (f : σ → Int × Int × Int → T) (s : σ) :
    (∃ v, IsGreatest {v | v = ans.get s ∨ ∃ p, (r.Has p.1 p.2.1 p.2.2) ∧ v = f s p} v ∧
      D3.PD_Reduce_3D chk r ans (computes PD_RF_MAX) (fun i j k => reads f (i, j, k)) s = .ok () (ans.set v s)) ∧
    (∃ v, IsLeast {v | v = ans.get s ∨ ∃ p, (r.Has p.1 p.2.1 p.2.2) ∧ v = f s p} v ∧
      D3.PD_Reduce_3D chk r ans (computes PD_RF_MIN) (fun i j k => reads f (i, j, k)) s = .ok () (ans.set v s)) ∧
    (0 ≤ ans.get s ∨ (∃ p : Int × Int × Int, r.Has p.1 p.2.1 p.2.2) → ∃ v, IsGreatest {v | v = ans.get s ∨ ∃ p, (r.Has p.1 p.2.1 p.2.2) ∧ v = |f s p|} v ∧
      D3.PD_Reduce_3D chk r ans (computes PD_RF_MAX_ABS) (fun i j k => reads f (i, j, k)) s = .ok () (ans.set v s)) ∧
    (∃ v, IsLeast {v | v = ans.get s ∨ ∃ p, (r.Has p.1 p.2.1 p.2.2) ∧ v = |f s p|} v ∧
      D3.PD_Reduce_3D chk r ans (computes PD_RF_MIN_ABS) (fun i j k => reads f (i, j, k)) s = .ok () (ans.set v s)) := by
  obtain ⟨l, hl, h⟩ := C22_d3 chk r   hs he
  have e : ∀ R, D3.PD_Reduce_3D chk r ans (computes R) (fun i j k => reads f (i, j, k)) = reduceSpec l ans (computes R) (reads f) := fun R => (h σ T ans _ _).1
  simp only [e]
  exact red_max hl ans f s

example : (D3.RangeT.mk (-2) 3 0 4 5 2).NonNeg ∧ (D3.RangeT.mk (-2) 3 0 4 5 2).EndsFit := by
  simp [D3.RangeT.NonNeg, D3.RangeT.EndsFit, InI32]


/-- C23, partial (`D3::PD_Reduce_N_3D`): the new value is the old one plus (times) the accumulated
one, which itself starts from the old value; so it is the plain sum (product) when the
variable starts at 0 (1).  Missing: other initial values, for which the claim is false
(`C23_false_d1`). -/
theorem C23_d3_n_partial (chk : Bool) (r : D3.RangeT) (N_b N_e : Nat) (hs : r.NonNeg) (he : r.EndsFit) (hN : N_b ≤ N_e) (hE : N_e < 4294967296) (S : Finset (Nat × Int × Int × Int)) (hS : ∀ p, p ∈ S ↔ (N_b ≤ p.1 ∧ p.1 < N_e) ∧ r.Has p.2.1 p.2.2.1 p.2.2.2)
    (ans : Ref σ T) (f : σ → Nat × Int × Int × Int → T) (s : σ) :
    D3.PD_Reduce_N_3D chk N_b N_e r ans (computes PD_RF_SUM) (fun n i j k => reads f (n, i, j, k)) s = .ok () (ans.set (ans.get s + (ans.get s + ∑ p ∈ S, f s p)) s) ∧
    D3.PD_Reduce_N_3D chk N_b N_e r ans (computes PD_RF_SUM_ABS) (fun n i j k => reads f (n, i, j, k)) s = .ok () (ans.set (ans.get s + abs (ans.get s + ∑ p ∈ S, |f s p|)) s) ∧
    D3.PD_Reduce_N_3D chk N_b N_e r ans (computes PD_RF_PRO) (fun n i j k => reads f (n, i, j, k)) s = .ok () (ans.set (ans.get s * (ans.get s * ∏ p ∈ S, f s p)) s) ∧
    D3.PD_Reduce_N_3D chk N_b N_e r ans (computes PD_RF_PRO_ABS) (fun n i j k => reads f (n, i, j, k)) s = .ok () (ans.set (ans.get s * abs (ans.get s * ∏ p ∈ S, |f s p|)) s) ∧
    (ans.get s = 0 → D3.PD_Reduce_N_3D chk N_b N_e r ans (computes PD_RF_SUM) (fun n i j k => reads f (n, i, j, k)) s = .ok () (ans.set (∑ p ∈ S, f s p) s) ∧
      D3.PD_Reduce_N_3D chk N_b N_e r ans (computes PD_RF_SUM_ABS) (fun n i j k => reads f (n, i, j, k)) s = .ok () (ans.set (∑ p ∈ S, |f s p|) s)) ∧
    (ans.get s = 1 → D3.PD_Reduce_N_3D chk N_b N_e r ans (computes PD_RF_PRO) (fun n i j k => reads f (n, i, j, k)) s = .ok () (ans.set (∏ p ∈ S, f s p) s) ∧
      D3.PD_Reduce_N_3D chk N_b N_e r ans (computes PD_RF_PRO_ABS) (fun n i j k => reads f (n, i, j, k)) s = .ok () (ans.set (∏ p ∈ S, |f s p|) s)) := by
  obtain ⟨l, hl, h⟩ := C22_d3_n chk r   N_b N_e hs he hN hE
  have e : ∀ R, D3.PD_Reduce_N_3D chk N_b N_e r ans (computes R) (fun n i j k => reads f (n, i, j, k)) = reduceSpec l ans (computes R) (reads f) := fun R => (h σ T ans _ _).1
  obtain ⟨h1, h2, h3, h4⟩ := red_sum hl (irr_lex irr_nat irr_III) S hS ans f s
  simp only [e, h1, h2, h3, h4, true_and]
  refine ⟨fun h0 => ?_, fun h0 => ?_⟩
  · have : 0 ≤ ∑ p ∈ S, |f s p| := Finset.sum_nonneg fun p _ => abs_nonneg _
    simp only [h0, zero_add, abs_of_nonneg this, and_self]
  · have : 0 ≤ ∏ p ∈ S, |f s p| := Finset.prod_nonneg fun p _ => abs_nonneg _
    simp only [h0, one_mul, abs_of_nonneg this, and_self]

example : (D3.RangeT.mk (-2) 3 0 4 5 2).NonNeg ∧ (D3.RangeT.mk (-2) 3 0 4 5 2).EndsFit := by
  simp [D3.RangeT.NonNeg, D3.RangeT.EndsFit, InI32]

/-- C24, partial (`D3::PD_Reduce_N_3D`): the variable becomes the maximum (minimum) of its old value
and all values over the range; likewise with absolute values.  Missing: `MAX_ABS` over an
empty range with a negative initial value (`C24_false_d1`). -/
theorem C24_d3_n_partial (chk : Bool) (r : D3.RangeT) (N_b N_e : Nat) (hs : r.NonNeg) (he : r.EndsFit) (hN : N_b ≤ N_e) (hE : N_e < 4294967296) (ans : Ref σ T) (f : σ → Nat × Int × Int × Int → T) (s : σ) :
    (∃ v, IsGreatest {v | v = ans.get s ∨ ∃ p, ((N_b ≤ p.1 ∧ p.1 < N_e) ∧ r.Has p.2.1 p.2.2.1 p.2.2.2) ∧ v = f s p} v ∧
      D3.PD_Reduce_N_3D chk N_b N_e r ans (computes PD_RF_MAX) (fun n i j k => reads f (n, i, j, k)) s = .ok () (ans.set v s)) ∧
    (∃ v, IsLeast {v | v = ans.get s ∨ ∃ p, ((N_b ≤ p.1 ∧ p.1 < N_e) ∧ r.Has p.2.1 p.2.2.1 p.2.2.2) ∧ v = f s p} v ∧
      D3.PD_Reduce_N_3D chk N_b N_e r ans (computes PD_RF_MIN) (fun n i j k => reads f (n, i, j, k)) s = .ok () (ans.set v s)) ∧
    (0 ≤ ans.get s ∨ (∃ p : Nat × Int × Int × Int, (N_b ≤ p.1 ∧ p.1 < N_e) ∧ r.Has p.2.1 p.2.2.1 p.2.2.2) → ∃ v, IsGreatest {v | v = ans.get s ∨ ∃ p, ((N_b ≤ p.1 ∧ p.1 < N_e) ∧ r.Has p.2.1 p.2.2.1 p.2.2.2) ∧ v = |f s p|} v ∧
      D3.PD_Reduce_N_3D chk N_b N_e r ans (computes PD_RF_MAX_ABS) (fun n i j k => reads f (n, i, j, k)) s = .ok () (ans.set v s)) ∧
    (∃ v, IsLeast {v | v = ans.get s ∨ ∃ p, ((N_b ≤ p.1 ∧ p.1 < N_e) ∧ r.Has p.2.1 p.2.2.1 p.2.2.2) ∧ v = |f s p|} v ∧
      D3.PD_Reduce_N_3D chk N_b N_e r ans (computes PD_RF_MIN_ABS) (fun n i j k => reads f (n, i, j, k)) s = .ok () (ans.set v s)) := by
  obtain ⟨l, hl, h⟩ := C22_d3_n chk r   N_b N_e hs he hN hE
  have e : ∀ R, D3.PD_Reduce_N_3D chk N_b N_e r ans (computes R) (fun n i j k => reads f (n, i, j, k)) = reduceSpec l ans (computes R) (reads f) := fun R => (h σ T ans _ _).1
  simp only [e]
  exact red_max hl ans f s

example : (D3.RangeT.mk (-2) 3 0 4 5 2).NonNeg ∧ (D3.RangeT.mk (-2) 3 0 4 5 2).EndsFit := by
  simp [D3.RangeT.NonNeg, D3.RangeT.EndsFit, InI32]


/-- C23, partial (`D2::PD_Reduce_1D`, chosen axes): the new value is the old one plus (times) the accumulated
one, which itself starts from the old value; so it is the plain sum (product) when the
variable starts at 0 (1).  Missing: other initial values, for which the claim is false
(`C23_false_d1`). -/
theorem C23_d2_axis1_partial (chk : Bool) (r : D2.RangeT) (d0 : Nat) (h0 : d0 < 2) (hs : r.NonNeg) (he : r.EndsFit) (S : Finset (Int)) (hS : ∀ p, p ∈ S ↔ r.OnAxis d0 p)
    (ans : Ref σ T) (f : σ → Int → T) (s : σ) :
    D2.PD_Reduce_1D chk d0 r ans (computes PD_RF_SUM) (fun i => reads f i) s = .ok () (ans.set (ans.get s + (ans.get s + ∑ p ∈ S, f s p)) s) ∧
    D2.PD_Reduce_1D chk d0 r ans (computes PD_RF_SUM_ABS) (fun i => reads f i) s = .ok () (ans.set (ans.get s + abs (ans.get s + ∑ p ∈ S, |f s p|)) s) ∧
    D2.PD_Reduce_1D chk d0 r ans (computes PD_RF_PRO) (fun i => reads f i) s = .ok () (ans.set (ans.get s * (ans.get s * ∏ p ∈ S, f s p)) s) ∧
    D2.PD_Reduce_1D chk d0 r ans (computes PD_RF_PRO_ABS) (fun i => reads f i) s = .ok () (ans.set (ans.get s * abs (ans.get s * ∏ p ∈ S, |f s p|)) s) ∧
    (ans.get s = 0 → D2.PD_Reduce_1D chk d0 r ans (computes PD_RF_SUM) (fun i => reads f i) s = .ok () (ans.set (∑ p ∈ S, f s p) s) ∧
      D2.PD_Reduce_1D chk d0 r ans (computes PD_RF_SUM_ABS) (fun i => reads f i) s = .ok () (ans.set (∑ p ∈ S, |f s p|) s)) ∧
    (ans.get s = 1 → D2.PD_Reduce_1D chk d0 r ans (computes PD_RF_PRO) (fun i => reads f i) s = .ok () (ans.set (∏ p ∈ S, f s p) s) ∧
      D2.PD_Reduce_1D chk d0 r ans (computes PD_RF_PRO_ABS) (fun i => reads f i) s = .ok () (ans.set (∏ p ∈ S, |f s p|) s)) := by
  obtain ⟨l, hl, h⟩ := C22_d2_axis1 chk r d0 h0 hs he
  have e : ∀ R, D2.PD_Reduce_1D chk d0 r ans (computes R) (fun i => reads f i) = reduceSpec l ans (computes R) (reads f) := fun R => (h σ T ans _ _).1
  obtain ⟨h1, h2, h3, h4⟩ := red_sum hl irr_int S hS ans f s
  simp only [e, h1, h2, h3, h4, true_and]
  refine ⟨fun h0 => ?_, fun h0 => ?_⟩
  · have : 0 ≤ ∑ p ∈ S, |f s p| := Finset.sum_nonneg fun p _ => abs_nonneg _
    simp only [h0, zero_add, abs_of_nonneg this, and_self]
  · have : 0 ≤ ∏ p ∈ S, |f s p| := Finset.prod_nonneg fun p _ => abs_nonneg _
    simp only [h0, one_mul, abs_of_nonneg this, and_self]

example : (D2.RangeT.mk (-2) 3 0 4).NonNeg ∧ (D2.RangeT.mk (-2) 3 0 4).EndsFit := by
  simp [D2.RangeT.NonNeg, D2.RangeT.EndsFit, InI32]

/-- C24, partial (`D2::PD_Reduce_1D`, chosen axes): the variable becomes the maximum (minimum) of its old value
and all values over the range; likewise with absolute values.  Missing: `MAX_ABS` over an
empty range with a negative initial value (`C24_false_d1`). -/
theorem C24_d2_axis1_partial (chk : Bool) (r : D2.RangeT) (d0 : Nat) (h0 : d0 < 2) (hs : r.NonNeg) (he : r.EndsFit) (ans : Ref σ T) (f : σ → Int → T) (s : σ) :
    (∃ v, IsGreatest {v | v = ans.get s ∨ ∃ p, (r.OnAxis d0 p) ∧ v = f s p} v ∧
      D2.PD_Reduce_1D chk d0 r ans (computes PD_RF_MAX) (fun i => reads f i) s = .ok () (ans.set v s)) ∧
    (∃ v, IsLeast {v | v = ans.get s ∨ ∃ p, (r.OnAxis d0 p) ∧ v = f s p} v ∧
      D2.PD_Reduce_1D chk d0 r ans (computes PD_RF_MIN) (fun i => reads f i) s = .ok () (ans.set v s)) ∧
    (0 ≤ ans.get s ∨ (∃ p : Int, r.OnAxis d0 p) → ∃ v, IsGreatest {v | v = ans.get s ∨ ∃ p, (r.OnAxis d0 p) ∧ v = |f s p|} v ∧
      D2.PD_Reduce_1D chk d0 r ans (computes PD_RF_MAX_ABS) (fun i => reads f i) s = .ok () (ans.set v s)) ∧
    (∃ v, IsLeast {v | v = ans.get s ∨ ∃ p, (r.OnAxis d0 p) ∧ v = |f s p|} v ∧
      D2.PD_Reduce_1D chk d0 r ans (computes PD_RF_MIN_ABS) (fun i => reads f i) s = .ok () (ans.set v s)) := by
  obtain ⟨l, hl, h⟩ := C22_d2_axis1 chk r d0 h0 hs he
  have e : ∀ R, D2.PD_Reduce_1D chk d0 r ans (computes R) (fun i => reads f i) = reduceSpec l ans (computes R) (reads f) := fun R => (h σ T ans _ _).1
  simp only [e]
  exact red_max hl ans f s

example : (D2.RangeT.mk (-2) 3 0 4).NonNeg ∧ (D2.RangeT.mk (-2) 3 0 4).EndsFit := by
  simp [D2.RangeT.NonNeg, D2.RangeT.EndsFit, InI32]


/-- C23, partial (`D2::PD_Reduce_N_1D`, chosen axes): the new value is the old one plus (times) the accumulated
one, which itself starts from the old value; so it is the plain sum (product) when the
variable starts at 0 (1).  Missing: other initial values, for which the claim is false
(`C23_false_d1`). -/
theorem C23_d2_axis1_n_partial (chk : Bool) (r : D2.RangeT) (d0 : Nat) (h0 : d0 < 2) (N_b N_e : Nat) (hs : r.NonNeg) (he : r.EndsFit) (hN : N_b ≤ N_e) (hE : N_e < 4294967296) (S : Finset (Nat × Int)) (hS : ∀ p, p ∈ S ↔ (N_b ≤ p.1 ∧ p.1 < N_e) ∧ r.OnAxis d0 p.2)
    (ans : Ref σ T) (f : σ → Nat × Int → T) (s : σ) :
    D2.PD_Reduce_N_1D chk N_b N_e d0 r ans (computes PD_RF_SUM) (fun n i => reads f (n, i)) s = .ok () (ans.set (ans.get s + (ans.get s + ∑ p ∈ S, f s p)) s) ∧
    D2.PD_Reduce_N_1D chk N_b N_e d0 r ans (computes PD_RF_SUM_ABS) (fun n i => reads f (n, i)) s = .ok () (ans.set (ans.get s + abs (ans.get s + ∑ p ∈ S, |f s p|)) s) ∧
    D2.PD_Reduce_N_1D chk N_b N_e d0 r ans (computes PD_RF_PRO) (fun n i => reads f (n, i)) s = .ok () (ans.set (ans.get s * (ans.get s * ∏ p ∈ S, f s p)) s) ∧
    D2.PD_Reduce_N_1D chk N_b N_e d0 r ans (computes PD_RF_PRO_ABS) (fun n i => reads f (n, i)) s = .ok () (ans.set (ans.get s * abs (ans.get s * ∏ p ∈ S, |f s p|)) s) ∧
    (ans.get s = 0 → D2.PD_Reduce_N_1D chk N_b N_e d0 r ans (computes PD_RF_SUM) (fun n i => reads f (n, i)) s = .ok () (ans.set (∑ p ∈ S, f s p) s) ∧
      D2.PD_Reduce_N_1D chk N_b N_e d0 r ans (computes PD_RF_SUM_ABS) (fun n i => reads f (n, i)) s = .ok () (ans.set (∑ p ∈ S, |f s p|) s)) ∧
    (ans.get s = 1 → D2.PD_Reduce_N_1D chk N_b N_e d0 r ans (computes PD_RF_PRO) (fun n i => reads f (n, i)) s = .ok () (ans.set (∏ p ∈ S, f s p) s) ∧
      D2.PD_Reduce_N_1D chk N_b N_e d0 r ans (computes PD_RF_PRO_ABS) (fun n i => reads f (n, i)) s = .ok () (ans.set (∏ p ∈ S, |f s p|) s)) := by
  obtain ⟨l, hl, h⟩ := C22_d2_axis1_n chk r d0 h0 N_b N_e hs he hN hE
  have e : ∀ R, D2.PD_Reduce_N_1D chk N_b N_e d0 r ans (computes R) (fun n i => reads f (n, i)) = reduceSpec l ans (computes R) (reads f) := fun R => (h σ T ans _ _).1
  obtain ⟨h1, h2, h3, h4⟩ := red_sum hl (irr_lex irr_nat irr_int) S hS ans f s
  simp only [e, h1, h2, h3, h4, true_and]
  refine ⟨fun h0 => ?_, fun h0 => ?_⟩
  · have : 0 ≤ ∑ p ∈ S, |f s p| := Finset.sum_nonneg fun p _ => abs_nonneg _
    simp only [h0, zero_add, abs_of_nonneg this, and_self]
  · have : 0 ≤ ∏ p ∈ S, |f s p| := Finset.prod_nonneg fun p _ => abs_nonneg _
    simp only [h0, one_mul, abs_of_nonneg this, and_self]

example : (D2.RangeT.mk (-2) 3 0 4).NonNeg ∧ (D2.RangeT.mk (-2) 3 0 4).EndsFit := by
  simp [D2.RangeT.NonNeg, D2.RangeT.EndsFit, InI32]

/-- C24, partial (`D2::PD_Reduce_N_1D`, chosen axes): the variable becomes the maximum (minimum) of its old value
and all values over the range; likewise with absolute values.  Missing: `MAX_ABS` over an
empty range with a negative initial value (`C24_false_d1`). -/
theorem C24_d2_axis1_n_partial (chk : Bool) (r : D2.RangeT) (d0 : Nat) (h0 : d0 < 2) (N_b N_e : Nat) (hs : r.NonNeg) (he : r.EndsFit) (hN : N_b ≤ N_e) (hE : N_e < 4294967296) (ans : Ref σ T) (f : σ → Nat × Int → T) (s : σ) :
    (∃ v, IsGreatest {v | v = ans.get s ∨ ∃ p, ((N_b ≤ p.1 ∧ p.1 < N_e) ∧ r.OnAxis d0 p.2) ∧ v = f s p} v ∧
      D2.PD_Reduce_N_1D chk N_b N_e d0 r ans (computes PD_RF_MAX) (fun n i => reads f (n, i)) s = .ok () (ans.set v s)) ∧
    (∃ v, IsLeast {v | v = ans.get s ∨ ∃ p, ((N_b ≤ p.1 ∧ p.1 < N_e) ∧ r.OnAxis d0 p.2) ∧ v = f s p} v ∧
      D2.PD_Reduce_N_1D chk N_b N_e d0 r ans (computes PD_RF_MIN) (fun n i => reads f (n, i)) s = .ok () (ans.set v s)) ∧
    (0 ≤ ans.get s ∨ (∃ p : Nat × Int, (N_b ≤ p.1 ∧ p.1 < N_e) ∧ r.OnAxis d0 p.2) → ∃ v, IsGreatest {v | v = ans.get s ∨ ∃ p, ((N_b ≤ p.1 ∧ p.1 < N_e) ∧ r.OnAxis d0 p.2) ∧ v = |f s p|} v ∧
      D2.PD_Reduce_N_1D chk N_b N_e d0 r ans (computes PD_RF_MAX_ABS) (fun n i => reads f (n, i)) s = .ok () (ans.set v s)) ∧
    (∃ v, IsLeast {v | v = ans.get s ∨ ∃ p, ((N_b ≤ p.1 ∧ p.1 < N_e) ∧ r.OnAxis d0 p.2) ∧ v = |f s p|} v ∧
      D2.PD_Reduce_N_1D chk N_b N_e d0 r ans (computes PD_RF_MIN_ABS) (fun n i => reads f (n, i)) s = .ok () (ans.set v s)) := by
  obtain ⟨l, hl, h⟩ := C22_d2_axis1_n chk r d0 h0 N_b N_e hs he hN hE
  have e : ∀ R, D2.PD_Reduce_N_1D chk N_b N_e d0 r ans (computes R) (fun n i => reads f (n, i)) = reduceSpec l ans (computes R) (reads f) := fun R => (h σ T ans _ _).1
  simp only [e]
  exact red_max hl ans f s

example : (D2.RangeT.mk (-2) 3 0 4).NonNeg ∧ (D2.RangeT.mk (-2) 3 0 4).EndsFit := by
  simp [D2.RangeT.NonNeg, D2.RangeT.EndsFit, InI32]


/-- C23, partial (`D3::PD_Reduce_2D`, chosen axes): the new value is the old one plus (times) the accumulated
one, which itself starts from the old value; so it is the plain sum (product) when the
variable starts at 0 (1).  Missing: other initial values, for which the claim is false
(`C23_false_d1`). -/
theorem C23_d3_axis2_partial (chk : Bool) (r : D3.RangeT) (d0 d1 : Nat) (h0 : d0 < 3)  (h1 : d1 < 3) (hs : r.NonNeg) (he : r.EndsFit) (S : Finset (Int × Int)) (hS : ∀ p, p ∈ S ↔ r.OnAxis d0 p.1 ∧ r.OnAxis d1 p.2)
    (ans : Ref σ T) (f : σ → Int × Int → T) (s : σ) :
    D3.PD_Reduce_2D chk d0 d1 r ans (computes PD_RF_SUM) (fun i j => reads f (i, j)) s = .ok () (ans.set (ans.get s + (ans.get s + ∑ p ∈ S, f s p)) s) ∧
    D3.PD_Reduce_2D chk d0 d1 r ans (computes PD_RF_SUM_ABS) (fun i j => reads f (i, j)) s = .ok () (ans.set (ans.get s + abs (ans.get s + ∑ p ∈ S, |f s p|)) s) ∧
    D3.PD_Reduce_2D chk d0 d1 r ans (computes PD_RF_PRO) (fun i j => reads f (i, j)) s = .ok () (ans.set (ans.get s * (ans.get s * ∏ p ∈ S, f s p)) s) ∧
    D3.PD_Reduce_2D chk d0 d1 r ans (computes PD_RF_PRO_ABS) (fun i j => reads f (i, j)) s = .ok () (ans.set (ans.get s * abs (ans.get s * ∏ p ∈ S, |f s p|)) s) ∧
    (ans.get s = 0 → D3.PD_Reduce_2D chk d0 d1 r ans (computes PD_RF_SUM) (fun i j => reads f (i, j)) s = .ok () (ans.set (∑ p ∈ S, f s p) s) ∧
      D3.PD_Reduce_2D chk d0 d1 r ans (computes PD_RF_SUM_ABS) (fun i j => reads f (i, j)) s = .ok () (ans.set (∑ p ∈ S, |f s p|) s)) ∧
    (ans.get s = 1 → D3.PD_Reduce_2D chk d0 d1 r ans (computes PD_RF_PRO) (fun i j => reads f (i, j)) s = .ok () (ans.set (∏ p ∈ S, f s p) s) ∧
      D3.PD_Reduce_2D chk d0 d1 r ans (computes PD_RF_PRO_ABS) (fun i j => reads f (i, j)) s = .ok () (ans.set (∏ p ∈ S, |f s p|) s)) := by
  obtain ⟨l, hl, h⟩ := C22_d3_axis2 chk r d0 d1 h0 h1 hs he
  have e : ∀ R, D3.PD_Reduce_2D chk d0 d1 r ans (computes R) (fun i j => reads f (i, j)) = reduceSpec l ans (computes R) (reads f) := fun R => (h σ T ans _ _).1
  obtain ⟨h1, h2, h3, h4⟩ := red_sum hl irr_II S hS ans f s
  simp only [e, h1, h2, h3, h4, true_and]
  refine ⟨fun h0 => ?_, fun h0 => ?_⟩
  · have : 0 ≤ ∑ p ∈ S, |f s p| := Finset.sum_nonneg fun p _ => abs_nonneg _
    simp only [h0, zero_add, abs_of_nonneg this, and_self]
  · have : 0 ≤ ∏ p ∈ S, |f s p| := Finset.prod_nonneg fun p _ => abs_nonneg _
    simp only [h0, one_mul, abs_of_nonneg this, and_self]

example : (D3.RangeT.mk (-2) 3 0 4 5 2).NonNeg ∧ (D3.RangeT.mk (-2) 3 0 4 5 2).EndsFit := by
  simp [D3.RangeT.NonNeg, D3.RangeT.EndsFit, InI32]

/-- C24, partial (`D3::PD_Reduce_2D`, chosen axes): the variable becomes the maximum (minimum) of its old value
and all values over the range; likewise with absolute values.  Missing: `MAX_ABS` over an
empty range with a negative initial value (`C24_false_d1`). -/
theorem C24_d3_axis2_partial (chk : Bool) (r : D3.RangeT) (d0 d1 : Nat) (h0 : d0 < 3)  (h1 : d1 < 3) (hs : r.NonNeg) (he : r.EndsFit) (ans : Ref σ T) (f : σ → Int × Int → T) (s : σ) :
    (∃ v, IsGreatest {v | v = ans.get s ∨ ∃ p, (r.OnAxis d0 p.1 ∧ r.OnAxis d1 p.2) ∧ v = f s p} v ∧
      D3.PD_Reduce_2D chk d0 d1 r ans (computes PD_RF_MAX) (fun i j => reads f (i, j)) s = .ok () (ans.set v s)) ∧
    (∃ v, IsLeast {v | v = ans.get s ∨ ∃ p, (r.OnAxis d0 p.1 ∧ r.OnAxis d1 p.2) ∧ v = f s p} v ∧
      D3.PD_Reduce_2D chk d0 d1 r ans (computes PD_RF_MIN) (fun i j => reads f (i, j)) s = .ok () (ans.set v s)) ∧
    (0 ≤ ans.get s ∨ (∃ p : Int × Int, r.OnAxis d0 p.1 ∧ r.OnAxis d1 p.2) → ∃ v, IsGreatest {v | v = ans.get s ∨ ∃ p, (r.OnAxis d0 p.1 ∧ r.OnAxis d1 p.2) ∧ v = |f s p|} v ∧
      D3.PD_Reduce_2D chk d0 d1 r ans (computes PD_RF_MAX_ABS) (fun i j => reads f (i, j)) s = .ok () (ans.set v s)) ∧
    (∃ v, IsLeast {v | v = ans.get s ∨ ∃ p, (r.OnAxis d0 p.1 ∧ r.OnAxis d1 p.2) ∧ v = |f s p|} v ∧
      D3.PD_Reduce_2D chk d0 d1 r ans (computes PD_RF_MIN_ABS) (fun i j => reads f (i, j)) s = .ok () (ans.set v s)) := by
  obtain ⟨l, hl, h⟩ := C22_d3_axis2 chk r d0 d1 h0 h1 hs he
  have e : ∀ R, D3.PD_Reduce_2D chk d0 d1 r ans (computes R) (fun i j => reads f (i, j)) = reduceSpec l ans (computes R) (reads f) := fun R => (h σ T ans _ _).1
  simp only [e]
  exact red_max hl ans f s

example : (D3.RangeT.mk (-2) 3 0 4 5 2).NonNeg ∧ (D3.RangeT.mk (-2) 3 0 4 5 2).EndsFit := by
  simp [D3.RangeT.NonNeg, D3.RangeT.EndsFit, InI32]


/-- C23, partial (`D3::PD_Reduce_N_2D`, chosen axes): the new value is the old one plus (times) the accumulated
one, which itself starts from the old value; so it is the plain sum (product) when the
variable starts at 0 (1).  Missing: other initial values, for which the claim is false
(`C23_false_d1`). -/
theorem C23_d3_axis2_n_partial (chk : Bool) (r : D3.RangeT) (d0 d1 : Nat) (h0 : d0 < 3)  (h1 : d1 < 3) (N_b N_e : Nat) (hs : r.NonNeg) (he : r.EndsFit) (hN : N_b ≤ N_e) (hE : N_e < 4294967296) (S : Finset (Nat × Int × Int)) (hS : ∀ p, p ∈ S ↔ (N_b ≤ p.1 ∧ p.1 < N_e) ∧ r.OnAxis d0 p.2.1 ∧ r.OnAxis d1 p.2.2)
    (ans : Ref σ T) (f : σ → Nat × Int × Int → T) (s : σ) :
    D3.PD_Reduce_N_2D chk N_b N_e d0 d1 r ans (computes PD_RF_SUM) (fun n i j => reads f (n, i, j)) s = .ok () (ans.set (ans.get s + (ans.get s + ∑ p ∈ S, f s p)) s) ∧
    D3.PD_Reduce_N_2D chk N_b N_e d0 d1 r ans (computes PD_RF_SUM_ABS) (fun n i j => reads f (n, i, j)) s = .ok () (ans.set (ans.get s + abs (ans.get s + ∑ p ∈ S, |f s p|)) s) ∧
    D3.PD_Reduce_N_2D chk N_b N_e d0 d1 r ans (computes PD_RF_PRO) (fun n i j => reads f (n, i, j)) s = .ok () (ans.set (ans.get s * (ans.get s * ∏ p ∈ S, f s p)) s) ∧
    D3.PD_Reduce_N_2D chk N_b N_e d0 d1 r ans (computes PD_RF_PRO_ABS) (fun n i j => reads f (n, i, j)) s = .ok () (ans.set (ans.get s * abs (ans.get s * ∏ p ∈ S, |f s p|)) s) ∧
    (ans.get s = 0 → D3.PD_Reduce_N_2D chk N_b N_e d0 d1 r ans (computes PD_RF_SUM) (fun n i j => reads f (n, i, j)) s = .ok () (ans.set (∑ p ∈ S, f s p) s) ∧
      D3.PD_Reduce_N_2D chk N_b N_e d0 d1 r ans (computes PD_RF_SUM_ABS) (fun n i j => reads f (n, i, j)) s = .ok () (ans.set (∑ p ∈ S, |f s p|) s)) ∧
    (ans.get s = 1 → D3.PD_Reduce_N_2D chk N_b N_e d0 d1 r ans (computes PD_RF_PRO) (fun n i j => reads f (n, i, j)) s = .ok () (ans.set (∏ p ∈ S, f s p) s) ∧
      D3.PD_Reduce_N_2D chk N_b N_e d0 d1 r ans (computes PD_RF_PRO_ABS) (fun n i j => reads f (n, i, j)) s = .ok () (ans.set (∏ p ∈ S, |f s p|) s)) := by
  obtain ⟨l, hl, h⟩ := C22_d3_axis2_n chk r d0 d1 h0 h1 N_b N_e hs he hN hE
  have e : ∀ R, D3.PD_Reduce_N_2D chk N_b N_e d0 d1 r ans (computes R) (fun n i j => reads f (n, i, j)) = reduceSpec l ans (computes R) (reads f) := fun R => (h σ T ans _ _).1
  obtain ⟨h1, h2, h3, h4⟩ := red_sum hl (irr_lex irr_nat irr_II) S hS ans f s
  simp only [e, h1, h2, h3, h4, true_and]
  refine ⟨fun h0 => ?_, fun h0 => ?_⟩
  · have : 0 ≤ ∑ p ∈ S, |f s p| := Finset.sum_nonneg fun p _ => abs_nonneg _
    simp only [h0, zero_add, abs_of_nonneg this, and_self]
  · have : 0 ≤ ∏ p ∈ S, |f s p| := Finset.prod_nonneg fun p _ => abs_nonneg _
    simp only [h0, one_mul, abs_of_nonneg this, and_self]

example : (D3.RangeT.mk (-2) 3 0 4 5 2).NonNeg ∧ (D3.RangeT.mk (-2) 3 0 4 5 2).EndsFit := by
  simp [D3.RangeT.NonNeg, D3.RangeT.EndsFit, InI32]

/-- C24, partial (`D3::PD_Reduce_N_2D`, chosen axes): the variable becomes the maximum (minimum) of its old value
and all values over the range; likewise with absolute values.  Missing: `MAX_ABS` over an
empty range with a negative initial value (`C24_false_d1`). -/
theorem C24_d3_axis2_n_partial (chk : Bool) (r : D3.RangeT) (d0 d1 : Nat) (h0 : d0 < 3)  (h1 : d1 < 3) (N_b N_e : Nat) (hs : r.NonNeg) (he : r.EndsFit) (hN : N_b ≤ N_e) (hE : N_e < 4294967296) (ans : Ref σ T) (f : σ → Nat × Int × Int → T) (s : σ) :
    (∃ v, IsGreatest {v | v = ans.get s ∨ ∃ p, ((N_b ≤ p.1 ∧ p.1 < N_e) ∧ r.OnAxis d0 p.2.1 ∧ r.OnAxis d1 p.2.2) ∧ v = f s p} v ∧
      D3.PD_Reduce_N_2D chk N_b N_e d0 d1 r ans (computes PD_RF_MAX) (fun n i j => reads f (n, i, j)) s = .ok () (ans.set v s)) ∧
    (∃ v, IsLeast {v | v = ans.get s ∨ ∃ p, ((N_b ≤ p.1 ∧ p.1 < N_e) ∧ r.OnAxis d0 p.2.1 ∧ r.OnAxis d1 p.2.2) ∧ v = f s p} v ∧
      D3.PD_Reduce_N_2D chk N_b N_e d0 d1 r ans (computes PD_RF_MIN) (fun n i j => reads f (n, i, j)) s = .ok () (ans.set v s)) ∧
    (0 ≤ ans.get s ∨ (∃ p : Nat × Int × Int, (N_b ≤ p.1 ∧ p.1 < N_e) ∧ r.OnAxis d0 p.2.1 ∧ r.OnAxis d1 p.2.2) → ∃ v, IsGreatest {v | v = ans.get s ∨ ∃ p, ((N_b ≤ p.1 ∧ p.1 < N_e) ∧ r.OnAxis d0 p.2.1 ∧ r.OnAxis d1 p.2.2) ∧ v = |f s p|} v ∧
      D3.PD_Reduce_N_2D chk N_b N_e d0 d1 r ans (computes PD_RF_MAX_ABS) (fun n i j => reads f (n, i, j)) s = .ok () (ans.set v s)) ∧
    (∃ v, IsLeast {v | v = ans.get s ∨ ∃ p, ((N_b ≤ p.1 ∧ p.1 < N_e) ∧ r.OnAxis d0 p.2.1 ∧ r.OnAxis d1 p.2.2) ∧ v = |f s p|} v ∧
      D3.PD_Reduce_N_2D chk N_b N_e d0 d1 r ans (computes PD_RF_MIN_ABS) (fun n i j => reads f (n, i, j)) s = .ok () (ans.set v s)) := by
  obtain ⟨l, hl, h⟩ := C22_d3_axis2_n chk r d0 d1 h0 h1 N_b N_e hs he hN hE
  have e : ∀ R, D3.PD_Reduce_N_2D chk N_b N_e d0 d1 r ans (computes R) (fun n i j => reads f (n, i, j)) = reduceSpec l ans (computes R) (reads f) := fun R => (h σ T ans _ _).1
  simp only [e]
  exact red_max hl ans f s

example : (D3.RangeT.mk (-2) 3 0 4 5 2).NonNeg ∧ (D3.RangeT.mk (-2) 3 0 4 5 2).EndsFit := by
  simp [D3.RangeT.NonNeg, D3.RangeT.EndsFit, InI32]


/-- C23, partial (`D3::PD_Reduce_1D`, chosen axes): the new value is the old one plus (times) the accumulated
one, which itself starts from the old value; so it is the plain sum (product) when the
variable starts at 0 (1).  Missing: other initial values, for which the claim is false
(`C23_false_d1`). -/
theorem C23_d3_axis1_partial (chk : Bool) (r : D3.RangeT) (d0 : Nat) (h0 : d0 < 3) (hs : r.NonNeg) (he : r.EndsFit) (S : Finset (Int)) (hS : ∀ p, p ∈ S ↔ r.OnAxis d0 p)
    (ans : Ref σ T) (f : σ → Int → T) (s : σ) :
    D3.PD_Reduce_1D chk d0 r ans (computes PD_RF_SUM) (fun i => reads f i) s = .ok () (ans.set (ans.get s + (ans.get s + ∑ p ∈ S, f s p)) s) ∧
    D3.PD_Reduce_1D chk d0 r ans (computes PD_RF_SUM_ABS) (fun i => reads f i) s = .ok () (ans.set (ans.get s + abs (ans.get s + ∑ p ∈ S, |f s p|)) s) ∧
    D3.PD_Reduce_1D chk d0 r ans (computes PD_RF_PRO) (fun i => reads f i) s = .ok () (ans.set (ans.get s * (ans.get s * ∏ p ∈ S, f s p)) s) ∧
    D3.PD_Reduce_1D chk d0 r ans (computes PD_RF_PRO_ABS) (fun i => reads f i) s = .ok () (ans.set (ans.get s * abs (ans.get s * ∏ p ∈ S, |f s p|)) s) ∧
    (ans.get s = 0 → D3.PD_Reduce_1D chk d0 r ans (computes PD_RF_SUM) (fun i => reads f i) s = .ok () (ans.set (∑ p ∈ S, f s p) s) ∧
      D3.PD_Reduce_1D chk d0 r ans (computes PD_RF_SUM_ABS) (fun i => reads f i) s = .ok () (ans.set (∑ p ∈ S, |f s p|) s)) ∧
    (ans.get s = 1 → D3.PD_Reduce_1D chk d0 r ans (computes PD_RF_PRO) (fun i => reads f i) s = .ok () (ans.set (∏ p ∈ S, f s p) s) ∧
      D3.PD_Reduce_1D chk d0 r ans (computes PD_RF_PRO_ABS) (fun i => reads f i) s = .ok () (ans.set (∏ p ∈ S, |f s p|) s)) := by
  obtain ⟨l, hl, h⟩ := C22_d3_axis1 chk r d0 h0 hs he
  have e : ∀ R, D3.PD_Reduce_1D chk d0 r ans (computes R) (fun i => reads f i) = reduceSpec l ans (computes R) (reads f) := fun R => (h σ T ans _ _).1
  obtain ⟨h1, h2, h3, h4⟩ := red_sum hl irr_int S hS ans f s
  simp only [e, h1, h2, h3, h4, true_and]
  refine ⟨fun h0 => ?_, fun h0 => ?_⟩
  · have : 0 ≤ ∑ p ∈ S, |f s p| := Finset.sum_nonneg fun p _ => abs_nonneg _
    simp only [h0, zero_add, abs_of_nonneg this, and_self]
  · have : 0 ≤ ∏ p ∈ S, |f s p| := Finset.prod_nonneg fun p _ => abs_nonneg _
    simp only [h0, one_mul, abs_of_nonneg this, and_self]

example : (D3.RangeT.mk (-2) 3 0 4 5 2).NonNeg ∧ (D3.RangeT.mk (-2) 3 0 4 5 2).EndsFit := by
  simp [D3.RangeT.NonNeg, D3.RangeT.EndsFit, InI32]

/-- C24, partial (`D3::PD_Reduce_1D`, chosen axes): the variable becomes the maximum (minimum) of its old value
and all values over the range; likewise with absolute values.  Missing: `MAX_ABS` over an
empty range with a negative initial value (`C24_false_d1`). -/
theorem C24_d3_axis1_partial (chk : Bool) (r : D3.RangeT) (d0 : Nat) (h0 : d0 < 3) (hs : r.NonNeg) (he : r.EndsFit) (ans : Ref σ T) (f : σ → Int → T) (s : σ) :
    (∃ v, IsGreatest {v | v = ans.get s ∨ ∃ p, (r.OnAxis d0 p) ∧ v = f s p} v ∧
      D3.PD_Reduce_1D chk d0 r ans (computes PD_RF_MAX) (fun i => reads f i) s = .ok () (ans.set v s)) ∧
    (∃ v, IsLeast {v | v = ans.get s ∨ ∃ p, (r.OnAxis d0 p) ∧ v = f s p} v ∧
      D3.PD_Reduce_1D chk d0 r ans (computes PD_RF_MIN) (fun i => reads f i) s = .ok () (ans.set v s)) ∧
    (0 ≤ ans.get s ∨ (∃ p : Int, r.OnAxis d0 p) → ∃ v, IsGreatest {v | v = ans.get s ∨ ∃ p, (r.OnAxis d0 p) ∧ v = |f s p|} v ∧
      D3.PD_Reduce_1D chk d0 r ans (computes PD_RF_MAX_ABS) (fun i => reads f i) s = .ok () (ans.set v s)) ∧
    (∃ v, IsLeast {v | v = ans.get s ∨ ∃ p, (r.OnAxis d0 p) ∧ v = |f s p|} v ∧
      D3.PD_Reduce_1D chk d0 r ans (computes PD_RF_MIN_ABS) (fun i => reads f i) s = .ok () (ans.set v s)) := by
  obtain ⟨l, hl, h⟩ := C22_d3_axis1 chk r d0 h0 hs he
  have e : ∀ R, D3.PD_Reduce_1D chk d0 r ans (computes R) (fun i => reads f i) = reduceSpec l ans (computes R) (reads f) := fun R => (h σ T ans _ _).1
  simp only [e]
  exact red_max hl ans f s

example : (D3.RangeT.mk (-2) 3 0 4 5 2).NonNeg ∧ (D3.RangeT.mk (-2) 3 0 4 5 2).EndsFit := by
  simp [D3.RangeT.NonNeg, D3.RangeT.EndsFit, InI32]


/-- C23, partial (`D3::PD_Reduce_N_1D`, chosen axes): the new value is the old one plus (times) the accumulated
one, which itself starts from the old value; so it is the plain sum (product) when the
variable starts at 0 (1).  Missing: other initial values, for which the claim is false
(`C23_false_d1`). -/
theorem C23_d3_axis1_n_partial (chk : Bool) (r : D3.RangeT) (d0 : Nat) (h0 : d0 < 3) (N_b N_e : Nat) (hs : r.NonNeg) (he : r.EndsFit) (hN : N_b ≤ N_e) (hE : N_e < 4294967296) (S : Finset (Nat × Int)) (hS : ∀ p, p ∈ S ↔ (N_b ≤ p.1 ∧ p.1 < N_e) ∧ r.OnAxis d0 p.2)
    (ans : Ref σ T) (f : σ → Nat × Int → T) (s : σ) :
    D3.PD_Reduce_N_1D chk N_b N_e d0 r ans (computes PD_RF_SUM) (fun n i => reads f (n, i)) s = .ok () (ans.set (ans.get s + (ans.get s + ∑ p ∈ S, f s p)) s) ∧
    D3.PD_Reduce_N_1D chk N_b N_e d0 r ans (computes PD_RF_SUM_ABS) (fun n i => reads f (n, i)) s = .ok () (ans.set (ans.get s + abs (ans.get s + ∑ p ∈ S, |f s p|)) s) ∧
    D3.PD_Reduce_N_1D chk N_b N_e d0 r ans (computes PD_RF_PRO) (fun n i => reads f (n, i)) s = .ok () (ans.set (ans.get s * (ans.get s * ∏ p ∈ S, f s p)) s) ∧
    D3.PD_Reduce_N_1D chk N_b N_e d0 r ans (computes PD_RF_PRO_ABS) (fun n i => reads f (n, i)) s = .ok () (ans.set (ans.get s * abs (ans.get s * ∏ p ∈ S, |f s p|)) s) ∧
    (ans.get s = 0 → D3.PD_Reduce_N_1D chk N_b N_e d0 r ans (computes PD_RF_SUM) (fun n i => reads f (n, i)) s = .ok () (ans.set (∑ p ∈ S, f s p) s) ∧
      D3.PD_Reduce_N_1D chk N_b N_e d0 r ans (computes PD_RF_SUM_ABS) (fun n i => reads f (n, i)) s = .ok () (ans.set (∑ p ∈ S, |f s p|) s)) ∧
    (ans.get s = 1 → D3.PD_Reduce_N_1D chk N_b N_e d0 r ans (computes PD_RF_PRO) (fun n i => reads f (n, i)) s = .ok () (ans.set (∏ p ∈ S, f s p) s) ∧
      D3.PD_Reduce_N_1D chk N_b N_e d0 r ans (computes PD_RF_PRO_ABS) (fun n i => reads f (n, i)) s = .ok () (ans.set (∏ p ∈ S, |f s p|) s)) := by
  obtain ⟨l, hl, h⟩ := C22_d3_axis1_n chk r d0 h0 N_b N_e hs he hN hE
  have e : ∀ R, D3.PD_Reduce_N_1D chk N_b N_e d0 r ans (computes R) (fun n i => reads f (n, i)) = reduceSpec l ans (computes R) (reads f) := fun R => (h σ T ans _ _).1
  obtain ⟨h1, h2, h3, h4⟩ := red_sum hl (irr_lex irr_nat irr_int) S hS ans f s
  simp only [e, h1, h2, h3, h4, true_and]
  refine ⟨fun h0 => ?_, fun h0 => ?_⟩
  · have : 0 ≤ ∑ p ∈ S, |f s p| := Finset.sum_nonneg fun p _ => abs_nonneg _
    simp only [h0, zero_add, abs_of_nonneg this, and_self]
  · have : 0 ≤ ∏ p ∈ S, |f s p| := Finset.prod_nonneg fun p _ => abs_nonneg _
    simp only [h0, one_mul, abs_of_nonneg this, and_self]

example : (D3.RangeT.mk (-2) 3 0 4 5 2).NonNeg ∧ (D3.RangeT.mk (-2) 3 0 4 5 2).EndsFit := by
  simp [D3.RangeT.NonNeg, D3.RangeT.EndsFit, InI32]

/-- C24, partial (`D3::PD_Reduce_N_1D`, chosen axes): the variable becomes the maximum (minimum) of its old value
and all values over the range; likewise with absolute values.  Missing: `MAX_ABS` over an
empty range with a negative initial value (`C24_false_d1`). -/
theorem C24_d3_axis1_n_partial (chk : Bool) (r : D3.RangeT) (d0 : Nat) (h0 : d0 < 3) (N_b N_e : Nat) (hs : r.NonNeg) (he : r.EndsFit) (hN : N_b ≤ N_e) (hE : N_e < 4294967296) (ans : Ref σ T) (f : σ → Nat × Int → T) (s : σ) :
    (∃ v, IsGreatest {v | v = ans.get s ∨ ∃ p, ((N_b ≤ p.1 ∧ p.1 < N_e) ∧ r.OnAxis d0 p.2) ∧ v = f s p} v ∧
      D3.PD_Reduce_N_1D chk N_b N_e d0 r ans (computes PD_RF_MAX) (fun n i => reads f (n, i)) s = .ok () (ans.set v s)) ∧
    (∃ v, IsLeast {v | v = ans.get s ∨ ∃ p, ((N_b ≤ p.1 ∧ p.1 < N_e) ∧ r.OnAxis d0 p.2) ∧ v = f s p} v ∧
      D3.PD_Reduce_N_1D chk N_b N_e d0 r ans (computes PD_RF_MIN) (fun n i => reads f (n, i)) s = .ok () (ans.set v s)) ∧
    (0 ≤ ans.get s ∨ (∃ p : Nat × Int, (N_b ≤ p.1 ∧ p.1 < N_e) ∧ r.OnAxis d0 p.2) → ∃ v, IsGreatest {v | v = ans.get s ∨ ∃ p, ((N_b ≤ p.1 ∧ p.1 < N_e) ∧ r.OnAxis d0 p.2) ∧ v = |f s p|} v ∧
      D3.PD_Reduce_N_1D chk N_b N_e d0 r ans (computes PD_RF_MAX_ABS) (fun n i => reads f (n, i)) s = .ok () (ans.set v s)) ∧
    (∃ v, IsLeast {v | v = ans.get s ∨ ∃ p, ((N_b ≤ p.1 ∧ p.1 < N_e) ∧ r.OnAxis d0 p.2) ∧ v = |f s p|} v ∧
      D3.PD_Reduce_N_1D chk N_b N_e d0 r ans (computes PD_RF_MIN_ABS) (fun n i => reads f (n, i)) s = .ok () (ans.set v s)) := by
  obtain ⟨l, hl, h⟩ := C22_d3_axis1_n chk r d0 h0 N_b N_e hs he hN hE
  have e : ∀ R, D3.PD_Reduce_N_1D chk N_b N_e d0 r ans (computes R) (fun n i => reads f (n, i)) = reduceSpec l ans (computes R) (reads f) := fun R => (h σ T ans _ _).1
  simp only [e]
  exact red_max hl ans f s

example : (D3.RangeT.mk (-2) 3 0 4 5 2).NonNeg ∧ (D3.RangeT.mk (-2) 3 0 4 5 2).EndsFit := by
  simp [D3.RangeT.NonNeg, D3.RangeT.EndsFit, InI32]


end

/-- the point set of a range is finite: the hypothesis of C23 is met -/
example : ∀ p : Int × Int, p ∈ (Finset.Ico (-2) 1 ×ˢ Finset.Ico 0 4 : Finset (Int × Int)) ↔
    (D2.RangeT.mk (-2) 3 0 4).Has p.1 p.2 := by
  intro p
  simp [D2.RangeT.Has, Seg]
example : (D2.RangeT.mk (-2) 3 0 4).NonNeg ∧ (D2.RangeT.mk (-2) 3 0 4).EndsFit := by
  simp [D2.RangeT.NonNeg, D2.RangeT.EndsFit, InI32]
/-- a reduction over a non-trivial range: 1 + 2 + 3 from 0 -/
example : D1.PD_Reduce_1D true ⟨1, 3⟩ (⟨id, fun v _ => v⟩ : Ref Int Int) (computes PD_RF_SUM) (reads fun _ i => i) 0
    = .ok () 6 := rfl

/-- C24 fails for `MAX_ABS` when the range is empty and the variable negative: the variable
becomes its own absolute value. -/
theorem C24_false_d1 (chk : Bool) : ∃ (r : D1.RangeT) (a : Int), r.NonNeg ∧ r.EndsFit ∧ (∀ x, ¬ r.Has x) ∧
    ∃ v, D1.PD_Reduce_1D chk r (⟨id, fun v _ => v⟩ : Ref Int Int) (computes PD_RF_MAX_ABS) (reads fun _ i => i) a = .ok () v ∧
      v ≠ a := by
  refine ⟨⟨0, 0⟩, -3, by simp [D1.RangeT.NonNeg], by simp [D1.RangeT.EndsFit, InI32], ?_, 3, ?_, by decide⟩
  · intro x; simp only [D1.RangeT.Has, Seg]; omega
  · cases chk <;> rfl

end Verif.Props
