import Verif.Proof.ReduceNone
import Verif.Props.Reduce
import Verif.Props.RangeT
/-!
# Ranges without points: overlap (C17) and reductions (C24)
-/
namespace Verif.Props
open Spec

/-- C17 for all ranges (1D): the answer is true exactly if in every dimension each range begins before the end of the other one;
it is wrong exactly if then one of the ranges has no point -/
theorem C17_exact_d1 (chk : Bool) (a r : D1.RangeT) (ha : a.EndsFit) (hr : r.EndsFit) :
    (a.is_overlap chk r = .ok true ↔ a.b < r.b + r.s ∧ r.b < a.b + a.s) ∧
    (a.is_overlap chk r = .ok true ∧ (¬∃ x, a.Has x ∧ r.Has x) ↔
      (a.b < r.b + r.s ∧ r.b < a.b + a.s) ∧ ¬(a.Pos ∧ r.Pos)) := by
  rw [D1.RangeT.is_overlap_eq chk a r ha hr]
  simp only [Out.ok.injEq, decide_eq_true_eq]
  refine ⟨trivial, and_congr_right fun h => not_congr ⟨?_, ?_⟩⟩
  · rintro ⟨x, h1, h2⟩
    simp only [D1.RangeT.Has, Seg] at h1 h2
    simp only [D1.RangeT.Pos]
    omega
  · rintro ⟨h1, h2⟩
    simp only [D1.RangeT.Pos] at h1 h2
    refine ⟨max a.b r.b, ?_⟩
    simp only [D1.RangeT.Has, Seg]
    omega

example : (D1.RangeT.mk 0 10).EndsFit ∧ (D1.RangeT.mk 5 0).EndsFit := by
  simp [D1.RangeT.EndsFit, InI32]

/-- C17 for all ranges (2D): the answer is true exactly if in every dimension each range begins before the end of the other one;
it is wrong exactly if then one of the ranges has no point -/
theorem C17_exact_d2 (chk : Bool) (a r : D2.RangeT) (ha : a.EndsFit) (hr : r.EndsFit) :
    (a.is_overlap chk r = .ok true ↔ a.b0 < r.b0 + r.s0 ∧ r.b0 < a.b0 + a.s0 ∧ a.b1 < r.b1 + r.s1 ∧ r.b1 < a.b1 + a.s1) ∧
    (a.is_overlap chk r = .ok true ∧ (¬∃ x y, a.Has x y ∧ r.Has x y) ↔
      (a.b0 < r.b0 + r.s0 ∧ r.b0 < a.b0 + a.s0 ∧ a.b1 < r.b1 + r.s1 ∧ r.b1 < a.b1 + a.s1) ∧ ¬(a.Pos ∧ r.Pos)) := by
  rw [D2.RangeT.is_overlap_eq chk a r ha hr]
  simp only [Out.ok.injEq, decide_eq_true_eq]
  refine ⟨trivial, and_congr_right fun h => not_congr ⟨?_, ?_⟩⟩
  · rintro ⟨x, y, h1, h2⟩
    simp only [D2.RangeT.Has, Seg] at h1 h2
    simp only [D2.RangeT.Pos]
    omega
  · rintro ⟨h1, h2⟩
    simp only [D2.RangeT.Pos] at h1 h2
    refine ⟨max a.b0 r.b0, max a.b1 r.b1, ?_⟩
    simp only [D2.RangeT.Has, Seg]
    omega

example : (D2.RangeT.mk 0 10 0 10).EndsFit ∧ (D2.RangeT.mk 5 0 5 0).EndsFit := by
  simp [D2.RangeT.EndsFit, InI32]

/-- C17 for all ranges (3D): the answer is true exactly if in every dimension each range begins before the end of the other one;
it is wrong exactly if then one of the ranges has no point -/
theorem C17_exact_d3 (chk : Bool) (a r : D3.RangeT) (ha : a.EndsFit) (hr : r.EndsFit) :
    (a.is_overlap chk r = .ok true ↔ a.b0 < r.b0 + r.s0 ∧ r.b0 < a.b0 + a.s0 ∧ a.b1 < r.b1 + r.s1 ∧ r.b1 < a.b1 + a.s1 ∧ a.b2 < r.b2 + r.s2 ∧ r.b2 < a.b2 + a.s2) ∧
    (a.is_overlap chk r = .ok true ∧ (¬∃ x y z, a.Has x y z ∧ r.Has x y z) ↔
      (a.b0 < r.b0 + r.s0 ∧ r.b0 < a.b0 + a.s0 ∧ a.b1 < r.b1 + r.s1 ∧ r.b1 < a.b1 + a.s1 ∧ a.b2 < r.b2 + r.s2 ∧ r.b2 < a.b2 + a.s2) ∧ ¬(a.Pos ∧ r.Pos)) := by
  rw [D3.RangeT.is_overlap_eq chk a r ha hr]
  simp only [Out.ok.injEq, decide_eq_true_eq]
  refine ⟨trivial, and_congr_right fun h => not_congr ⟨?_, ?_⟩⟩
  · rintro ⟨x, y, z, h1, h2⟩
    simp only [D3.RangeT.Has, Seg] at h1 h2
    simp only [D3.RangeT.Pos]
    omega
  · rintro ⟨h1, h2⟩
    simp only [D3.RangeT.Pos] at h1 h2
    refine ⟨max a.b0 r.b0, max a.b1 r.b1, max a.b2 r.b2, ?_⟩
    simp only [D3.RangeT.Has, Seg]
    omega

example : (D3.RangeT.mk 0 10 0 10 0 10).EndsFit ∧ (D3.RangeT.mk 5 0 5 0 5 0).EndsFit := by
  simp [D3.RangeT.EndsFit, InI32]

variable {σ T : Type} [CommRing T] [LinearOrder T] [IsStrictOrderedRing T]

/-- C24 over a range without points: `MAX_ABS` makes the variable its own absolute value -/
theorem C24_n_none (N_b N_e : Nat) (hN : N_b ≤ N_e) (hE : N_e < 4294967296) (ans : Ref σ T) (f : σ → Nat → T) (s : σ) (hn : ¬∃ p : Nat, N_b ≤ p ∧ p < N_e) :
    PD_Reduce_N N_b N_e ans (computes PD_RF_MAX_ABS) (reads f) s = .ok () (ans.set |ans.get s| s) := by
  obtain ⟨l, hl, h⟩ := C22_n N_b N_e hN hE
  have e : ∀ R, PD_Reduce_N N_b N_e ans (computes R) (reads f) = reduceSpec l ans (computes R) (reads f) := fun R => (h σ T ans _ _).1
  simp only [e]
  exact red_max_abs_none hl hn ans f s

/-- C24 over a range without points: `MAX_ABS` makes the variable its own absolute value -/
theorem C24_d1_none (chk : Bool) (r : D1.RangeT) (hs : r.NonNeg) (he : r.EndsFit) (ans : Ref σ T) (f : σ → Int → T) (s : σ) (hn : ¬∃ p : Int, r.Has p) :
    D1.PD_Reduce_1D chk r ans (computes PD_RF_MAX_ABS) (fun i => reads f i) s = .ok () (ans.set |ans.get s| s) := by
  obtain ⟨l, hl, h⟩ := C22_d1 chk r   hs he
  have e : ∀ R, D1.PD_Reduce_1D chk r ans (computes R) (fun i => reads f i) = reduceSpec l ans (computes R) (reads f) := fun R => (h σ T ans _ _).1
  simp only [e]
  exact red_max_abs_none hl hn ans f s

/-- C24 over a range without points: `MAX_ABS` makes the variable its own absolute value -/
theorem C24_d1_n_none (chk : Bool) (r : D1.RangeT) (N_b N_e : Nat) (hs : r.NonNeg) (he : r.EndsFit) (hN : N_b ≤ N_e) (hE : N_e < 4294967296) (ans : Ref σ T) (f : σ → Nat × Int → T) (s : σ) (hn : ¬∃ p : Nat × Int, (N_b ≤ p.1 ∧ p.1 < N_e) ∧ r.Has p.2) :
    D1.PD_Reduce_N_1D chk N_b N_e r ans (computes PD_RF_MAX_ABS) (fun n i => reads f (n, i)) s = .ok () (ans.set |ans.get s| s) := by
  obtain ⟨l, hl, h⟩ := C22_d1_n chk r   N_b N_e hs he hN hE
  have e : ∀ R, D1.PD_Reduce_N_1D chk N_b N_e r ans (computes R) (fun n i => reads f (n, i)) = reduceSpec l ans (computes R) (reads f) := fun R => (h σ T ans _ _).1
  simp only [e]
  exact red_max_abs_none hl hn ans f s

/-- C24 over a range without points: `MAX_ABS` makes the variable its own absolute value -/
theorem C24_d2_none (chk : Bool) (r : D2.RangeT) (hs : r.NonNeg) (he : r.EndsFit) (ans : Ref σ T) (f : σ → Int × Int → T) (s : σ) (hn : ¬∃ p : Int × Int, r.Has p.1 p.2) :
    D2.PD_Reduce_2D chk r ans (computes PD_RF_MAX_ABS) (fun i j => reads f (i, j)) s = .ok () (ans.set |ans.get s| s) := by
  obtain ⟨l, hl, h⟩ := C22_d2 chk r   hs he
  have e : ∀ R, D2.PD_Reduce_2D chk r ans (computes R) (fun i j => reads f (i, j)) = reduceSpec l ans (computes R) (reads f) := fun R => (h σ T ans _ _).1
  simp only [e]
  exact red_max_abs_none hl hn ans f s

/-- C24 over a range without points: `MAX_ABS` makes the variable its own absolute value -/
theorem C24_d2_n_none (chk : Bool) (r : D2.RangeT) (N_b N_e : Nat) (hs : r.NonNeg) (he : r.EndsFit) (hN : N_b ≤ N_e) (hE : N_e < 4294967296) (ans : Ref σ T) (f : σ → Nat × Int × Int → T) (s : σ) (hn : ¬∃ p : Nat × Int × Int, (N_b ≤ p.1 ∧ p.1 < N_e) ∧ r.Has p.2.1 p.2.2) :
    D2.PD_Reduce_N_2D chk N_b N_e r ans (computes PD_RF_MAX_ABS) (fun n i j => reads f (n, i, j)) s = .ok () (ans.set |ans.get s| s) := by
  obtain ⟨l, hl, h⟩ := C22_d2_n chk r   N_b N_e hs he hN hE
  have e : ∀ R, D2.PD_Reduce_N_2D chk N_b N_e r ans (computes R) (fun n i j => reads f (n, i, j)) = reduceSpec l ans (computes R) (reads f) := fun R => (h σ T ans _ _).1
  simp only [e]
  exact red_max_abs_none hl hn ans f s

/-- C24 over a range without points: `MAX_ABS` makes the variable its own absolute value -/
theorem C24_d3_none (chk : Bool) (r : D3.RangeT) (hs : r.NonNeg) (he : r.EndsFit) (ans : Ref σ T) (f : σ → Int × Int × Int → T) (s : σ) (hn : ¬∃ p : Int × Int × Int, r.Has p.1 p.2.1 p.2.2) :
    D3.PD_Reduce_3D chk r ans (computes PD_RF_MAX_ABS) (fun i j k => reads f (i, j, k)) s = .ok () (ans.set |ans.get s| s) := by
  obtain ⟨l, hl, h⟩ := C22_d3 chk r   hs he
  have e : ∀ R, D3.PD_Reduce_3D chk r ans (computes R) (fun i j k => reads f (i, j, k)) = reduceSpec l ans (computes R) (reads f) := fun R => (h σ T ans _ _).1
  simp only [e]
  exact red_max_abs_none hl hn ans f s

/-- C24 over a range without points: `MAX_ABS` makes the variable its own absolute value -/
theorem C24_d3_n_none (chk : Bool) (r : D3.RangeT) (N_b N_e : Nat) (hs : r.NonNeg) (he : r.EndsFit) (hN : N_b ≤ N_e) (hE : N_e < 4294967296) (ans : Ref σ T) (f : σ → Nat × Int × Int × Int → T) (s : σ) (hn : ¬∃ p : Nat × Int × Int × Int, (N_b ≤ p.1 ∧ p.1 < N_e) ∧ r.Has p.2.1 p.2.2.1 p.2.2.2) :
    D3.PD_Reduce_N_3D chk N_b N_e r ans (computes PD_RF_MAX_ABS) (fun n i j k => reads f (n, i, j, k)) s = .ok () (ans.set |ans.get s| s) := by
  obtain ⟨l, hl, h⟩ := C22_d3_n chk r   N_b N_e hs he hN hE
  have e : ∀ R, D3.PD_Reduce_N_3D chk N_b N_e r ans (computes R) (fun n i j k => reads f (n, i, j, k)) = reduceSpec l ans (computes R) (reads f) := fun R => (h σ T ans _ _).1
  simp only [e]
  exact red_max_abs_none hl hn ans f s

/-- C24 over a range without points: `MAX_ABS` makes the variable its own absolute value -/
theorem C24_d2_axis1_none (chk : Bool) (r : D2.RangeT) (d0 : Nat) (h0 : d0 < 2) (hs : r.NonNeg) (he : r.EndsFit) (ans : Ref σ T) (f : σ → Int → T) (s : σ) (hn : ¬∃ p : Int, r.OnAxis d0 p) :
    D2.PD_Reduce_1D chk d0 r ans (computes PD_RF_MAX_ABS) (fun i => reads f i) s = .ok () (ans.set |ans.get s| s) := by
  obtain ⟨l, hl, h⟩ := C22_d2_axis1 chk r d0 h0 hs he
  have e : ∀ R, D2.PD_Reduce_1D chk d0 r ans (computes R) (fun i => reads f i) = reduceSpec l ans (computes R) (reads f) := fun R => (h σ T ans _ _).1
  simp only [e]
  exact red_max_abs_none hl hn ans f s

/-- C24 over a range without points: `MAX_ABS` makes the variable its own absolute value -/
theorem C24_d2_axis1_n_none (chk : Bool) (r : D2.RangeT) (d0 : Nat) (h0 : d0 < 2) (N_b N_e : Nat) (hs : r.NonNeg) (he : r.EndsFit) (hN : N_b ≤ N_e) (hE : N_e < 4294967296) (ans : Ref σ T) (f : σ → Nat × Int → T) (s : σ) (hn : ¬∃ p : Nat × Int, (N_b ≤ p.1 ∧ p.1 < N_e) ∧ r.OnAxis d0 p.2) :
    D2.PD_Reduce_N_1D chk N_b N_e d0 r ans (computes PD_RF_MAX_ABS) (fun n i => reads f (n, i)) s = .ok () (ans.set |ans.get s| s) := by
  obtain ⟨l, hl, h⟩ := C22_d2_axis1_n chk r d0 h0 N_b N_e hs he hN hE
  have e : ∀ R, D2.PD_Reduce_N_1D chk N_b N_e d0 r ans (computes R) (fun n i => reads f (n, i)) = reduceSpec l ans (computes R) (reads f) := fun R => (h σ T ans _ _).1
  simp only [e]
  exact red_max_abs_none hl hn ans f s

/-- C24 over a range without points: `MAX_ABS` makes the variable its own absolute value -/
theorem C24_d3_axis2_none (chk : Bool) (r : D3.RangeT) (d0 d1 : Nat) (h0 : d0 < 3)  (h1 : d1 < 3) (hs : r.NonNeg) (he : r.EndsFit) (ans : Ref σ T) (f : σ → Int × Int → T) (s : σ) (hn : ¬∃ p : Int × Int, r.OnAxis d0 p.1 ∧ r.OnAxis d1 p.2) :
    D3.PD_Reduce_2D chk d0 d1 r ans (computes PD_RF_MAX_ABS) (fun i j => reads f (i, j)) s = .ok () (ans.set |ans.get s| s) := by
  obtain ⟨l, hl, h⟩ := C22_d3_axis2 chk r d0 d1 h0 h1 hs he
  have e : ∀ R, D3.PD_Reduce_2D chk d0 d1 r ans (computes R) (fun i j => reads f (i, j)) = reduceSpec l ans (computes R) (reads f) := fun R => (h σ T ans _ _).1
  simp only [e]
  exact red_max_abs_none hl hn ans f s

/-- C24 over a range without points: `MAX_ABS` makes the variable its own absolute value -/
theorem C24_d3_axis2_n_none (chk : Bool) (r : D3.RangeT) (d0 d1 : Nat) (h0 : d0 < 3)  (h1 : d1 < 3) (N_b N_e : Nat) (hs : r.NonNeg) (he : r.EndsFit) (hN : N_b ≤ N_e) (hE : N_e < 4294967296) (ans : Ref σ T) (f : σ → Nat × Int × Int → T) (s : σ) (hn : ¬∃ p : Nat × Int × Int, (N_b ≤ p.1 ∧ p.1 < N_e) ∧ r.OnAxis d0 p.2.1 ∧ r.OnAxis d1 p.2.2) :
    D3.PD_Reduce_N_2D chk N_b N_e d0 d1 r ans (computes PD_RF_MAX_ABS) (fun n i j => reads f (n, i, j)) s = .ok () (ans.set |ans.get s| s) := by
  obtain ⟨l, hl, h⟩ := C22_d3_axis2_n chk r d0 d1 h0 h1 N_b N_e hs he hN hE
  have e : ∀ R, D3.PD_Reduce_N_2D chk N_b N_e d0 d1 r ans (computes R) (fun n i j => reads f (n, i, j)) = reduceSpec l ans (computes R) (reads f) := fun R => (h σ T ans _ _).1
  simp only [e]
  exact red_max_abs_none hl hn ans f s

/-- C24 over a range without points: `MAX_ABS` makes the variable its own absolute value -/
theorem C24_d3_axis1_none (chk : Bool) (r : D3.RangeT) (d0 : Nat) (h0 : d0 < 3) (hs : r.NonNeg) (he : r.EndsFit) (ans : Ref σ T) (f : σ → Int → T) (s : σ) (hn : ¬∃ p : Int, r.OnAxis d0 p) :
    D3.PD_Reduce_1D chk d0 r ans (computes PD_RF_MAX_ABS) (fun i => reads f i) s = .ok () (ans.set |ans.get s| s) := by
  obtain ⟨l, hl, h⟩ := C22_d3_axis1 chk r d0 h0 hs he
  have e : ∀ R, D3.PD_Reduce_1D chk d0 r ans (computes R) (fun i => reads f i) = reduceSpec l ans (computes R) (reads f) := fun R => (h σ T ans _ _).1
  simp only [e]
  exact red_max_abs_none hl hn ans f s

/-- C24 over a range without points: `MAX_ABS` makes the variable its own absolute value -/
theorem C24_d3_axis1_n_none (chk : Bool) (r : D3.RangeT) (d0 : Nat) (h0 : d0 < 3) (N_b N_e : Nat) (hs : r.NonNeg) (he : r.EndsFit) (hN : N_b ≤ N_e) (hE : N_e < 4294967296) (ans : Ref σ T) (f : σ → Nat × Int → T) (s : σ) (hn : ¬∃ p : Nat × Int, (N_b ≤ p.1 ∧ p.1 < N_e) ∧ r.OnAxis d0 p.2) :
    D3.PD_Reduce_N_1D chk N_b N_e d0 r ans (computes PD_RF_MAX_ABS) (fun n i => reads f (n, i)) s = .ok () (ans.set |ans.get s| s) := by
  obtain ⟨l, hl, h⟩ := C22_d3_axis1_n chk r d0 h0 N_b N_e hs he hN hE
  have e : ∀ R, D3.PD_Reduce_N_1D chk N_b N_e d0 r ans (computes R) (fun n i => reads f (n, i)) = reduceSpec l ans (computes R) (reads f) := fun R => (h σ T ans _ _).1
  simp only [e]
  exact red_max_abs_none hl hn ans f s

/-- ranges without points that meet the hypotheses -/
example : (D1.RangeT.mk 4 0).NonNeg ∧ (D1.RangeT.mk 4 0).EndsFit ∧ ¬∃ x, (D1.RangeT.mk 4 0).Has x := by
  refine ⟨by simp [D1.RangeT.NonNeg], by simp [D1.RangeT.EndsFit, InI32], ?_⟩
  rintro ⟨x, h⟩
  simp only [D1.RangeT.Has, Seg] at h; omega

example : (D3.RangeT.mk 0 3 4 0 1 2).NonNeg ∧ (D3.RangeT.mk 0 3 4 0 1 2).EndsFit ∧
    ¬∃ p : Int × Int × Int, (D3.RangeT.mk 0 3 4 0 1 2).Has p.1 p.2.1 p.2.2 := by
  refine ⟨by simp [D3.RangeT.NonNeg], by simp [D3.RangeT.EndsFit, InI32], ?_⟩
  rintro ⟨p, h⟩
  simp only [D3.RangeT.Has, Seg] at h; omega

end Verif.Props
