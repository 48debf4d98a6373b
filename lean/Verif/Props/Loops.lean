import Verif.Proof.Loops
import Verif.Proof.Range
/-!
# C19 – C22: the loop templates
-/
set_option linter.unusedSimpArgs false
namespace Verif.Props
open Spec

/-! ## C19 -/

/-- C19 (1D): there is a list of exactly the points of the range, in strictly increasing
lexicographic order, such that `PD_For_1D` is: call the function on these points in this
order, whatever the function does to whatever state; if it throws at a point, the loop ends
there with that exception and the state reached. -/
theorem C19_d1 (chk : Bool) (r : D1.RangeT) (hs : r.NonNeg) (he : r.EndsFit) :
    ∃ l : List (Int), Enumerates l (fun p => r.Has p) intLt ∧
      ∀ (σ : Type) (fn : Int → M σ Unit),
        D1.PD_For_1D chk r fn = runAll (fun p => fn p) l ∧
        ∀ l₁ p l₂ s s₁ s₂ e, l = l₁ ++ p :: l₂ → runAll (fun p => fn p) l₁ s = .ok () s₁ →
          fn p s₁ = .err e s₂ → D1.PD_For_1D chk r fn s = .err e s₂ := by
  have hs' := hs; have he' := he
  unfold D1.RangeT.NonNeg at hs'; unfold D1.RangeT.EndsFit at he'
  have n0 := hs'
  have f0 := he'
  have key : ∀ (σ : Type) (fn : Int → M σ Unit), D1.PD_For_1D chk r fn =
      runAll (fun p => fn p) (ints r.b r.s.toNat) := by
    intro σ fn
    simp only [D1.PD_For_1D, D1.RangeT.begin_0, D1.RangeT.end_0, i32_ok f0, M.monadLift_eq, M.liftM_eq, M.lift_ok, pure_bind, forI_eq _ _ n0, runAll_pairs]
  refine ⟨(ints r.b r.s.toNat), enum_ints _ _ n0, fun σ fn => ⟨key σ fn, ?_⟩⟩
  intro l₁ p l₂ s s₁ s₂ e hl h1 h2
  rw [key, hl]
  exact runAll_stop _ _ _ _ _ _ h1 _ _ h2

example : (D1.RangeT.mk (-2) 3).NonNeg ∧ (D1.RangeT.mk (-2) 3).EndsFit := by
  simp [D1.RangeT.NonNeg, D1.RangeT.EndsFit, InI32]

/-- C19 (2D): there is a list of exactly the points of the range, in strictly increasing
lexicographic order, such that `PD_For_2D` is: call the function on these points in this
order, whatever the function does to whatever state; if it throws at a point, the loop ends
there with that exception and the state reached. -/
theorem C19_d2 (chk : Bool) (r : D2.RangeT) (hs : r.NonNeg) (he : r.EndsFit) :
    ∃ l : List (Int × Int), Enumerates l (fun p => r.Has p.1 p.2) ltII ∧
      ∀ (σ : Type) (fn : Int → Int → M σ Unit),
        D2.PD_For_2D chk r fn = runAll (fun p => fn p.1 p.2) l ∧
        ∀ l₁ p l₂ s s₁ s₂ e, l = l₁ ++ p :: l₂ → runAll (fun p => fn p.1 p.2) l₁ s = .ok () s₁ →
          fn p.1 p.2 s₁ = .err e s₂ → D2.PD_For_2D chk r fn s = .err e s₂ := by
  have hs' := hs; have he' := he
  unfold D2.RangeT.NonNeg at hs'; unfold D2.RangeT.EndsFit at he'
  obtain ⟨n0, n1⟩ := hs'
  obtain ⟨f0, f1⟩ := he'
  have key : ∀ (σ : Type) (fn : Int → Int → M σ Unit), D2.PD_For_2D chk r fn =
      runAll (fun p => fn p.1 p.2) (pairs (ints r.b0 r.s0.toNat) (ints r.b1 r.s1.toNat)) := by
    intro σ fn
    simp only [D2.PD_For_2D, D2.RangeT.begin_0, D2.RangeT.end_0, i32_ok f0, D2.RangeT.begin_1, D2.RangeT.end_1, i32_ok f1, M.monadLift_eq, M.liftM_eq, M.lift_ok, pure_bind, forI_eq _ _ n0, forI_eq _ _ n1, runAll_pairs]
  refine ⟨(pairs (ints r.b0 r.s0.toNat) (ints r.b1 r.s1.toNat)), enum_pairs (enum_ints _ _ n0) (enum_ints _ _ n1), fun σ fn => ⟨key σ fn, ?_⟩⟩
  intro l₁ p l₂ s s₁ s₂ e hl h1 h2
  rw [key, hl]
  exact runAll_stop _ _ _ _ _ _ h1 _ _ h2

example : (D2.RangeT.mk (-2) 3 0 4).NonNeg ∧ (D2.RangeT.mk (-2) 3 0 4).EndsFit := by
  simp [D2.RangeT.NonNeg, D2.RangeT.EndsFit, InI32]

/-- C19 (3D): there is a list of exactly the points of the range, in strictly increasing
lexicographic order, such that `PD_For_3D` is: call the function on these points in this
order, whatever the function does to whatever state; if it throws at a point, the loop ends
there with that exception and the state reached. -/
theorem C19_d3 (chk : Bool) (r : D3.RangeT) (hs : r.NonNeg) (he : r.EndsFit) :
    ∃ l : List (Int × Int × Int), Enumerates l (fun p => r.Has p.1 p.2.1 p.2.2) ltIII ∧
      ∀ (σ : Type) (fn : Int → Int → Int → M σ Unit),
        D3.PD_For_3D chk r fn = runAll (fun p => fn p.1 p.2.1 p.2.2) l ∧
        ∀ l₁ p l₂ s s₁ s₂ e, l = l₁ ++ p :: l₂ → runAll (fun p => fn p.1 p.2.1 p.2.2) l₁ s = .ok () s₁ →
          fn p.1 p.2.1 p.2.2 s₁ = .err e s₂ → D3.PD_For_3D chk r fn s = .err e s₂ := by
  have hs' := hs; have he' := he
  unfold D3.RangeT.NonNeg at hs'; unfold D3.RangeT.EndsFit at he'
  obtain ⟨n0, n1, n2⟩ := hs'
  obtain ⟨f0, f1, f2⟩ := he'
  have key : ∀ (σ : Type) (fn : Int → Int → Int → M σ Unit), D3.PD_For_3D chk r fn =
      runAll (fun p => fn p.1 p.2.1 p.2.2) (pairs (ints r.b0 r.s0.toNat) (pairs (ints r.b1 r.s1.toNat) (ints r.b2 r.s2.toNat))) := by
    intro σ fn
    simp only [D3.PD_For_3D, D3.RangeT.begin_0, D3.RangeT.end_0, i32_ok f0, D3.RangeT.begin_1, D3.RangeT.end_1, i32_ok f1, D3.RangeT.begin_2, D3.RangeT.end_2, i32_ok f2, M.monadLift_eq, M.liftM_eq, M.lift_ok, pure_bind, forI_eq _ _ n0, forI_eq _ _ n1, forI_eq _ _ n2, runAll_pairs]
  refine ⟨(pairs (ints r.b0 r.s0.toNat) (pairs (ints r.b1 r.s1.toNat) (ints r.b2 r.s2.toNat))), enum_pairs (enum_ints _ _ n0) (enum_pairs (enum_ints _ _ n1) (enum_ints _ _ n2)), fun σ fn => ⟨key σ fn, ?_⟩⟩
  intro l₁ p l₂ s s₁ s₂ e hl h1 h2
  rw [key, hl]
  exact runAll_stop _ _ _ _ _ _ h1 _ _ h2

example : (D3.RangeT.mk (-2) 3 0 4 5 2).NonNeg ∧ (D3.RangeT.mk (-2) 3 0 4 5 2).EndsFit := by
  simp [D3.RangeT.NonNeg, D3.RangeT.EndsFit, InI32]

/-! ## C20 -/

/-- C20 (`PD_For_N`): exactly the component numbers of the interval, in increasing order. -/
theorem C20_n (N_b N_e : Nat) (hN : N_b ≤ N_e) (hE : N_e < 4294967296) :
    ∃ l : List Nat, Enumerates l (fun n => N_b ≤ n ∧ n < N_e) natLt ∧
      ∀ (σ : Type) (fn : Nat → M σ Unit), PD_For_N N_b N_e fn = runAll fn l :=
  ⟨_, enum_nats _ _ hN, fun _ fn => forU_eq _ _ hN hE fn⟩

example : (2 : Nat) ≤ 7 ∧ 7 < 4294967296 := by decide

/-- C20 (`PD_For_N`), inverted interval: the `unsigned` counter wraps around, so an inverted
component interval visits all numbers from `N_b` up to `2^32-1` and then from 0 to `N_e-1`. -/
theorem C20_n_wrap (N_b N_e : Nat) (hN : N_e < N_b) (hB : N_b < 4294967296) :
    ∃ l₁ l₂ : List Nat, Enumerates l₁ (fun n => N_b ≤ n ∧ n < 4294967296) natLt ∧
      Enumerates l₂ (fun n => n < N_e) natLt ∧
      ∀ (σ : Type) (fn : Nat → M σ Unit), PD_For_N N_b N_e fn = runAll fn (l₁ ++ l₂) :=
  ⟨_, _, enum_nats _ _ (Nat.le_of_lt hB), by simpa using enum_nats 0 N_e (Nat.zero_le _),
    fun _ fn => forU_wrap _ _ hN hB fn⟩

example : (1 : Nat) < 4294967295 ∧ 4294967295 < 4294967296 := by decide

/-- C20 (`D1::PD_For_N_1D`): the product of the component interval and the index
intervals, components outermost, in lexicographic order. -/
theorem C20_d1_n (chk : Bool) (r : D1.RangeT) (N_b N_e : Nat) (hs : r.NonNeg) (he : r.EndsFit)
    (hN : N_b ≤ N_e) (hE : N_e < 4294967296) :
    ∃ l : List (Nat × Int), Enumerates l (fun p => (N_b ≤ p.1 ∧ p.1 < N_e) ∧ r.Has p.2) (lexLt natLt intLt) ∧
      ∀ (σ : Type) (fn : Nat → Int → M σ Unit),
        D1.PD_For_N_1D chk N_b N_e r fn = runAll (fun p => fn p.1 p.2) l := by
  have hs' := hs; have he' := he
  unfold D1.RangeT.NonNeg at hs'; unfold D1.RangeT.EndsFit at he'
  have n0 := hs'
  have f0 := he'
  refine ⟨pairs (nats N_b (N_e - N_b)) (ints r.b r.s.toNat), enum_pairs (enum_nats _ _ hN) (enum_ints _ _ n0), fun σ fn => ?_⟩
  simp only [D1.PD_For_N_1D, D1.RangeT.begin_0, D1.RangeT.end_0, i32_ok f0, M.monadLift_eq, M.liftM_eq, M.lift_ok, pure_bind, forU_eq _ _ hN hE, forI_eq _ _ n0, runAll_pairs]

example : (D1.RangeT.mk (-2) 3).NonNeg ∧ (D1.RangeT.mk (-2) 3).EndsFit := by
  simp [D1.RangeT.NonNeg, D1.RangeT.EndsFit, InI32]

/-- C20 (`D2::PD_For_N_2D`): the product of the component interval and the index
intervals, components outermost, in lexicographic order. -/
theorem C20_d2_n (chk : Bool) (r : D2.RangeT) (N_b N_e : Nat) (hs : r.NonNeg) (he : r.EndsFit)
    (hN : N_b ≤ N_e) (hE : N_e < 4294967296) :
    ∃ l : List (Nat × Int × Int), Enumerates l (fun p => (N_b ≤ p.1 ∧ p.1 < N_e) ∧ r.Has p.2.1 p.2.2) (lexLt natLt ltII) ∧
      ∀ (σ : Type) (fn : Nat → Int → Int → M σ Unit),
        D2.PD_For_N_2D chk N_b N_e r fn = runAll (fun p => fn p.1 p.2.1 p.2.2) l := by
  have hs' := hs; have he' := he
  unfold D2.RangeT.NonNeg at hs'; unfold D2.RangeT.EndsFit at he'
  obtain ⟨n0, n1⟩ := hs'
  obtain ⟨f0, f1⟩ := he'
  refine ⟨pairs (nats N_b (N_e - N_b)) (pairs (ints r.b0 r.s0.toNat) (ints r.b1 r.s1.toNat)), enum_pairs (enum_nats _ _ hN) (enum_pairs (enum_ints _ _ n0) (enum_ints _ _ n1)), fun σ fn => ?_⟩
  simp only [D2.PD_For_N_2D, D2.RangeT.begin_0, D2.RangeT.end_0, i32_ok f0, D2.RangeT.begin_1, D2.RangeT.end_1, i32_ok f1, M.monadLift_eq, M.liftM_eq, M.lift_ok, pure_bind, forU_eq _ _ hN hE, forI_eq _ _ n0, forI_eq _ _ n1, runAll_pairs]

example : (D2.RangeT.mk (-2) 3 0 4).NonNeg ∧ (D2.RangeT.mk (-2) 3 0 4).EndsFit := by
  simp [D2.RangeT.NonNeg, D2.RangeT.EndsFit, InI32]

/-- C20 (`D3::PD_For_N_3D`): the product of the component interval and the index
intervals, components outermost, in lexicographic order. -/
theorem C20_d3_n (chk : Bool) (r : D3.RangeT) (N_b N_e : Nat) (hs : r.NonNeg) (he : r.EndsFit)
    (hN : N_b ≤ N_e) (hE : N_e < 4294967296) :
    ∃ l : List (Nat × Int × Int × Int), Enumerates l (fun p => (N_b ≤ p.1 ∧ p.1 < N_e) ∧ r.Has p.2.1 p.2.2.1 p.2.2.2) (lexLt natLt ltIII) ∧
      ∀ (σ : Type) (fn : Nat → Int → Int → Int → M σ Unit),
        D3.PD_For_N_3D chk N_b N_e r fn = runAll (fun p => fn p.1 p.2.1 p.2.2.1 p.2.2.2) l := by
  have hs' := hs; have he' := he
  unfold D3.RangeT.NonNeg at hs'; unfold D3.RangeT.EndsFit at he'
  obtain ⟨n0, n1, n2⟩ := hs'
  obtain ⟨f0, f1, f2⟩ := he'
  refine ⟨pairs (nats N_b (N_e - N_b)) (pairs (ints r.b0 r.s0.toNat) (pairs (ints r.b1 r.s1.toNat) (ints r.b2 r.s2.toNat))), enum_pairs (enum_nats _ _ hN) (enum_pairs (enum_ints _ _ n0) (enum_pairs (enum_ints _ _ n1) (enum_ints _ _ n2))), fun σ fn => ?_⟩
  simp only [D3.PD_For_N_3D, D3.RangeT.begin_0, D3.RangeT.end_0, i32_ok f0, D3.RangeT.begin_1, D3.RangeT.end_1, i32_ok f1, D3.RangeT.begin_2, D3.RangeT.end_2, i32_ok f2, M.monadLift_eq, M.liftM_eq, M.lift_ok, pure_bind, forU_eq _ _ hN hE, forI_eq _ _ n0, forI_eq _ _ n1, forI_eq _ _ n2, runAll_pairs]

example : (D3.RangeT.mk (-2) 3 0 4 5 2).NonNeg ∧ (D3.RangeT.mk (-2) 3 0 4 5 2).EndsFit := by
  simp [D3.RangeT.NonNeg, D3.RangeT.EndsFit, InI32]

/-- C20 (2D arrays, loop over 1 chosen axis): exactly the product of the chosen axes' index
intervals, in lexicographic order. -/
theorem C20_d2_axis1 (chk : Bool) (r : D2.RangeT) (d0 : Nat) (h0 : d0 < 2) (hs : r.NonNeg) (he : r.EndsFit) :
    ∃ l : List (Int), Enumerates l (fun p => r.OnAxis d0 p) intLt ∧
      ∀ (σ : Type) (fn : Int → M σ Unit),
        D2.PD_For_1D chk d0 r fn = runAll (fun p => fn p) l := by
  have n0 := D2.RangeT.axis_nonneg hs d0
  have f0 := D2.RangeT.axis_fit he d0
  refine ⟨(ints (r.axis d0).1 (r.axis d0).2.toNat), enum_ints _ _ n0, fun σ fn => ?_⟩
  simp only [D2.PD_For_1D, D2.RangeT.begin_axis chk r h0, D2.RangeT.end_axis chk r h0, i32_ok f0, M.monadLift_eq, M.liftM_eq, M.lift_ok, pure_bind, forI_eq _ _ n0, runAll_pairs]

example : (1 : Nat) < 2 := by decide

/-- C20 (2D arrays, loop over 1 chosen axis), invalid axis: the checked build throws before the first
iteration. -/
theorem C20_d2_axis1_reject (r : D2.RangeT) (d0 : Nat)
    (hd : 2 ≤ d0) (σ : Type) (fn : Int → M σ Unit) :
    ∃ d, D2.PD_For_1D true d0 r fn = M.throw (.dim d 2) := by
  refine ⟨d0, ?_⟩
  have : r.begin_ true d0 = .err (.dim d0 2) := by
    simp [D2.RangeT.begin_, check_d, D2.D, hd]
  simp only [D2.PD_For_1D, this, M.monadLift_eq, M.liftM_eq, M.lift_err, M.throw_bind]

example : (D2.RangeT.mk (-2) 3 0 4).EndsFit := by
  simp [D2.RangeT.EndsFit, InI32]

/-- C20 (`D2::PD_For_N_1D`, chosen axes): the product of the component interval and the index
intervals, components outermost, in lexicographic order. -/
theorem C20_d2_axis1_n (chk : Bool) (r : D2.RangeT) (d0 : Nat) (h0 : d0 < 2) (N_b N_e : Nat) (hs : r.NonNeg) (he : r.EndsFit)
    (hN : N_b ≤ N_e) (hE : N_e < 4294967296) :
    ∃ l : List (Nat × Int), Enumerates l (fun p => (N_b ≤ p.1 ∧ p.1 < N_e) ∧ r.OnAxis d0 p.2) (lexLt natLt intLt) ∧
      ∀ (σ : Type) (fn : Nat → Int → M σ Unit),
        D2.PD_For_N_1D chk N_b N_e d0 r fn = runAll (fun p => fn p.1 p.2) l := by
  have n0 := D2.RangeT.axis_nonneg hs d0
  have f0 := D2.RangeT.axis_fit he d0
  refine ⟨pairs (nats N_b (N_e - N_b)) (ints (r.axis d0).1 (r.axis d0).2.toNat), enum_pairs (enum_nats _ _ hN) (enum_ints _ _ n0), fun σ fn => ?_⟩
  simp only [D2.PD_For_N_1D, D2.RangeT.begin_axis chk r h0, D2.RangeT.end_axis chk r h0, i32_ok f0, M.monadLift_eq, M.liftM_eq, M.lift_ok, pure_bind, forU_eq _ _ hN hE, forI_eq _ _ n0, runAll_pairs]

example : (D2.RangeT.mk (-2) 3 0 4).NonNeg ∧ (D2.RangeT.mk (-2) 3 0 4).EndsFit := by
  simp [D2.RangeT.NonNeg, D2.RangeT.EndsFit, InI32]

/-- C20 (3D arrays, loop over 2 chosen axes): exactly the product of the chosen axes' index
intervals, in lexicographic order. -/
theorem C20_d3_axis2 (chk : Bool) (r : D3.RangeT) (d0 d1 : Nat) (h0 : d0 < 3)  (h1 : d1 < 3) (hs : r.NonNeg) (he : r.EndsFit) :
    ∃ l : List (Int × Int), Enumerates l (fun p => r.OnAxis d0 p.1 ∧ r.OnAxis d1 p.2) ltII ∧
      ∀ (σ : Type) (fn : Int → Int → M σ Unit),
        D3.PD_For_2D chk d0 d1 r fn = runAll (fun p => fn p.1 p.2) l := by
  have n0 := D3.RangeT.axis_nonneg hs d0
  have f0 := D3.RangeT.axis_fit he d0
  have n1 := D3.RangeT.axis_nonneg hs d1
  have f1 := D3.RangeT.axis_fit he d1
  refine ⟨(pairs (ints (r.axis d0).1 (r.axis d0).2.toNat) (ints (r.axis d1).1 (r.axis d1).2.toNat)), enum_pairs (enum_ints _ _ n0) (enum_ints _ _ n1), fun σ fn => ?_⟩
  simp only [D3.PD_For_2D, D3.RangeT.begin_axis chk r h0, D3.RangeT.end_axis chk r h0, i32_ok f0, D3.RangeT.begin_axis chk r h1, D3.RangeT.end_axis chk r h1, i32_ok f1, M.monadLift_eq, M.liftM_eq, M.lift_ok, pure_bind, forI_eq _ _ n0, forI_eq _ _ n1, runAll_pairs]

example : (2 : Nat) < 3 ∧ (1 : Nat) < 3 := by decide

/-- C20 (3D arrays, loop over 2 chosen axes), invalid axis: the checked build throws before the first
iteration. -/
theorem C20_d3_axis2_reject (r : D3.RangeT) (d0 d1 : Nat) (he : r.EndsFit)
    (hd : 3 ≤ d0 ∨ 3 ≤ d1) (σ : Type) (fn : Int → Int → M σ Unit) :
    ∃ d, D3.PD_For_2D true d0 d1 r fn = M.throw (.dim d 3) := by
  by_cases h0 : d0 < 3
  · refine ⟨d1, ?_⟩
    have h1 : 3 ≤ d1 := by omega
    have f0 := D3.RangeT.axis_fit he d0
    have : r.begin_ true d1 = .err (.dim d1 3) := by
      simp [D3.RangeT.begin_, check_d, D3.D, h1]
    simp only [D3.PD_For_2D, D3.RangeT.begin_axis true r h0, D3.RangeT.end_axis true r h0, i32_ok f0, this,
      M.monadLift_eq, M.liftM_eq, M.lift_ok, pure_bind, M.lift_err, M.throw_bind]
  · refine ⟨d0, ?_⟩
    have h0' : 3 ≤ d0 := by omega
    have : r.begin_ true d0 = .err (.dim d0 3) := by
      simp [D3.RangeT.begin_, check_d, D3.D, h0']
    simp only [D3.PD_For_2D, this, M.monadLift_eq, M.liftM_eq, M.lift_err, M.throw_bind]

example : (D3.RangeT.mk (-2) 3 0 4 5 2).EndsFit := by
  simp [D3.RangeT.EndsFit, InI32]

/-- C20 (`D3::PD_For_N_2D`, chosen axes): the product of the component interval and the index
intervals, components outermost, in lexicographic order. -/
theorem C20_d3_axis2_n (chk : Bool) (r : D3.RangeT) (d0 d1 : Nat) (h0 : d0 < 3)  (h1 : d1 < 3) (N_b N_e : Nat) (hs : r.NonNeg) (he : r.EndsFit)
    (hN : N_b ≤ N_e) (hE : N_e < 4294967296) :
    ∃ l : List (Nat × Int × Int), Enumerates l (fun p => (N_b ≤ p.1 ∧ p.1 < N_e) ∧ r.OnAxis d0 p.2.1 ∧ r.OnAxis d1 p.2.2) (lexLt natLt ltII) ∧
      ∀ (σ : Type) (fn : Nat → Int → Int → M σ Unit),
        D3.PD_For_N_2D chk N_b N_e d0 d1 r fn = runAll (fun p => fn p.1 p.2.1 p.2.2) l := by
  have n0 := D3.RangeT.axis_nonneg hs d0
  have f0 := D3.RangeT.axis_fit he d0
  have n1 := D3.RangeT.axis_nonneg hs d1
  have f1 := D3.RangeT.axis_fit he d1
  refine ⟨pairs (nats N_b (N_e - N_b)) (pairs (ints (r.axis d0).1 (r.axis d0).2.toNat) (ints (r.axis d1).1 (r.axis d1).2.toNat)), enum_pairs (enum_nats _ _ hN) (enum_pairs (enum_ints _ _ n0) (enum_ints _ _ n1)), fun σ fn => ?_⟩
  simp only [D3.PD_For_N_2D, D3.RangeT.begin_axis chk r h0, D3.RangeT.end_axis chk r h0, i32_ok f0, D3.RangeT.begin_axis chk r h1, D3.RangeT.end_axis chk r h1, i32_ok f1, M.monadLift_eq, M.liftM_eq, M.lift_ok, pure_bind, forU_eq _ _ hN hE, forI_eq _ _ n0, forI_eq _ _ n1, runAll_pairs]

example : (D3.RangeT.mk (-2) 3 0 4 5 2).NonNeg ∧ (D3.RangeT.mk (-2) 3 0 4 5 2).EndsFit := by
  simp [D3.RangeT.NonNeg, D3.RangeT.EndsFit, InI32]

/-- C20 (3D arrays, loop over 1 chosen axis): exactly the product of the chosen axes' index
intervals, in lexicographic order. -/
theorem C20_d3_axis1 (chk : Bool) (r : D3.RangeT) (d0 : Nat) (h0 : d0 < 3) (hs : r.NonNeg) (he : r.EndsFit) :
    ∃ l : List (Int), Enumerates l (fun p => r.OnAxis d0 p) intLt ∧
      ∀ (σ : Type) (fn : Int → M σ Unit),
        D3.PD_For_1D chk d0 r fn = runAll (fun p => fn p) l := by
  have n0 := D3.RangeT.axis_nonneg hs d0
  have f0 := D3.RangeT.axis_fit he d0
  refine ⟨(ints (r.axis d0).1 (r.axis d0).2.toNat), enum_ints _ _ n0, fun σ fn => ?_⟩
  simp only [D3.PD_For_1D, D3.RangeT.begin_axis chk r h0, D3.RangeT.end_axis chk r h0, i32_ok f0, M.monadLift_eq, M.liftM_eq, M.lift_ok, pure_bind, forI_eq _ _ n0, runAll_pairs]

example : (2 : Nat) < 3 := by decide

/-- C20 (3D arrays, loop over 1 chosen axis), invalid axis: the checked build throws before the first
iteration. -/
theorem C20_d3_axis1_reject (r : D3.RangeT) (d0 : Nat)
    (hd : 3 ≤ d0) (σ : Type) (fn : Int → M σ Unit) :
    ∃ d, D3.PD_For_1D true d0 r fn = M.throw (.dim d 3) := by
  refine ⟨d0, ?_⟩
  have : r.begin_ true d0 = .err (.dim d0 3) := by
    simp [D3.RangeT.begin_, check_d, D3.D, hd]
  simp only [D3.PD_For_1D, this, M.monadLift_eq, M.liftM_eq, M.lift_err, M.throw_bind]

example : (D3.RangeT.mk (-2) 3 0 4 5 2).EndsFit := by
  simp [D3.RangeT.EndsFit, InI32]

/-- C20 (`D3::PD_For_N_1D`, chosen axes): the product of the component interval and the index
intervals, components outermost, in lexicographic order. -/
theorem C20_d3_axis1_n (chk : Bool) (r : D3.RangeT) (d0 : Nat) (h0 : d0 < 3) (N_b N_e : Nat) (hs : r.NonNeg) (he : r.EndsFit)
    (hN : N_b ≤ N_e) (hE : N_e < 4294967296) :
    ∃ l : List (Nat × Int), Enumerates l (fun p => (N_b ≤ p.1 ∧ p.1 < N_e) ∧ r.OnAxis d0 p.2) (lexLt natLt intLt) ∧
      ∀ (σ : Type) (fn : Nat → Int → M σ Unit),
        D3.PD_For_N_1D chk N_b N_e d0 r fn = runAll (fun p => fn p.1 p.2) l := by
  have n0 := D3.RangeT.axis_nonneg hs d0
  have f0 := D3.RangeT.axis_fit he d0
  refine ⟨pairs (nats N_b (N_e - N_b)) (ints (r.axis d0).1 (r.axis d0).2.toNat), enum_pairs (enum_nats _ _ hN) (enum_ints _ _ n0), fun σ fn => ?_⟩
  simp only [D3.PD_For_N_1D, D3.RangeT.begin_axis chk r h0, D3.RangeT.end_axis chk r h0, i32_ok f0, M.monadLift_eq, M.liftM_eq, M.lift_ok, pure_bind, forU_eq _ _ hN hE, forI_eq _ _ n0, runAll_pairs]

example : (D3.RangeT.mk (-2) 3 0 4 5 2).NonNeg ∧ (D3.RangeT.mk (-2) 3 0 4 5 2).EndsFit := by
  simp [D3.RangeT.NonNeg, D3.RangeT.EndsFit, InI32]

/-! ## C21 -/

/-- C21 fails (1D): a loop over a range of negative size does not "run no iteration": with
any function that returns normally it ends in undefined behaviour (counter overflow), after
calling the function. -/
theorem C21_false_d1 (chk : Bool) (r : D1.RangeT) (hr : r.Int32) (hs : r.s < 0) (he : r.EndsFit) :
    (∀ (σ : Type) (s : σ), D1.PD_For_1D chk r (fun _ => pure ()) s = .ub .overflow) ∧
    (∀ (σ : Type) (fn : Int → M σ Unit) (s s' : σ) (e : Err), fn r.b s = .err e s' → D1.PD_For_1D chk r fn s = .err e s') := by
  unfold D1.RangeT.EndsFit at he
  have hlt : r.b + r.s < r.b := by omega
  constructor
  · intro σ s
    simp only [D1.PD_For_1D, D1.RangeT.begin_0, D1.RangeT.end_0, i32_ok he, M.monadLift_eq, M.liftM_eq, M.lift_ok, pure_bind,
      forI_inverted _ _ hlt]
    rw [M.bind_ok (runAll_ok _ _ s (by intros; rfl))]; rfl
  · intro σ fn s s' e hfn
    simp only [D1.PD_For_1D, D1.RangeT.begin_0, D1.RangeT.end_0, i32_ok he, M.monadLift_eq, M.liftM_eq, M.lift_ok, pure_bind,
      forI_inverted _ _ hlt]
    have : ∃ k, (INT_MAX - r.b + 1).toNat = k + 1 := by
      have := hr.1; unfold InI32 at this; unfold INT_MAX
      exact ⟨(2147483647 - r.b).toNat, by omega⟩
    obtain ⟨k, hk⟩ := this
    rw [hk]; simp only [ints, runAll_cons, bind_assoc]; rw [M.bind_err hfn]

/-- such ranges come out of `cut_head`/`cut_tail` -/
example : (D1.RangeT.mk 0 3).cut_head 5 = .ok ⟨5, -2⟩ := by decide

/-- C21, partial (1D): a range of size zero runs no iteration.  Missing: negative sizes
(`C21_false_d1`). -/
theorem C21_d1_partial (chk : Bool) (r : D1.RangeT) (h : r.s = 0) (he : r.EndsFit) (σ : Type) (fn : Int → M σ Unit) :
    D1.PD_For_1D chk r fn = pure () := by
  obtain ⟨b, s⟩ := r
  unfold D1.RangeT.EndsFit at he
  simp only at h he; subst h
  simp only [D1.PD_For_1D, D1.RangeT.begin_0, D1.RangeT.end_0, i32_ok he, M.monadLift_eq, M.liftM_eq, M.lift_ok, pure_bind,
    forI_eq _ _ (Int.le_refl 0)]
  rfl

example : (D1.RangeT.mk 4 0).EndsFit := by simp [D1.RangeT.EndsFit, InI32]

/-- C21 fails (2D): if the sizes in front of the first non-positive one are positive and that
one is negative, a loop whose function returns normally ends in undefined behaviour. -/
theorem C21_false_d2 (chk : Bool) (r : D2.RangeT) (he : r.EndsFit)
    (hs : (r.s0 < 0) ∨ (0 < r.s0 ∧ r.s1 < 0)) (σ : Type) (s : σ) :
    D2.PD_For_2D chk r (fun _ _ => pure ()) s = .ub .overflow := by
  unfold D2.RangeT.EndsFit at he
  obtain ⟨f0, f1⟩ := he
  have one : ∀ (b x : Int) (body : Int → M σ Unit), x < 0 → (∀ i, body i s = .ok () s) → forI b (b + x) body s = .ub .overflow := by
    intro b x body hx hb
    rw [forI_inverted _ _ (by omega), M.bind_ok (runAll_ok _ _ s (fun a _ => hb a))]; rfl
  have pos : ∀ (b x : Int) (body : Int → M σ Unit), 0 < x → body b s = .ub .overflow → forI b (b + x) body s = .ub .overflow := by
    intro b x body hx hb
    rw [forI_eq _ _ (by omega)]
    obtain ⟨k, hk⟩ : ∃ k, x.toNat = k + 1 := ⟨x.toNat - 1, by omega⟩
    rw [hk]; simp only [ints, runAll_cons]; rw [M.bind_ub hb]
  have anyr : ∀ (b x : Int) (body : Int → M σ Unit), (∀ i, body i s = .ok () s ∨ body i s = .ub .overflow) →
      forI b (b + x) body s = .ok () s ∨ forI b (b + x) body s = .ub .overflow := by
    intro b x body hb
    have hl : ∀ l : List Int, runAll body l s = .ok () s ∨ runAll body l s = .ub .overflow := by
      intro l; induction l with
      | nil => exact .inl rfl
      | cons a l ih =>
        rw [runAll_cons]
        rcases hb a with h | h
        · rw [M.bind_ok h]; exact ih
        · rw [M.bind_ub h]; exact .inr rfl
    by_cases hx : 0 ≤ x
    · rw [forI_eq _ _ hx]; exact hl _
    · rw [forI_inverted _ _ (by omega)]
      rcases hl (ints b (INT_MAX - b + 1).toNat) with h | h
      · rw [M.bind_ok h]; exact .inr rfl
      · rw [M.bind_ub h]; exact .inr rfl
  have any : ∀ (b x : Int) (body : Int → M σ Unit), x < 0 → (∀ i, body i s = .ok () s ∨ body i s = .ub .overflow) →
      forI b (b + x) body s = .ub .overflow := by
    intro b x body hx hb
    rw [forI_inverted _ _ (by omega)]
    have hl : ∀ l : List Int, runAll body l s = .ok () s ∨ runAll body l s = .ub .overflow := by
      intro l; induction l with
      | nil => exact .inl rfl
      | cons a l ih =>
        rw [runAll_cons]
        rcases hb a with h | h
        · rw [M.bind_ok h]; exact ih
        · rw [M.bind_ub h]; exact .inr rfl
    rcases hl (ints b (INT_MAX - b + 1).toNat) with h | h
    · rw [M.bind_ok h]; rfl
    · rw [M.bind_ub h]
  simp only [D2.PD_For_2D, D2.RangeT.begin_0, D2.RangeT.end_0, i32_ok f0, D2.RangeT.begin_1, D2.RangeT.end_1, i32_ok f1, M.monadLift_eq, M.liftM_eq, M.lift_ok, pure_bind]
  rcases hs with h | ⟨h0, h1⟩
  · exact any _ _ _ h fun i => anyr _ _ _ fun j => .inl rfl
  · exact pos _ _ _ h0 (any _ _ _ h1 fun j => .inl rfl)

example : (D2.RangeT.mk 0 3 0 3).cut_tail 0 5 = .ok ⟨0, 3, 0, -2⟩ := by decide

/-- C21, partial (2D): if some size is zero and none is negative, no iteration is run.
Missing: negative sizes (`C21_false_d2`). -/
theorem C21_d2_partial (chk : Bool) (r : D2.RangeT) (hn : r.NonNeg) (he : r.EndsFit)
    (h : r.s0 = 0 ∨ r.s1 = 0) (σ : Type) (fn : Int → Int → M σ Unit) :
    D2.PD_For_2D chk r fn = pure () := by
  obtain ⟨l, hl, hf⟩ := C19_d2 chk r hn he
  rw [(hf σ fn).1]
  have : l = [] := by
    rw [List.eq_nil_iff_forall_not_mem]
    intro p hp
    have := (hl.1 p).1 hp
    simp only [D2.RangeT.Has, Seg] at this
    omega
  rw [this]; rfl

example : (D2.RangeT.mk 0 3 7 0).NonNeg ∧ (D2.RangeT.mk 0 3 7 0).EndsFit := by
  simp [D2.RangeT.NonNeg, D2.RangeT.EndsFit, InI32]

/-- C21 fails (3D): if the sizes in front of the first non-positive one are positive and that
one is negative, a loop whose function returns normally ends in undefined behaviour. -/
theorem C21_false_d3 (chk : Bool) (r : D3.RangeT) (he : r.EndsFit)
    (hs : (r.s0 < 0) ∨ (0 < r.s0 ∧ r.s1 < 0) ∨ (0 < r.s0 ∧ 0 < r.s1 ∧ r.s2 < 0)) (σ : Type) (s : σ) :
    D3.PD_For_3D chk r (fun _ _ _ => pure ()) s = .ub .overflow := by
  unfold D3.RangeT.EndsFit at he
  obtain ⟨f0, f1, f2⟩ := he
  have one : ∀ (b x : Int) (body : Int → M σ Unit), x < 0 → (∀ i, body i s = .ok () s) → forI b (b + x) body s = .ub .overflow := by
    intro b x body hx hb
    rw [forI_inverted _ _ (by omega), M.bind_ok (runAll_ok _ _ s (fun a _ => hb a))]; rfl
  have pos : ∀ (b x : Int) (body : Int → M σ Unit), 0 < x → body b s = .ub .overflow → forI b (b + x) body s = .ub .overflow := by
    intro b x body hx hb
    rw [forI_eq _ _ (by omega)]
    obtain ⟨k, hk⟩ : ∃ k, x.toNat = k + 1 := ⟨x.toNat - 1, by omega⟩
    rw [hk]; simp only [ints, runAll_cons]; rw [M.bind_ub hb]
  have anyr : ∀ (b x : Int) (body : Int → M σ Unit), (∀ i, body i s = .ok () s ∨ body i s = .ub .overflow) →
      forI b (b + x) body s = .ok () s ∨ forI b (b + x) body s = .ub .overflow := by
    intro b x body hb
    have hl : ∀ l : List Int, runAll body l s = .ok () s ∨ runAll body l s = .ub .overflow := by
      intro l; induction l with
      | nil => exact .inl rfl
      | cons a l ih =>
        rw [runAll_cons]
        rcases hb a with h | h
        · rw [M.bind_ok h]; exact ih
        · rw [M.bind_ub h]; exact .inr rfl
    by_cases hx : 0 ≤ x
    · rw [forI_eq _ _ hx]; exact hl _
    · rw [forI_inverted _ _ (by omega)]
      rcases hl (ints b (INT_MAX - b + 1).toNat) with h | h
      · rw [M.bind_ok h]; exact .inr rfl
      · rw [M.bind_ub h]; exact .inr rfl
  have any : ∀ (b x : Int) (body : Int → M σ Unit), x < 0 → (∀ i, body i s = .ok () s ∨ body i s = .ub .overflow) →
      forI b (b + x) body s = .ub .overflow := by
    intro b x body hx hb
    rw [forI_inverted _ _ (by omega)]
    have hl : ∀ l : List Int, runAll body l s = .ok () s ∨ runAll body l s = .ub .overflow := by
      intro l; induction l with
      | nil => exact .inl rfl
      | cons a l ih =>
        rw [runAll_cons]
        rcases hb a with h | h
        · rw [M.bind_ok h]; exact ih
        · rw [M.bind_ub h]; exact .inr rfl
    rcases hl (ints b (INT_MAX - b + 1).toNat) with h | h
    · rw [M.bind_ok h]; rfl
    · rw [M.bind_ub h]
  simp only [D3.PD_For_3D, D3.RangeT.begin_0, D3.RangeT.end_0, i32_ok f0, D3.RangeT.begin_1, D3.RangeT.end_1, i32_ok f1, D3.RangeT.begin_2, D3.RangeT.end_2, i32_ok f2, M.monadLift_eq, M.liftM_eq, M.lift_ok, pure_bind]
  rcases hs with h | ⟨h0, h1⟩ | ⟨h0, h1, h2⟩
  · exact any _ _ _ h fun i => anyr _ _ _ fun j => anyr _ _ _ fun k => .inl rfl
  · exact pos _ _ _ h0 (any _ _ _ h1 fun j => anyr _ _ _ fun k => .inl rfl)
  · exact pos _ _ _ h0 (pos _ _ _ h1 (any _ _ _ h2 fun k => .inl rfl))

example : (D3.RangeT.mk 0 3 0 3 0 3).cut_tail 0 0 5 = .ok ⟨0, 3, 0, 3, 0, -2⟩ := by decide

/-- C21, partial (3D): if some size is zero and none is negative, no iteration is run.
Missing: negative sizes (`C21_false_d3`). -/
theorem C21_d3_partial (chk : Bool) (r : D3.RangeT) (hn : r.NonNeg) (he : r.EndsFit)
    (h : r.s0 = 0 ∨ r.s1 = 0 ∨ r.s2 = 0) (σ : Type) (fn : Int → Int → Int → M σ Unit) :
    D3.PD_For_3D chk r fn = pure () := by
  obtain ⟨l, hl, hf⟩ := C19_d3 chk r hn he
  rw [(hf σ fn).1]
  have : l = [] := by
    rw [List.eq_nil_iff_forall_not_mem]
    intro p hp
    have := (hl.1 p).1 hp
    simp only [D3.RangeT.Has, Seg] at this
    omega
  rw [this]; rfl

example : (D3.RangeT.mk 0 3 0 3 7 0).NonNeg ∧ (D3.RangeT.mk 0 3 0 3 7 0).EndsFit := by
  simp [D3.RangeT.NonNeg, D3.RangeT.EndsFit, InI32]

/-! ## C22 -/

/-- C22 (`PD_Reduce_N`) -/
theorem C22_n (N_b N_e : Nat) (hN : N_b ≤ N_e) (hE : N_e < 4294967296) :
    ∃ l : List Nat, Enumerates l (fun n => N_b ≤ n ∧ n < N_e) natLt ∧
      ∀ (σ T : Type) (ans : Ref σ T) (reduce : T → T → M σ T) (fn : Nat → M σ T),
        PD_Reduce_N N_b N_e ans reduce fn = reduceSpec l ans reduce fn ∧
        ((∀ x t, Leaves ans (reduce x t)) → (∀ n, Leaves ans (fn n)) →
          ∀ s s' e, PD_Reduce_N N_b N_e ans reduce fn s = .err e s' → ans.get s' = ans.get s) := by
  refine ⟨_, enum_nats _ _ hN, fun σ T ans reduce fn => ?_⟩
  have key : PD_Reduce_N N_b N_e ans reduce fn = reduceSpec (nats N_b (N_e - N_b)) ans reduce fn := by
    simp only [PD_Reduce_N, reduceSpec, forUAcc_eq _ _ hN hE]
  exact ⟨key, fun hr hf s s' e h => reduceSpec_err _ ans reduce fn hr hf s s' e (key ▸ h)⟩

example : Leaves (σ := Int × Int) ⟨Prod.fst, fun v s => (v, s.2)⟩ (fun s => .err (.user "x") (s.1, 5) : M (Int × Int) Int) := by
  intro s; constructor <;> intro a s' h <;> cases h; rfl

/-- C22 (`D1::PD_Reduce_1D`): the reducer meets the values in the order of the loop, starting
from the variable; the variable is written only at the end and is unchanged after an exception. -/
theorem C22_d1 (chk : Bool) (r : D1.RangeT) (hs : r.NonNeg) (he : r.EndsFit) :
    ∃ l : List (Int), Enumerates l (fun p => r.Has p) intLt ∧
      ∀ (σ T : Type) (ans : Ref σ T) (reduce : T → T → M σ T) (fn : Int → M σ T),
        D1.PD_Reduce_1D chk r ans reduce fn = reduceSpec l ans reduce (fun p => fn p) ∧
        ((∀ x t, Leaves ans (reduce x t)) → (∀ i, Leaves ans (fn i)) →
          ∀ s s' e, D1.PD_Reduce_1D chk r ans reduce fn s = .err e s' → ans.get s' = ans.get s) := by
  have hs' := hs; have he' := he
  unfold D1.RangeT.NonNeg at hs'; unfold D1.RangeT.EndsFit at he'
  have n0 := hs'
  have f0 := he'
  refine ⟨(ints r.b r.s.toNat), enum_ints _ _ n0, fun σ T ans reduce fn => ?_⟩
  have key : D1.PD_Reduce_1D chk r ans reduce fn = reduceSpec (ints r.b r.s.toNat) ans reduce (fun p => fn p) := by
    simp only [D1.PD_Reduce_1D, reduceSpec, D1.RangeT.begin_0, D1.RangeT.end_0, i32_ok f0, M.monadLift_eq, M.liftM_eq, M.lift_ok, pure_bind, forIAcc_eq _ _ n0, foldAll_pairs]
  exact ⟨key, fun hr hf s s' e h => reduceSpec_err _ ans reduce _ hr (fun _ => hf _) s s' e (key ▸ h)⟩

example : (D1.RangeT.mk (-2) 3).NonNeg ∧ (D1.RangeT.mk (-2) 3).EndsFit := by
  simp [D1.RangeT.NonNeg, D1.RangeT.EndsFit, InI32]

/-- C22 (`D1::PD_Reduce_N_1D`) -/
theorem C22_d1_n (chk : Bool) (r : D1.RangeT) (N_b N_e : Nat) (hs : r.NonNeg) (he : r.EndsFit)
    (hN : N_b ≤ N_e) (hE : N_e < 4294967296) :
    ∃ l : List (Nat × Int), Enumerates l (fun p => (N_b ≤ p.1 ∧ p.1 < N_e) ∧ r.Has p.2) (lexLt natLt intLt) ∧
      ∀ (σ T : Type) (ans : Ref σ T) (reduce : T → T → M σ T) (fn : Nat → Int → M σ T),
        D1.PD_Reduce_N_1D chk N_b N_e r ans reduce fn = reduceSpec l ans reduce (fun p => fn p.1 p.2) ∧
        ((∀ x t, Leaves ans (reduce x t)) → (∀ n i, Leaves ans (fn n i)) →
          ∀ s s' e, D1.PD_Reduce_N_1D chk N_b N_e r ans reduce fn s = .err e s' → ans.get s' = ans.get s) := by
  have hs' := hs; have he' := he
  unfold D1.RangeT.NonNeg at hs'; unfold D1.RangeT.EndsFit at he'
  have n0 := hs'
  have f0 := he'
  refine ⟨pairs (nats N_b (N_e - N_b)) (ints r.b r.s.toNat), enum_pairs (enum_nats _ _ hN) (enum_ints _ _ n0), fun σ T ans reduce fn => ?_⟩
  have key : D1.PD_Reduce_N_1D chk N_b N_e r ans reduce fn =
      reduceSpec (pairs (nats N_b (N_e - N_b)) (ints r.b r.s.toNat)) ans reduce (fun p => fn p.1 p.2) := by
    simp only [D1.PD_Reduce_N_1D, reduceSpec, D1.RangeT.begin_0, D1.RangeT.end_0, i32_ok f0, M.monadLift_eq, M.liftM_eq, M.lift_ok, pure_bind, forUAcc_eq _ _ hN hE, forIAcc_eq _ _ n0, foldAll_pairs]
  exact ⟨key, fun hr hf s s' e h => reduceSpec_err _ ans reduce _ hr (fun _ => hf _ _) s s' e (key ▸ h)⟩

example : (D1.RangeT.mk (-2) 3).NonNeg ∧ (D1.RangeT.mk (-2) 3).EndsFit := by
  simp [D1.RangeT.NonNeg, D1.RangeT.EndsFit, InI32]

/-- C22 (`D2::PD_Reduce_2D`): the reducer meets the values in the order of the loop, starting
from the variable; the variable is written only at the end and is unchanged after an exception. -/
theorem C22_d2 (chk : Bool) (r : D2.RangeT) (hs : r.NonNeg) (he : r.EndsFit) :
    ∃ l : List (Int × Int), Enumerates l (fun p => r.Has p.1 p.2) ltII ∧
      ∀ (σ T : Type) (ans : Ref σ T) (reduce : T → T → M σ T) (fn : Int → Int → M σ T),
        D2.PD_Reduce_2D chk r ans reduce fn = reduceSpec l ans reduce (fun p => fn p.1 p.2) ∧
        ((∀ x t, Leaves ans (reduce x t)) → (∀ i j, Leaves ans (fn i j)) →
          ∀ s s' e, D2.PD_Reduce_2D chk r ans reduce fn s = .err e s' → ans.get s' = ans.get s) := by
  have hs' := hs; have he' := he
  unfold D2.RangeT.NonNeg at hs'; unfold D2.RangeT.EndsFit at he'
  obtain ⟨n0, n1⟩ := hs'
  obtain ⟨f0, f1⟩ := he'
  refine ⟨(pairs (ints r.b0 r.s0.toNat) (ints r.b1 r.s1.toNat)), enum_pairs (enum_ints _ _ n0) (enum_ints _ _ n1), fun σ T ans reduce fn => ?_⟩
  have key : D2.PD_Reduce_2D chk r ans reduce fn = reduceSpec (pairs (ints r.b0 r.s0.toNat) (ints r.b1 r.s1.toNat)) ans reduce (fun p => fn p.1 p.2) := by
    simp only [D2.PD_Reduce_2D, reduceSpec, D2.RangeT.begin_0, D2.RangeT.end_0, i32_ok f0, D2.RangeT.begin_1, D2.RangeT.end_1, i32_ok f1, M.monadLift_eq, M.liftM_eq, M.lift_ok, pure_bind, forIAcc_eq _ _ n0, forIAcc_eq _ _ n1, foldAll_pairs]
  exact ⟨key, fun hr hf s s' e h => reduceSpec_err _ ans reduce _ hr (fun _ => hf _ _) s s' e (key ▸ h)⟩

example : (D2.RangeT.mk (-2) 3 0 4).NonNeg ∧ (D2.RangeT.mk (-2) 3 0 4).EndsFit := by
  simp [D2.RangeT.NonNeg, D2.RangeT.EndsFit, InI32]

/-- C22 (`D2::PD_Reduce_N_2D`) -/
theorem C22_d2_n (chk : Bool) (r : D2.RangeT) (N_b N_e : Nat) (hs : r.NonNeg) (he : r.EndsFit)
    (hN : N_b ≤ N_e) (hE : N_e < 4294967296) :
    ∃ l : List (Nat × Int × Int), Enumerates l (fun p => (N_b ≤ p.1 ∧ p.1 < N_e) ∧ r.Has p.2.1 p.2.2) (lexLt natLt ltII) ∧
      ∀ (σ T : Type) (ans : Ref σ T) (reduce : T → T → M σ T) (fn : Nat → Int → Int → M σ T),
        D2.PD_Reduce_N_2D chk N_b N_e r ans reduce fn = reduceSpec l ans reduce (fun p => fn p.1 p.2.1 p.2.2) ∧
        ((∀ x t, Leaves ans (reduce x t)) → (∀ n i j, Leaves ans (fn n i j)) →
          ∀ s s' e, D2.PD_Reduce_N_2D chk N_b N_e r ans reduce fn s = .err e s' → ans.get s' = ans.get s) := by
  have hs' := hs; have he' := he
  unfold D2.RangeT.NonNeg at hs'; unfold D2.RangeT.EndsFit at he'
  obtain ⟨n0, n1⟩ := hs'
  obtain ⟨f0, f1⟩ := he'
  refine ⟨pairs (nats N_b (N_e - N_b)) (pairs (ints r.b0 r.s0.toNat) (ints r.b1 r.s1.toNat)), enum_pairs (enum_nats _ _ hN) (enum_pairs (enum_ints _ _ n0) (enum_ints _ _ n1)), fun σ T ans reduce fn => ?_⟩
  have key : D2.PD_Reduce_N_2D chk N_b N_e r ans reduce fn =
      reduceSpec (pairs (nats N_b (N_e - N_b)) (pairs (ints r.b0 r.s0.toNat) (ints r.b1 r.s1.toNat))) ans reduce (fun p => fn p.1 p.2.1 p.2.2) := by
    simp only [D2.PD_Reduce_N_2D, reduceSpec, D2.RangeT.begin_0, D2.RangeT.end_0, i32_ok f0, D2.RangeT.begin_1, D2.RangeT.end_1, i32_ok f1, M.monadLift_eq, M.liftM_eq, M.lift_ok, pure_bind, forUAcc_eq _ _ hN hE, forIAcc_eq _ _ n0, forIAcc_eq _ _ n1, foldAll_pairs]
  exact ⟨key, fun hr hf s s' e h => reduceSpec_err _ ans reduce _ hr (fun _ => hf _ _ _) s s' e (key ▸ h)⟩

example : (D2.RangeT.mk (-2) 3 0 4).NonNeg ∧ (D2.RangeT.mk (-2) 3 0 4).EndsFit := by
  simp [D2.RangeT.NonNeg, D2.RangeT.EndsFit, InI32]

/-- C22 (`D3::PD_Reduce_3D`): the reducer meets the values in the order of the loop, starting
from the variable; the variable is written only at the end and is unchanged after an exception. -/
theorem C22_d3 (chk : Bool) (r : D3.RangeT) (hs : r.NonNeg) (he : r.EndsFit) :
    ∃ l : List (Int × Int × Int), Enumerates l (fun p => r.Has p.1 p.2.1 p.2.2) ltIII ∧
      ∀ (σ T : Type) (ans : Ref σ T) (reduce : T → T → M σ T) (fn : Int → Int → Int → M σ T),
        D3.PD_Reduce_3D chk r ans reduce fn = reduceSpec l ans reduce (fun p => fn p.1 p.2.1 p.2.2) ∧
        ((∀ x t, Leaves ans (reduce x t)) → (∀ i j k, Leaves ans (fn i j k)) →
          ∀ s s' e, D3.PD_Reduce_3D chk r ans reduce fn s = .err e s' → ans.get s' = ans.get s) := by
  have hs' := hs; have he' := he
  unfold D3.RangeT.NonNeg at hs'; unfold D3.RangeT.EndsFit at he'
  obtain ⟨n0, n1, n2⟩ := hs'
  obtain ⟨f0, f1, f2⟩ := he'
  refine ⟨(pairs (ints r.b0 r.s0.toNat) (pairs (ints r.b1 r.s1.toNat) (ints r.b2 r.s2.toNat))), enum_pairs (enum_ints _ _ n0) (enum_pairs (enum_ints _ _ n1) (enum_ints _ _ n2)), fun σ T ans reduce fn => ?_⟩
  have key : D3.PD_Reduce_3D chk r ans reduce fn = reduceSpec (pairs (ints r.b0 r.s0.toNat) (pairs (ints r.b1 r.s1.toNat) (ints r.b2 r.s2.toNat))) ans reduce (fun p => fn p.1 p.2.1 p.2.2) := by
    simp only [D3.PD_Reduce_3D, reduceSpec, D3.RangeT.begin_0, D3.RangeT.end_0, i32_ok f0, D3.RangeT.begin_1, D3.RangeT.end_1, i32_ok f1, D3.RangeT.begin_2, D3.RangeT.end_2, i32_ok f2, M.monadLift_eq, M.liftM_eq, M.lift_ok, pure_bind, forIAcc_eq _ _ n0, forIAcc_eq _ _ n1, forIAcc_eq _ _ n2, foldAll_pairs]
  exact ⟨key, fun hr hf s s' e h => reduceSpec_err _ ans reduce _ hr (fun _ => hf _ _ _) s s' e (key ▸ h)⟩

example : (D3.RangeT.mk (-2) 3 0 4 5 2).NonNeg ∧ (D3.RangeT.mk (-2) 3 0 4 5 2).EndsFit := by
  simp [D3.RangeT.NonNeg, D3.RangeT.EndsFit, InI32]

/-- C22 (`D3::PD_Reduce_N_3D`) -/
theorem C22_d3_n (chk : Bool) (r : D3.RangeT) (N_b N_e : Nat) (hs : r.NonNeg) (he : r.EndsFit)
    (hN : N_b ≤ N_e) (hE : N_e < 4294967296) :
    ∃ l : List (Nat × Int × Int × Int), Enumerates l (fun p => (N_b ≤ p.1 ∧ p.1 < N_e) ∧ r.Has p.2.1 p.2.2.1 p.2.2.2) (lexLt natLt ltIII) ∧
      ∀ (σ T : Type) (ans : Ref σ T) (reduce : T → T → M σ T) (fn : Nat → Int → Int → Int → M σ T),
        D3.PD_Reduce_N_3D chk N_b N_e r ans reduce fn = reduceSpec l ans reduce (fun p => fn p.1 p.2.1 p.2.2.1 p.2.2.2) ∧
        ((∀ x t, Leaves ans (reduce x t)) → (∀ n i j k, Leaves ans (fn n i j k)) →
          ∀ s s' e, D3.PD_Reduce_N_3D chk N_b N_e r ans reduce fn s = .err e s' → ans.get s' = ans.get s) := by
  have hs' := hs; have he' := he
  unfold D3.RangeT.NonNeg at hs'; unfold D3.RangeT.EndsFit at he'
  obtain ⟨n0, n1, n2⟩ := hs'
  obtain ⟨f0, f1, f2⟩ := he'
  refine ⟨pairs (nats N_b (N_e - N_b)) (pairs (ints r.b0 r.s0.toNat) (pairs (ints r.b1 r.s1.toNat) (ints r.b2 r.s2.toNat))), enum_pairs (enum_nats _ _ hN) (enum_pairs (enum_ints _ _ n0) (enum_pairs (enum_ints _ _ n1) (enum_ints _ _ n2))), fun σ T ans reduce fn => ?_⟩
  have key : D3.PD_Reduce_N_3D chk N_b N_e r ans reduce fn =
      reduceSpec (pairs (nats N_b (N_e - N_b)) (pairs (ints r.b0 r.s0.toNat) (pairs (ints r.b1 r.s1.toNat) (ints r.b2 r.s2.toNat)))) ans reduce (fun p => fn p.1 p.2.1 p.2.2.1 p.2.2.2) := by
    simp only [D3.PD_Reduce_N_3D, reduceSpec, D3.RangeT.begin_0, D3.RangeT.end_0, i32_ok f0, D3.RangeT.begin_1, D3.RangeT.end_1, i32_ok f1, D3.RangeT.begin_2, D3.RangeT.end_2, i32_ok f2, M.monadLift_eq, M.liftM_eq, M.lift_ok, pure_bind, forUAcc_eq _ _ hN hE, forIAcc_eq _ _ n0, forIAcc_eq _ _ n1, forIAcc_eq _ _ n2, foldAll_pairs]
  exact ⟨key, fun hr hf s s' e h => reduceSpec_err _ ans reduce _ hr (fun _ => hf _ _ _ _) s s' e (key ▸ h)⟩

example : (D3.RangeT.mk (-2) 3 0 4 5 2).NonNeg ∧ (D3.RangeT.mk (-2) 3 0 4 5 2).EndsFit := by
  simp [D3.RangeT.NonNeg, D3.RangeT.EndsFit, InI32]

/-- C22 (`D2::PD_Reduce_1D`, chosen axes): the reducer meets the values in the order of the loop, starting
from the variable; the variable is written only at the end and is unchanged after an exception. -/
theorem C22_d2_axis1 (chk : Bool) (r : D2.RangeT) (d0 : Nat) (h0 : d0 < 2) (hs : r.NonNeg) (he : r.EndsFit) :
    ∃ l : List (Int), Enumerates l (fun p => r.OnAxis d0 p) intLt ∧
      ∀ (σ T : Type) (ans : Ref σ T) (reduce : T → T → M σ T) (fn : Int → M σ T),
        D2.PD_Reduce_1D chk d0 r ans reduce fn = reduceSpec l ans reduce (fun p => fn p) ∧
        ((∀ x t, Leaves ans (reduce x t)) → (∀ i, Leaves ans (fn i)) →
          ∀ s s' e, D2.PD_Reduce_1D chk d0 r ans reduce fn s = .err e s' → ans.get s' = ans.get s) := by
  have n0 := D2.RangeT.axis_nonneg hs d0
  have f0 := D2.RangeT.axis_fit he d0
  refine ⟨(ints (r.axis d0).1 (r.axis d0).2.toNat), enum_ints _ _ n0, fun σ T ans reduce fn => ?_⟩
  have key : D2.PD_Reduce_1D chk d0 r ans reduce fn = reduceSpec (ints (r.axis d0).1 (r.axis d0).2.toNat) ans reduce (fun p => fn p) := by
    simp only [D2.PD_Reduce_1D, reduceSpec, D2.RangeT.begin_axis chk r h0, D2.RangeT.end_axis chk r h0, i32_ok f0, M.monadLift_eq, M.liftM_eq, M.lift_ok, pure_bind, forIAcc_eq _ _ n0, foldAll_pairs]
  exact ⟨key, fun hr hf s s' e h => reduceSpec_err _ ans reduce _ hr (fun _ => hf _) s s' e (key ▸ h)⟩

example : (D2.RangeT.mk (-2) 3 0 4).NonNeg ∧ (D2.RangeT.mk (-2) 3 0 4).EndsFit := by
  simp [D2.RangeT.NonNeg, D2.RangeT.EndsFit, InI32]

/-- C22 (`D2::PD_Reduce_N_1D`, chosen axes) -/
theorem C22_d2_axis1_n (chk : Bool) (r : D2.RangeT) (d0 : Nat) (h0 : d0 < 2) (N_b N_e : Nat) (hs : r.NonNeg) (he : r.EndsFit)
    (hN : N_b ≤ N_e) (hE : N_e < 4294967296) :
    ∃ l : List (Nat × Int), Enumerates l (fun p => (N_b ≤ p.1 ∧ p.1 < N_e) ∧ r.OnAxis d0 p.2) (lexLt natLt intLt) ∧
      ∀ (σ T : Type) (ans : Ref σ T) (reduce : T → T → M σ T) (fn : Nat → Int → M σ T),
        D2.PD_Reduce_N_1D chk N_b N_e d0 r ans reduce fn = reduceSpec l ans reduce (fun p => fn p.1 p.2) ∧
        ((∀ x t, Leaves ans (reduce x t)) → (∀ n i, Leaves ans (fn n i)) →
          ∀ s s' e, D2.PD_Reduce_N_1D chk N_b N_e d0 r ans reduce fn s = .err e s' → ans.get s' = ans.get s) := by
  have n0 := D2.RangeT.axis_nonneg hs d0
  have f0 := D2.RangeT.axis_fit he d0
  refine ⟨pairs (nats N_b (N_e - N_b)) (ints (r.axis d0).1 (r.axis d0).2.toNat), enum_pairs (enum_nats _ _ hN) (enum_ints _ _ n0), fun σ T ans reduce fn => ?_⟩
  have key : D2.PD_Reduce_N_1D chk N_b N_e d0 r ans reduce fn =
      reduceSpec (pairs (nats N_b (N_e - N_b)) (ints (r.axis d0).1 (r.axis d0).2.toNat)) ans reduce (fun p => fn p.1 p.2) := by
    simp only [D2.PD_Reduce_N_1D, reduceSpec, D2.RangeT.begin_axis chk r h0, D2.RangeT.end_axis chk r h0, i32_ok f0, M.monadLift_eq, M.liftM_eq, M.lift_ok, pure_bind, forUAcc_eq _ _ hN hE, forIAcc_eq _ _ n0, foldAll_pairs]
  exact ⟨key, fun hr hf s s' e h => reduceSpec_err _ ans reduce _ hr (fun _ => hf _ _) s s' e (key ▸ h)⟩

example : (D2.RangeT.mk (-2) 3 0 4).NonNeg ∧ (D2.RangeT.mk (-2) 3 0 4).EndsFit := by
  simp [D2.RangeT.NonNeg, D2.RangeT.EndsFit, InI32]

/-- C22 (`D3::PD_Reduce_2D`, chosen axes): the reducer meets the values in the order of the loop, starting
from the variable; the variable is written only at the end and is unchanged after an exception. -/
theorem C22_d3_axis2 (chk : Bool) (r : D3.RangeT) (d0 d1 : Nat) (h0 : d0 < 3)  (h1 : d1 < 3) (hs : r.NonNeg) (he : r.EndsFit) :
    ∃ l : List (Int × Int), Enumerates l (fun p => r.OnAxis d0 p.1 ∧ r.OnAxis d1 p.2) ltII ∧
      ∀ (σ T : Type) (ans : Ref σ T) (reduce : T → T → M σ T) (fn : Int → Int → M σ T),
        D3.PD_Reduce_2D chk d0 d1 r ans reduce fn = reduceSpec l ans reduce (fun p => fn p.1 p.2) ∧
        ((∀ x t, Leaves ans (reduce x t)) → (∀ i j, Leaves ans (fn i j)) →
          ∀ s s' e, D3.PD_Reduce_2D chk d0 d1 r ans reduce fn s = .err e s' → ans.get s' = ans.get s) := by
  have n0 := D3.RangeT.axis_nonneg hs d0
  have f0 := D3.RangeT.axis_fit he d0
  have n1 := D3.RangeT.axis_nonneg hs d1
  have f1 := D3.RangeT.axis_fit he d1
  refine ⟨(pairs (ints (r.axis d0).1 (r.axis d0).2.toNat) (ints (r.axis d1).1 (r.axis d1).2.toNat)), enum_pairs (enum_ints _ _ n0) (enum_ints _ _ n1), fun σ T ans reduce fn => ?_⟩
  have key : D3.PD_Reduce_2D chk d0 d1 r ans reduce fn = reduceSpec (pairs (ints (r.axis d0).1 (r.axis d0).2.toNat) (ints (r.axis d1).1 (r.axis d1).2.toNat)) ans reduce (fun p => fn p.1 p.2) := by
    simp only [D3.PD_Reduce_2D, reduceSpec, D3.RangeT.begin_axis chk r h0, D3.RangeT.end_axis chk r h0, i32_ok f0, D3.RangeT.begin_axis chk r h1, D3.RangeT.end_axis chk r h1, i32_ok f1, M.monadLift_eq, M.liftM_eq, M.lift_ok, pure_bind, forIAcc_eq _ _ n0, forIAcc_eq _ _ n1, foldAll_pairs]
  exact ⟨key, fun hr hf s s' e h => reduceSpec_err _ ans reduce _ hr (fun _ => hf _ _) s s' e (key ▸ h)⟩

example : (D3.RangeT.mk (-2) 3 0 4 5 2).NonNeg ∧ (D3.RangeT.mk (-2) 3 0 4 5 2).EndsFit := by
  simp [D3.RangeT.NonNeg, D3.RangeT.EndsFit, InI32]

/-- C22 (`D3::PD_Reduce_N_2D`, chosen axes) -/
theorem C22_d3_axis2_n (chk : Bool) (r : D3.RangeT) (d0 d1 : Nat) (h0 : d0 < 3)  (h1 : d1 < 3) (N_b N_e : Nat) (hs : r.NonNeg) (he : r.EndsFit)
    (hN : N_b ≤ N_e) (hE : N_e < 4294967296) :
    ∃ l : List (Nat × Int × Int), Enumerates l (fun p => (N_b ≤ p.1 ∧ p.1 < N_e) ∧ r.OnAxis d0 p.2.1 ∧ r.OnAxis d1 p.2.2) (lexLt natLt ltII) ∧
      ∀ (σ T : Type) (ans : Ref σ T) (reduce : T → T → M σ T) (fn : Nat → Int → Int → M σ T),
        D3.PD_Reduce_N_2D chk N_b N_e d0 d1 r ans reduce fn = reduceSpec l ans reduce (fun p => fn p.1 p.2.1 p.2.2) ∧
        ((∀ x t, Leaves ans (reduce x t)) → (∀ n i j, Leaves ans (fn n i j)) →
          ∀ s s' e, D3.PD_Reduce_N_2D chk N_b N_e d0 d1 r ans reduce fn s = .err e s' → ans.get s' = ans.get s) := by
  have n0 := D3.RangeT.axis_nonneg hs d0
  have f0 := D3.RangeT.axis_fit he d0
  have n1 := D3.RangeT.axis_nonneg hs d1
  have f1 := D3.RangeT.axis_fit he d1
  refine ⟨pairs (nats N_b (N_e - N_b)) (pairs (ints (r.axis d0).1 (r.axis d0).2.toNat) (ints (r.axis d1).1 (r.axis d1).2.toNat)), enum_pairs (enum_nats _ _ hN) (enum_pairs (enum_ints _ _ n0) (enum_ints _ _ n1)), fun σ T ans reduce fn => ?_⟩
  have key : D3.PD_Reduce_N_2D chk N_b N_e d0 d1 r ans reduce fn =
      reduceSpec (pairs (nats N_b (N_e - N_b)) (pairs (ints (r.axis d0).1 (r.axis d0).2.toNat) (ints (r.axis d1).1 (r.axis d1).2.toNat))) ans reduce (fun p => fn p.1 p.2.1 p.2.2) := by
    simp only [D3.PD_Reduce_N_2D, reduceSpec, D3.RangeT.begin_axis chk r h0, D3.RangeT.end_axis chk r h0, i32_ok f0, D3.RangeT.begin_axis chk r h1, D3.RangeT.end_axis chk r h1, i32_ok f1, M.monadLift_eq, M.liftM_eq, M.lift_ok, pure_bind, forUAcc_eq _ _ hN hE, forIAcc_eq _ _ n0, forIAcc_eq _ _ n1, foldAll_pairs]
  exact ⟨key, fun hr hf s s' e h => reduceSpec_err _ ans reduce _ hr (fun _ => hf _ _ _) s s' e (key ▸ h)⟩

example : (D3.RangeT.mk (-2) 3 0 4 5 2).NonNeg ∧ (D3.RangeT.mk (-2) 3 0 4 5 2).EndsFit := by
  simp [D3.RangeT.NonNeg, D3.RangeT.EndsFit, InI32]

/-- C22 (`D3::PD_Reduce_1D`, chosen axes): the reducer meets the values in the order of the loop, starting
from the variable; the variable is written only at the end and is unchanged after an exception. -/
theorem C22_d3_axis1 (chk : Bool) (r : D3.RangeT) (d0 : Nat) (h0 : d0 < 3) (hs : r.NonNeg) (he : r.EndsFit) :
    ∃ l : List (Int), Enumerates l (fun p => r.OnAxis d0 p) intLt ∧
      ∀ (σ T : Type) (ans : Ref σ T) (reduce : T → T → M σ T) (fn : Int → M σ T),
        D3.PD_Reduce_1D chk d0 r ans reduce fn = reduceSpec l ans reduce (fun p => fn p) ∧
        ((∀ x t, Leaves ans (reduce x t)) → (∀ i, Leaves ans (fn i)) →
          ∀ s s' e, D3.PD_Reduce_1D chk d0 r ans reduce fn s = .err e s' → ans.get s' = ans.get s) := by
  have n0 := D3.RangeT.axis_nonneg hs d0
  have f0 := D3.RangeT.axis_fit he d0
  refine ⟨(ints (r.axis d0).1 (r.axis d0).2.toNat), enum_ints _ _ n0, fun σ T ans reduce fn => ?_⟩
  have key : D3.PD_Reduce_1D chk d0 r ans reduce fn = reduceSpec (ints (r.axis d0).1 (r.axis d0).2.toNat) ans reduce (fun p => fn p) := by
    simp only [D3.PD_Reduce_1D, reduceSpec, D3.RangeT.begin_axis chk r h0, D3.RangeT.end_axis chk r h0, i32_ok f0, M.monadLift_eq, M.liftM_eq, M.lift_ok, pure_bind, forIAcc_eq _ _ n0, foldAll_pairs]
  exact ⟨key, fun hr hf s s' e h => reduceSpec_err _ ans reduce _ hr (fun _ => hf _) s s' e (key ▸ h)⟩

example : (D3.RangeT.mk (-2) 3 0 4 5 2).NonNeg ∧ (D3.RangeT.mk (-2) 3 0 4 5 2).EndsFit := by
  simp [D3.RangeT.NonNeg, D3.RangeT.EndsFit, InI32]

/-- C22 (`D3::PD_Reduce_N_1D`, chosen axes) -/
theorem C22_d3_axis1_n (chk : Bool) (r : D3.RangeT) (d0 : Nat) (h0 : d0 < 3) (N_b N_e : Nat) (hs : r.NonNeg) (he : r.EndsFit)
    (hN : N_b ≤ N_e) (hE : N_e < 4294967296) :
    ∃ l : List (Nat × Int), Enumerates l (fun p => (N_b ≤ p.1 ∧ p.1 < N_e) ∧ r.OnAxis d0 p.2) (lexLt natLt intLt) ∧
      ∀ (σ T : Type) (ans : Ref σ T) (reduce : T → T → M σ T) (fn : Nat → Int → M σ T),
        D3.PD_Reduce_N_1D chk N_b N_e d0 r ans reduce fn = reduceSpec l ans reduce (fun p => fn p.1 p.2) ∧
        ((∀ x t, Leaves ans (reduce x t)) → (∀ n i, Leaves ans (fn n i)) →
          ∀ s s' e, D3.PD_Reduce_N_1D chk N_b N_e d0 r ans reduce fn s = .err e s' → ans.get s' = ans.get s) := by
  have n0 := D3.RangeT.axis_nonneg hs d0
  have f0 := D3.RangeT.axis_fit he d0
  refine ⟨pairs (nats N_b (N_e - N_b)) (ints (r.axis d0).1 (r.axis d0).2.toNat), enum_pairs (enum_nats _ _ hN) (enum_ints _ _ n0), fun σ T ans reduce fn => ?_⟩
  have key : D3.PD_Reduce_N_1D chk N_b N_e d0 r ans reduce fn =
      reduceSpec (pairs (nats N_b (N_e - N_b)) (ints (r.axis d0).1 (r.axis d0).2.toNat)) ans reduce (fun p => fn p.1 p.2) := by
    simp only [D3.PD_Reduce_N_1D, reduceSpec, D3.RangeT.begin_axis chk r h0, D3.RangeT.end_axis chk r h0, i32_ok f0, M.monadLift_eq, M.liftM_eq, M.lift_ok, pure_bind, forUAcc_eq _ _ hN hE, forIAcc_eq _ _ n0, foldAll_pairs]
  exact ⟨key, fun hr hf s s' e h => reduceSpec_err _ ans reduce _ hr (fun _ => hf _ _) s s' e (key ▸ h)⟩

example : (D3.RangeT.mk (-2) 3 0 4 5 2).NonNeg ∧ (D3.RangeT.mk (-2) 3 0 4 5 2).EndsFit := by
  simp [D3.RangeT.NonNeg, D3.RangeT.EndsFit, InI32]

end Verif.Props
