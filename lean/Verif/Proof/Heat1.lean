import Verif.Proof.Client1
import Verif.Model.Heat1
import Verif.Spec.Heat
/-!
# Example_D1_heat.cpp: proofs
-/
set_option linter.unusedSimpArgs false
namespace Verif
open Spec
variable {V : Type} {mem : Nat → Nat → Bool} {chk : Bool} {w : World V} {aw : AWorld V}

theorem Spec.Reach.comps (R : Reach mem chk w aw) {y : Nat} {k : Kind} {a : AArr V} (hy : aw.arr y = some (k, a)) : k.N ≠ 0 := by
  obtain ⟨L, R'⟩ := R.rel
  obtain ⟨o, hb, hk, h0, r⟩ := R'.arr_some hy
  exact h0

/-- a point of a 1D array -/
theorem valid1 {k : Kind} {e : Ext} {n : Nat} {i : Int} (hl : k.locs = [.center]) (hn : n < k.N) (h1 : -(e.n : Int) ≤ i)
    (h2 : i < e.i + e.p) : Valid k [e] n [i] [.C] := by
  refine ⟨by rw [hl]; rfl, hn, by rw [hl]; exact ⟨rfl, trivial⟩, ?_⟩
  rw [hl]
  refine ⟨?_, trivial⟩
  simp only [Dim.Has, FL.offset, Loc.toNat]
  omega

theorem inTags1 {e : Ext} {t : RA} {xs : List Int} (h : InTags [e] [t] xs) : ∃ i, xs = [i] ∧ InTag e.n e.i e.p t i := by
  match xs, h with
  | [i], h => exact ⟨i, rfl, h.1⟩

/-- the loop index plus a constant, in a 1D array -/
theorem access1 {E : Exts} {y : Nat} {k : Kind} {e : Ext} {val : Nat → List Int → Option V}
    (hy : aw.arr y = some (k, .ready [e] val)) (hl : k.locs = [.center]) {n : Nat} (hn : n < k.N) {i s : Int}
    (h1 : -(e.n : Int) ≤ i + s) (h2 : i + s < e.i + e.p) : AccessOk aw E [i] y n [.plus 0 s] [.C] :=
  ⟨⟨k, [e], val, hy, valid1 hl hn h1 h2⟩, fun j hj => by rw [List.mem_singleton.1 hj]; exact Nat.one_pos⟩

/-- a loop over a zone of a 1D array with one assignment to the element at the loop index -/
theorem loop_one1 {σ : Vals V} (R : Reach mem chk w (withVals aw σ)) {x y : Nat} {t : RA} {n : Nat} {rhs : Expr V} {k k' : Kind} {e e' : Ext}
    {val val' : Nat → List Int → Option V} (hx : aw.arr x = some (k, .ready [e] val))
    (hy : aw.arr y = some (k', .ready [e'] val')) (hl' : k'.locs = [.center]) (hn : n < k'.N)
    (ok : ∀ i, InTag e.n e.i e.p t i → ExprOk aw (extsOf aw) [i] rhs ∧ -(e'.n : Int) ≤ i ∧ i < e'.i + e'.p ∧
      ∀ j, InTag e.n e.i e.p t j → i ≠ j → (y, n, [j]) ∉ readsOf (extsOf aw) [i] rhs)
    (v : Int → V) (hv : ∀ i, InTag e.n e.i e.p t i → valueOf (extsOf aw) [i] σ rhs = some (v i)) :
    ∃ w' σ', (Loop.mk x [t] [Heat1.set y n rhs]).exec chk w = .ok () w' ∧ Reach mem chk w' (withVals aw σ') ∧
      (∀ i, InTag e.n e.i e.p t i → σ' (y, n, [i]) = some (v i)) ∧
      ∀ c, (∀ i, InTag e.n e.i e.p t i → c ≠ (y, n, [i])) → σ' c = σ c := by
  have tg : ∀ i : Int, targetOf (extsOf aw) [i] (Heat1.set y n rhs) = (y, n, [i]) := by
    intro i
    simp [targetOf, Heat1.set, cellAt, idxVal, point, FL.offset]
  obtain ⟨w', σ', h1, h2, h3, h4⟩ := loop_one (x := x) (ts := [t]) (a := Heat1.set y n rhs) R hx rfl
    (by
      intro xs h
      obtain ⟨i, rfl, hi⟩ := inTags1 h
      obtain ⟨o1, o2, o3, -⟩ := ok i hi
      exact ⟨o1, access1 hy hl' hn (by omega) (by omega)⟩)
    (by
      intro xs ys h h' ne
      obtain ⟨i, rfl, hi⟩ := inTags1 h
      obtain ⟨j, rfl, hj⟩ := inTags1 h'
      have ne' : i ≠ j := fun e => ne (by rw [e])
      rw [tg, tg]
      refine ⟨fun e => ne' ?_, (ok i hi).2.2.2 j hj ne'⟩
      simp only [Prod.mk.injEq, List.cons.injEq] at e
      exact e.2.2.1.symm)
    (fun xs => v (xs.getD 0 0))
    (by
      intro xs h
      obtain ⟨i, rfl, hi⟩ := inTags1 h
      exact hv i hi)
  refine ⟨w', σ', h1, h2, fun i hi => ?_, fun c hc => h4 c ?_⟩
  · have := h3 [i] ⟨hi, trivial⟩
    rw [tg] at this
    exact this
  · intro xs h
    obtain ⟨i, rfl, hi⟩ := inTags1 h
    rw [tg]; exact hc i hi

theorem reads_elem1 {E : Exts} {y n : Nat} {s i : Int} : readsOf E [i] (Heat1.elem (V := V) y n s) = [(y, n, [i + s])] := by
  simp [Heat1.elem, readsOf, cellAt, idxVal, point, FL.offset]

theorem value_elem1 {E : Exts} {y n : Nat} {s i : Int} {σ : Vals V} : valueOf E [i] σ (Heat1.elem y n s) = σ (y, n, [i + s]) := by
  simp [Heat1.elem, valueOf, cellAt, idxVal, point, FL.offset]

theorem exprOk_elem1 {E : Exts} {y : Nat} {k : Kind} {e : Ext} {val : Nat → List Int → Option V}
    (hy : aw.arr y = some (k, .ready [e] val)) (hl : k.locs = [.center]) {n : Nat} (hn : n < k.N) {i s : Int}
    (h1 : -(e.n : Int) ≤ i + s) (h2 : i + s < e.i + e.p) : ExprOk aw E [i] (Heat1.elem y n s) := access1 hy hl hn h1 h2

/-- one pass computes one step of the scheme -/
theorem heat1_pass [Add V] [Sub V] [Mul V] [OfNat V 2] {σ : Vals V} (R : Reach mem chk w (withVals aw σ)) {u dudt : Nat} (hne : dudt ≠ u)
    {ku kd : Kind} {eu ed : Ext} {vu vd : Nat → List Int → Option V} (hu : aw.arr u = some (ku, .ready [eu] vu))
    (hd : aw.arr dudt = some (kd, .ready [ed] vd)) (lu : ku.locs = [.center]) (ld : kd.locs = [.center])
    (h1 : 1 ≤ eu.n) (h2 : 1 ≤ eu.p) (h3 : eu.n < eu.i) (h4 : eu.p < eu.i) (h5 : ed.i = eu.i)
    (h6 : 2 * (eu.n + eu.i + eu.p) < 2147483648) (a dt : V) (U : Int → V)
    (init : ∀ i : Int, 0 ≤ i → i < eu.i → σ (u, 0, [i]) = some (U i)) :
    ∃ w' σ', runLoops chk (Heat1.pass u dudt a dt) w = .ok () w' ∧ Reach mem chk w' (withVals aw σ') ∧
      (∀ i : Int, 0 ≤ i → i < eu.i → σ' (u, 0, [i]) = some (heatStep eu.i a dt U i)) ∧
      ∀ c, (∀ i, c ≠ (u, 0, [i])) → (∀ i, c ≠ (dudt, 0, [i])) → σ' c = σ c := by
  have nu : 0 < ku.N := Nat.pos_of_ne_zero (R.comps (withVals_arr hu))
  have nd : 0 < kd.N := Nat.pos_of_ne_zero (R.comps (withVals_arr hd))
  have Eu := extsOf_eq hu
  -- the virtual points below
  obtain ⟨w1, σ1, r1, R1, a1, b1⟩ := loop_one1 (x := u) (y := u) (t := .N) (n := 0) (rhs := .elem u 0 [.src u .mirror 0 .N 0] [.C]) R hu hu lu nu
    (by
      intro i hi
      simp only [InTag] at hi
      refine ⟨⟨⟨ku, [eu], vu, hu, ?_⟩, ?_⟩, by omega, by omega, ?_⟩
      · simp only [List.map_cons, List.map_nil, idxVal, Eu, srcIdx, sideBound, List.getD_cons_zero]
        exact valid1 lu nu (by omega) (by omega)
      · intro j hj
        rw [List.mem_singleton.1 hj]
        refine ⟨eu, by rw [Eu]; rfl, Nat.one_pos, ?_, h3, fun _ => h6⟩
        simp only [sideTag, InTag, List.getD_cons_zero]; omega
      · intro j hj _
        simp only [InTag] at hj
        simp [readsOf, cellAt, idxVal, Eu, srcIdx, sideBound, point, FL.offset]
        omega)
    (fun i => U (-i))
    (by
      intro i hi
      simp only [InTag] at hi
      rw [← init (-i) (by omega) (by omega)]
      simp [valueOf, cellAt, idxVal, Eu, srcIdx, sideBound, point, FL.offset])
  have i1 : ∀ i : Int, 0 ≤ i → i < eu.i → σ1 (u, 0, [i]) = some (U i) := by
    intro i p q
    rw [b1, init i p q]
    intro j hj e
    simp only [InTag] at hj
    simp at e; omega
  -- the virtual points above
  obtain ⟨w2, σ2, r2, R2, a2, b2⟩ := loop_one1 (x := u) (y := u) (t := .P) (n := 0) (rhs := .elem u 0 [.src u .mirror 0 .P 0] [.C]) R1 hu hu lu nu
    (by
      intro i hi
      simp only [InTag] at hi
      refine ⟨⟨⟨ku, [eu], vu, hu, ?_⟩, ?_⟩, by omega, by omega, ?_⟩
      · simp only [List.map_cons, List.map_nil, idxVal, Eu, srcIdx, sideBound, List.getD_cons_zero]
        exact valid1 lu nu (by omega) (by omega)
      · intro j hj
        rw [List.mem_singleton.1 hj]
        refine ⟨eu, by rw [Eu]; rfl, Nat.one_pos, ?_, h4, fun _ => h6⟩
        simp only [sideTag, InTag, List.getD_cons_zero]; omega
      · intro j hj _
        simp only [InTag] at hj
        simp [readsOf, cellAt, idxVal, Eu, srcIdx, sideBound, point, FL.offset]
        omega)
    (fun i => U (2 * (eu.i - 1) - i))
    (by
      intro i hi
      simp only [InTag] at hi
      rw [← i1 (2 * (eu.i - 1) - i) (by omega) (by omega)]
      simp [valueOf, cellAt, idxVal, Eu, srcIdx, sideBound, point, FL.offset]
      congr 4
      omega)
  have i2 : ∀ i : Int, -1 ≤ i → i ≤ eu.i → σ2 (u, 0, [i]) = some (U (reflect eu.i i)) := by
    intro i p q
    unfold reflect
    split
    · rw [b2, a1 i (by simp only [InTag]; omega)]
      intro j hj e
      simp only [InTag] at hj
      simp at e; omega
    · split
      · rw [a2 i (by simp only [InTag]; omega)]
      · rw [b2, i1 i (by omega) (by omega)]
        intro j hj e
        simp only [InTag] at hj
        simp at e; omega
  have refl0 : ∀ i : Int, 0 ≤ i → i < eu.i → reflect eu.i i = i := by
    intro i p q
    unfold reflect
    rw [if_neg (by omega), if_neg (by omega)]
  -- the difference quotient
  obtain ⟨w3, σ3, r3, R3, a3, b3⟩ := loop_one1 (x := dudt) (y := dudt) (t := .IN) (n := 0)
    (rhs := .bin (· * ·) (.num a)
      (.bin (· + ·) (.bin (· - ·) (Heat1.elem u 0 (-1)) (.bin (· * ·) (.num 2) (Heat1.elem u 0 0))) (Heat1.elem u 0 1))) R2 hd hd ld nd
    (by
      intro i hi
      simp only [InTag] at hi
      refine ⟨⟨trivial, ⟨exprOk_elem1 hu lu nu (by omega) (by omega), trivial, exprOk_elem1 hu lu nu (by omega) (by omega)⟩,
        exprOk_elem1 hu lu nu (by omega) (by omega)⟩, by omega, by omega, ?_⟩
      intro j hj _
      simp only [readsOf, reads_elem1]
      simp [hne])
    (fun i => a * (U (reflect eu.i (i - 1)) - 2 * U i + U (reflect eu.i (i + 1))))
    (by
      intro i hi
      simp only [InTag] at hi
      have e0 := i2 i (by omega) (by omega)
      rw [refl0 i (by omega) (by omega)] at e0
      simp only [valueOf, value_elem1, i2 (i + -1) (by omega) (by omega), Int.add_zero, e0, i2 (i + 1) (by omega) (by omega)]
      rfl)
  have i3 : ∀ i : Int, 0 ≤ i → i < eu.i → σ3 (u, 0, [i]) = some (U i) := by
    intro i p q
    rw [b3, i2 i (by omega) (by omega), refl0 i p q]
    intro j _ e
    exact hne (Prod.mk.inj e).1.symm
  -- the step
  obtain ⟨w4, σ4, r4, R4, a4, b4⟩ := loop_one1 (x := u) (y := u) (t := .IN) (n := 0)
    (rhs := .bin (· + ·) (Heat1.elem u 0 0) (.bin (· * ·) (.num dt) (Heat1.elem dudt 0 0))) R3 hu hu lu nu
    (by
      intro i hi
      simp only [InTag] at hi
      refine ⟨⟨exprOk_elem1 hu lu nu (by omega) (by omega), trivial, exprOk_elem1 hd ld nd (by omega) (by omega)⟩, by omega, by omega, ?_⟩
      intro j hj ne
      simp only [readsOf, reads_elem1]
      simp [hne.symm]
      omega)
    (heatStep eu.i a dt U)
    (by
      intro i hi
      simp only [InTag] at hi
      simp only [valueOf, value_elem1, Int.add_zero, i3 i (by omega) (by omega), a3 i (by simp only [InTag]; omega)]
      rfl)
  refine ⟨w4, σ4, ?_, R4, fun i p q => a4 i (by simp only [InTag]; omega), ?_⟩
  · unfold Heat1.pass
    rw [runLoops_cons r1, runLoops_cons r2, runLoops_cons r3, runLoops_cons r4]
    rfl
  · intro c p q
    rw [b4 c fun i _ => p i, b3 c fun i _ => q i, b2 c fun i _ => p i, b1 c fun i _ => p i]

/-- `m` passes compute `m` steps -/
theorem heat1_passes [Add V] [Sub V] [Mul V] [OfNat V 2] {σ : Vals V} (R : Reach mem chk w (withVals aw σ)) {u dudt : Nat} (hne : dudt ≠ u)
    {ku kd : Kind} {eu ed : Ext} {vu vd : Nat → List Int → Option V} (hu : aw.arr u = some (ku, .ready [eu] vu))
    (hd : aw.arr dudt = some (kd, .ready [ed] vd)) (lu : ku.locs = [.center]) (ld : kd.locs = [.center])
    (h1 : 1 ≤ eu.n) (h2 : 1 ≤ eu.p) (h3 : eu.n < eu.i) (h4 : eu.p < eu.i) (h5 : ed.i = eu.i)
    (h6 : 2 * (eu.n + eu.i + eu.p) < 2147483648) (a dt : V) (m : Nat) (U : Int → V)
    (init : ∀ i : Int, 0 ≤ i → i < eu.i → σ (u, 0, [i]) = some (U i)) :
    ∃ w' σ', runLoops chk (Heat1.passes u dudt a dt m) w = .ok () w' ∧ Reach mem chk w' (withVals aw σ') ∧
      (∀ i : Int, 0 ≤ i → i < eu.i → σ' (u, 0, [i]) = some (heatSteps eu.i a dt m U i)) ∧
      ∀ c, (∀ i, c ≠ (u, 0, [i])) → (∀ i, c ≠ (dudt, 0, [i])) → σ' c = σ c := by
  induction m generalizing w σ U with
  | zero => exact ⟨w, σ, rfl, R, init, fun _ _ _ => rfl⟩
  | succ m ih =>
    obtain ⟨w1, σ1, r1, R1, a1, b1⟩ := heat1_pass R hne hu hd lu ld h1 h2 h3 h4 h5 h6 a dt U init
    obtain ⟨w2, σ2, r2, R2, a2, b2⟩ := ih R1 (heatStep eu.i a dt U) a1
    refine ⟨w2, σ2, ?_, R2, a2, fun c p q => by rw [b2 c p q, b1 c p q]⟩
    unfold Heat1.passes
    rw [runLoops_append, M.bind_ok r1, r2]

/-- the lambda: initial values, then `m` passes -/
theorem heat1_solve [Add V] [Sub V] [Mul V] [OfNat V 2] {σ : Vals V} (R : Reach mem chk w (withVals aw σ)) {x u dudt : Nat} (hne : dudt ≠ u)
    (hxu : x ≠ u) {kx ku kd : Kind} {ex eu ed : Ext} {vx vu vd : Nat → List Int → Option V} (hx : aw.arr x = some (kx, .ready [ex] vx))
    (hu : aw.arr u = some (ku, .ready [eu] vu)) (hd : aw.arr dudt = some (kd, .ready [ed] vd)) (lx : kx.locs = [.center])
    (lu : ku.locs = [.center]) (ld : kd.locs = [.center])
    (h1 : 1 ≤ eu.n) (h2 : 1 ≤ eu.p) (h3 : eu.n < eu.i) (h4 : eu.p < eu.i) (h5 : ed.i = eu.i) (h5' : ex.i = eu.i)
    (h6 : 2 * (eu.n + eu.i + eu.p) < 2147483648) (cos : V → V) (a dt : V) (m : Nat) (X : Int → V)
    (init : ∀ i : Int, 0 ≤ i → i < eu.i → σ (x, 0, [i]) = some (X i)) :
    ∃ w' σ', runLoops chk (Heat1.solve x u dudt cos a dt m) w = .ok () w' ∧ Reach mem chk w' (withVals aw σ') ∧
      (∀ i : Int, 0 ≤ i → i < eu.i → σ' (u, 0, [i]) = some (heatSteps eu.i a dt m (fun i => cos (X i)) i)) ∧
      ∀ c, (∀ i, c ≠ (u, 0, [i])) → (∀ i, c ≠ (dudt, 0, [i])) → σ' c = σ c := by
  have nx : 0 < kx.N := Nat.pos_of_ne_zero (R.comps (withVals_arr hx))
  have nu : 0 < ku.N := Nat.pos_of_ne_zero (R.comps (withVals_arr hu))
  obtain ⟨w1, σ1, r1, R1, a1, b1⟩ := loop_one1 (x := u) (y := u) (t := .IN) (n := 0) (rhs := .un cos (Heat1.elem x 0 0)) R hu hu lu nu
    (by
      intro i hi
      simp only [InTag] at hi
      refine ⟨exprOk_elem1 hx lx nx (by omega) (by omega), by omega, by omega, ?_⟩
      intro j hj ne
      simp only [readsOf, reads_elem1]
      simp [hxu.symm])
    (fun i => cos (X i))
    (by
      intro i hi
      simp only [InTag] at hi
      simp only [valueOf, value_elem1, Int.add_zero, init i (by omega) (by omega), Option.map_some])
  obtain ⟨w2, σ2, r2, R2, a2, b2⟩ := heat1_passes R1 hne hu hd lu ld h1 h2 h3 h4 h5 h6 a dt m (fun i => cos (X i))
    (fun i p q => a1 i (by simp only [InTag]; omega))
  refine ⟨w2, σ2, ?_, R2, a2, fun c p q => by rw [b2 c p q, b1 c fun i _ => p i]⟩
  unfold Heat1.solve
  rw [runLoops_cons r1, r2]

/-- all loops -/
theorem heat1_loops [Add V] [Sub V] [Mul V] [OfNat V 2] {σ : Vals V} (R : Reach mem chk w (withVals aw σ)) {x u dudt : Nat} (hne : dudt ≠ u)
    (hxu : x ≠ u) (hxd : x ≠ dudt) {kx ku kd : Kind} {ex eu ed : Ext} {vx vu vd : Nat → List Int → Option V}
    (hx : aw.arr x = some (kx, .ready [ex] vx))
    (hu : aw.arr u = some (ku, .ready [eu] vu)) (hd : aw.arr dudt = some (kd, .ready [ed] vd)) (lx : kx.locs = [.center])
    (lu : ku.locs = [.center]) (ld : kd.locs = [.center]) (nu : 1 < ku.N)
    (h1 : 1 ≤ eu.n) (h2 : 1 ≤ eu.p) (h3 : eu.n < eu.i) (h4 : eu.p < eu.i) (h5 : ed.i = eu.i) (h5' : ex.i = eu.i)
    (h6 : 2 * (eu.n + eu.i + eu.p) < 2147483648) (x0 h : V) (toV : Int → V) (cos : V → V) (ex' a dt : V) (m m' : Nat) :
    ∃ w' σ', runLoops chk (Heat1.loops x u dudt x0 h toV cos ex' a dt m m') w = .ok () w' ∧ Reach mem chk w' (withVals aw σ') ∧
      (∀ i : Int, 0 ≤ i → i < eu.i → σ' (x, 0, [i]) = some (x0 + toV i * h)) ∧
      (∀ i : Int, 0 ≤ i → i < eu.i → σ' (u, 0, [i]) = some (heatSteps eu.i a dt m' (fun i => cos (x0 + toV i * h)) i)) ∧
      (∀ i : Int, 0 ≤ i → i < eu.i → σ' (u, 1, [i]) = some (ex' * cos (x0 + toV i * h))) ∧
      ∀ c, (∀ i : Int, 0 ≤ i → i < eu.i → c ≠ (x, 0, [i])) → (∀ i, c ≠ (u, 0, [i])) →
        (∀ i : Int, 0 ≤ i → i < eu.i → c ≠ (u, 1, [i])) → (∀ i, c ≠ (dudt, 0, [i])) → σ' c = σ c := by
  have nx : 0 < kx.N := Nat.pos_of_ne_zero (R.comps (withVals_arr hx))
  obtain ⟨w1, σ1, r1, R1, a1, b1⟩ := loop_one1 (x := x) (y := x) (t := .IN) (n := 0)
    (rhs := .bin (· + ·) (.num x0) (.bin (· * ·) (.conv 0 toV) (.num h))) R hx hx lx nx
    (by
      intro i hi
      simp only [InTag] at hi
      exact ⟨⟨trivial, Nat.one_pos, trivial⟩, by omega, by omega, fun j hj ne => by simp [readsOf]⟩)
    (fun i => x0 + toV i * h) (fun i _ => rfl)
  have i1 : ∀ i : Int, 0 ≤ i → i < eu.i → σ1 (x, 0, [i]) = some (x0 + toV i * h) := fun i p q => a1 i (by simp only [InTag]; omega)
  obtain ⟨w2, σ2, r2, R2, -, b2⟩ := heat1_solve R1 hne hxu hx hu hd lx lu ld h1 h2 h3 h4 h5 h5' h6 cos a dt m _ i1
  have i2 : ∀ i : Int, 0 ≤ i → i < eu.i → σ2 (x, 0, [i]) = some (x0 + toV i * h) := fun i p q => by
    rw [b2, i1 i p q]
    · intro j e; exact hxu (Prod.mk.inj e).1
    · intro j e; exact hxd (Prod.mk.inj e).1
  obtain ⟨w3, σ3, r3, R3, a3, b3⟩ := heat1_solve R2 hne hxu hx hu hd lx lu ld h1 h2 h3 h4 h5 h5' h6 cos a dt m' _ i2
  have i3 : ∀ i : Int, 0 ≤ i → i < eu.i → σ3 (x, 0, [i]) = some (x0 + toV i * h) := fun i p q => by
    rw [b3, i2 i p q]
    · intro j e; exact hxu (Prod.mk.inj e).1
    · intro j e; exact hxd (Prod.mk.inj e).1
  obtain ⟨w4, σ4, r4, R4, a4, b4⟩ := loop_one1 (x := u) (y := u) (t := .IN) (n := 1)
    (rhs := .bin (· * ·) (.num ex') (.un cos (Heat1.elem x 0 0))) R3 hu hu lu nu
    (by
      intro i hi
      simp only [InTag] at hi
      refine ⟨⟨trivial, exprOk_elem1 hx lx nx (by omega) (by omega)⟩, by omega, by omega, fun j hj ne => ?_⟩
      simp only [readsOf, reads_elem1]
      simp)
    (fun i => ex' * cos (x0 + toV i * h))
    (by
      intro i hi
      simp only [InTag] at hi
      simp only [valueOf, value_elem1, Int.add_zero, i3 i (by omega) (by omega), Option.map_some])
  refine ⟨w4, σ4, ?_, R4, ?_, ?_, fun i p q => a4 i (by simp only [InTag]; omega), ?_⟩
  · unfold Heat1.loops
    rw [runLoops_append, runLoops_append, runLoops_append]
    have e1 : runLoops chk [⟨x, [.IN], [Heat1.set x 0 (.bin (· + ·) (.num x0) (.bin (· * ·) (.conv 0 toV) (.num h)))]⟩] w = .ok () w1 := by
      rw [runLoops_cons r1]; rfl
    simp only [bind_assoc]
    rw [M.bind_ok e1, M.bind_ok r2, M.bind_ok r3, runLoops_cons r4]
    rfl
  · intro i p q
    rw [b4, i3 i p q]
    intro j _ e; exact hxu (Prod.mk.inj e).1
  · intro i p q
    rw [b4, a3 i p q]
    intro j _ e
    simp at e
  · intro c p1 p2 p3 p4
    rw [b4, b3 c p2 p4, b2 c p2 p4, b1]
    · intro i hi; simp only [InTag] at hi; exact p1 i (by omega) (by omega)
    · intro i hi; simp only [InTag] at hi; exact p3 i (by omega) (by omega)

end Verif
