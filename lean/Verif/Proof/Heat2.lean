import Verif.Proof.Heat1
import Verif.Model.Heat2
/-!
# Example_D2_heat.cpp: proofs
-/
set_option linter.unusedSimpArgs false
namespace Verif
open Spec
variable {V : Type} {mem : Nat → Nat → Bool} {chk : Bool} {w : World V} {aw : AWorld V}

/-- a point of a 2D array -/
theorem valid2 {k : Kind} {e f : Ext} {n : Nat} {i j : Int} (hl : k.locs = [.center, .center]) (hn : n < k.N) (h1 : -(e.n : Int) ≤ i)
    (h2 : i < e.i + e.p) (h3 : -(f.n : Int) ≤ j) (h4 : j < f.i + f.p) : Valid k [e, f] n [i, j] [.C, .C] := by
  refine ⟨by rw [hl]; rfl, hn, by rw [hl]; exact ⟨rfl, rfl, trivial⟩, ?_⟩
  rw [hl]
  refine ⟨?_, ?_, trivial⟩ <;> simp only [Dim.Has, FL.offset, Loc.toNat] <;> omega

theorem inTags2 {e f : Ext} {t t' : RA} {xs : List Int} (h : InTags [e, f] [t, t'] xs) :
    ∃ i j, xs = [i, j] ∧ InTag e.n e.i e.p t i ∧ InTag f.n f.i f.p t' j := by
  match xs, h with
  | [i, j], h => exact ⟨i, j, rfl, h.1, h.2.1⟩

theorem access2 {E : Exts} {y : Nat} {k : Kind} {e f : Ext} {val : Nat → List Int → Option V}
    (hy : aw.arr y = some (k, .ready [e, f] val)) (hl : k.locs = [.center, .center]) {n : Nat} (hn : n < k.N) {i j s t : Int}
    (h1 : -(e.n : Int) ≤ i + s) (h2 : i + s < e.i + e.p) (h3 : -(f.n : Int) ≤ j + t) (h4 : j + t < f.i + f.p) :
    AccessOk aw E [i, j] y n [.plus 0 s, .plus 1 t] [.C, .C] := by
  refine ⟨⟨k, [e, f], val, hy, valid2 hl hn h1 h2 h3 h4⟩, fun a ha => ?_⟩
  rcases List.mem_cons.1 ha with rfl | ha
  · exact Nat.two_pos
  · rw [List.mem_singleton.1 ha]; exact Nat.one_lt_two

theorem target2 {E : Exts} {y n : Nat} {rhs : Expr V} (i j : Int) : targetOf E [i, j] (Heat2.set y n rhs) = (y, n, [i, j]) := by
  simp [targetOf, Heat2.set, cellAt, idxVal, point, FL.offset]

/-- a loop over zones of a 2D array with one assignment to the element at the loop indices -/
theorem loop_one2 {σ : Vals V} (R : Reach mem chk w (withVals aw σ)) {x y : Nat} {t t' : RA} {n : Nat} {rhs : Expr V} {k k' : Kind} {e f e' f' : Ext}
    {val val' : Nat → List Int → Option V} (hx : aw.arr x = some (k, .ready [e, f] val))
    (hy : aw.arr y = some (k', .ready [e', f'] val')) (hl' : k'.locs = [.center, .center]) (hn : n < k'.N)
    (ok : ∀ i j, InTag e.n e.i e.p t i → InTag f.n f.i f.p t' j → ExprOk aw (extsOf aw) [i, j] rhs ∧ -(e'.n : Int) ≤ i ∧ i < e'.i + e'.p ∧
      -(f'.n : Int) ≤ j ∧ j < f'.i + f'.p ∧
      ∀ i' j', InTag e.n e.i e.p t i' → InTag f.n f.i f.p t' j' → ¬ (i = i' ∧ j = j') → (y, n, [i', j']) ∉ readsOf (extsOf aw) [i, j] rhs)
    (v : Int → Int → V) (hv : ∀ i j, InTag e.n e.i e.p t i → InTag f.n f.i f.p t' j → valueOf (extsOf aw) [i, j] σ rhs = some (v i j)) :
    ∃ w' σ', (Loop.mk x [t, t'] [Heat2.set y n rhs]).exec chk w = .ok () w' ∧ Reach mem chk w' (withVals aw σ') ∧
      (∀ i j, InTag e.n e.i e.p t i → InTag f.n f.i f.p t' j → σ' (y, n, [i, j]) = some (v i j)) ∧
      ∀ c, (∀ i j, InTag e.n e.i e.p t i → InTag f.n f.i f.p t' j → c ≠ (y, n, [i, j])) → σ' c = σ c := by
  obtain ⟨w', σ', h1, h2, h3, h4⟩ := loop_one (x := x) (ts := [t, t']) (a := Heat2.set y n rhs) R hx rfl
    (by
      intro xs h
      obtain ⟨i, j, rfl, hi, hj⟩ := inTags2 h
      obtain ⟨o1, o2, o3, o4, o5, -⟩ := ok i j hi hj
      exact ⟨o1, access2 hy hl' hn (by omega) (by omega) (by omega) (by omega)⟩)
    (by
      intro xs ys h h' ne
      obtain ⟨i, j, rfl, hi, hj⟩ := inTags2 h
      obtain ⟨i', j', rfl, hi', hj'⟩ := inTags2 h'
      have ne' : ¬ (i = i' ∧ j = j') := fun e => ne (by rw [e.1, e.2])
      rw [target2, target2]
      refine ⟨fun e => ne' ?_, (ok i j hi hj).2.2.2.2.2 i' j' hi' hj' ne'⟩
      simp only [Prod.mk.injEq, List.cons.injEq] at e
      exact ⟨e.2.2.1.symm, e.2.2.2.1.symm⟩)
    (fun xs => v (xs.getD 0 0) (xs.getD 1 0))
    (by
      intro xs h
      obtain ⟨i, j, rfl, hi, hj⟩ := inTags2 h
      exact hv i j hi hj)
  refine ⟨w', σ', h1, h2, fun i j hi hj => ?_, fun c hc => h4 c ?_⟩
  · have := h3 [i, j] ⟨hi, hj, trivial⟩
    rw [target2] at this
    exact this
  · intro xs h
    obtain ⟨i, j, rfl, hi, hj⟩ := inTags2 h
    rw [target2]; exact hc i j hi hj

theorem reads_elem2 {E : Exts} {y n : Nat} {s t i j : Int} : readsOf E [i, j] (Heat2.elem (V := V) y n s t) = [(y, n, [i + s, j + t])] := by
  simp [Heat2.elem, readsOf, cellAt, idxVal, point, FL.offset]

theorem value_elem2 {E : Exts} {y n : Nat} {s t i j : Int} {σ : Vals V} :
    valueOf E [i, j] σ (Heat2.elem y n s t) = σ (y, n, [i + s, j + t]) := by
  simp [Heat2.elem, valueOf, cellAt, idxVal, point, FL.offset]

theorem exprOk_elem2 {E : Exts} {y : Nat} {k : Kind} {e f : Ext} {val : Nat → List Int → Option V}
    (hy : aw.arr y = some (k, .ready [e, f] val)) (hl : k.locs = [.center, .center]) {n : Nat} (hn : n < k.N) {i j s t : Int}
    (h1 : -(e.n : Int) ≤ i + s) (h2 : i + s < e.i + e.p) (h3 : -(f.n : Int) ≤ j + t) (h4 : j + t < f.i + f.p) :
    ExprOk aw E [i, j] (Heat2.elem y n s t) := access2 hy hl hn h1 h2 h3 h4

/-- the arrays of the program -/
structure Heat2Ready (aw : AWorld V) (u dudt : Nat) (ku kd : Kind) (e f e' f' : Ext) : Prop where
  ne : dudt ≠ u
  hu : ∃ vu, aw.arr u = some (ku, .ready [e, f] vu)
  hd : ∃ vd, aw.arr dudt = some (kd, .ready [e', f'] vd)
  lu : ku.locs = [.center, .center]
  ld : kd.locs = [.center, .center]
  nu : 0 < ku.N
  nd : 0 < kd.N
  n1 : 1 ≤ e.n
  p1 : 1 ≤ e.p
  n2 : 1 ≤ f.n
  p2 : 1 ≤ f.p
  a1 : e.n < e.i
  b1 : e.p < e.i
  a2 : f.n < f.i
  b2 : f.p < f.i
  s1 : e'.i = e.i
  s2 : f'.i = f.i
  f1 : 2 * (e.n + e.i + e.p) < 2147483648
  f2 : 2 * (f.n + f.i + f.p) < 2147483648

/-- filling the virtual points -/
theorem heat2_fill [Add V] [Sub V] [Mul V] [Neg V] [OfNat V 2] {σ : Vals V} (R : Reach mem chk w (withVals aw σ)) {u dudt : Nat}
    {ku kd : Kind} {e f e' f' : Ext} (H : Heat2Ready aw u dudt ku kd e f e' f') (ax ay dt : V) (U : Int → Int → V)
    (init : ∀ i j : Int, 0 ≤ i → i < e.i → 0 ≤ j → j < f.i → σ (u, 0, [i, j]) = some (U i j)) :
    ∃ w' σ', runLoops chk ((Heat2.pass u dudt ax ay dt).take 4) w = .ok () w' ∧ Reach mem chk w' (withVals aw σ') ∧
      (∀ i j : Int, 0 ≤ i → i < e.i → -1 ≤ j → j ≤ f.i → σ' (u, 0, [i, j]) = some (U i (reflect f.i j))) ∧
      (∀ i j : Int, -1 ≤ i → i ≤ e.i → 0 ≤ j → j < f.i → σ' (u, 0, [i, j]) = some (oddX e.i U i j)) ∧
      ∀ c, (∀ i j, c ≠ (u, 0, [i, j])) → σ' c = σ c := by
  obtain ⟨hne, ⟨vu, hu⟩, -, lu, -, nu, -, n1, p1, n2, p2, a1, b1, a2, b2, -, -, f1, f2⟩ := H
  have Eu := extsOf_eq hu
  -- the virtual points below in the second direction
  obtain ⟨w1, σ1, r1, R1, g1, t1⟩ := loop_one2 (x := u) (y := u) (t := .IN) (t' := .N) (n := 0)
    (rhs := .elem u 0 [.plus 0 0, .src u .mirror 1 .N 1] [.C, .C]) R hu hu lu nu
    (by
      intro i j hi hj
      simp only [InTag] at hi hj
      refine ⟨⟨⟨ku, [e, f], vu, hu, ?_⟩, ?_⟩, by omega, by omega, by omega, by omega, ?_⟩
      · simp only [List.map_cons, List.map_nil, idxVal, Eu, srcIdx, sideBound, List.getD_cons_zero, List.getD_cons_succ]
        exact valid2 lu nu (by omega) (by omega) (by omega) (by omega)
      · intro q hq
        rcases List.mem_cons.1 hq with rfl | hq
        · exact Nat.two_pos
        · rw [List.mem_singleton.1 hq]
          refine ⟨f, by rw [Eu]; rfl, Nat.one_lt_two, ?_, a2, fun _ => f2⟩
          simp only [sideTag, InTag, List.getD_cons_zero, List.getD_cons_succ]; omega
      · intro i' j' hi' hj' _
        simp only [InTag] at hi' hj'
        simp [readsOf, cellAt, idxVal, Eu, srcIdx, sideBound, point, FL.offset]
        omega)
    (fun i j => U i (-j))
    (by
      intro i j hi hj
      simp only [InTag] at hi hj
      rw [← init i (-j) (by omega) (by omega) (by omega) (by omega)]
      simp [valueOf, cellAt, idxVal, Eu, srcIdx, sideBound, point, FL.offset])
  have i1 : ∀ i j : Int, 0 ≤ i → i < e.i → 0 ≤ j → j < f.i → σ1 (u, 0, [i, j]) = some (U i j) := by
    intro i j p q p' q'
    rw [t1, init i j p q p' q']
    intro i' j' hi hj e
    simp only [InTag] at hi hj
    simp at e; omega
  -- above
  obtain ⟨w2, σ2, r2, R2, g2, t2⟩ := loop_one2 (x := u) (y := u) (t := .IN) (t' := .P) (n := 0)
    (rhs := .elem u 0 [.plus 0 0, .src u .mirror 1 .P 1] [.C, .C]) R1 hu hu lu nu
    (by
      intro i j hi hj
      simp only [InTag] at hi hj
      refine ⟨⟨⟨ku, [e, f], vu, hu, ?_⟩, ?_⟩, by omega, by omega, by omega, by omega, ?_⟩
      · simp only [List.map_cons, List.map_nil, idxVal, Eu, srcIdx, sideBound, List.getD_cons_zero, List.getD_cons_succ]
        exact valid2 lu nu (by omega) (by omega) (by omega) (by omega)
      · intro q hq
        rcases List.mem_cons.1 hq with rfl | hq
        · exact Nat.two_pos
        · rw [List.mem_singleton.1 hq]
          refine ⟨f, by rw [Eu]; rfl, Nat.one_lt_two, ?_, b2, fun _ => f2⟩
          simp only [sideTag, InTag, List.getD_cons_zero, List.getD_cons_succ]; omega
      · intro i' j' hi' hj' _
        simp only [InTag] at hi' hj'
        simp [readsOf, cellAt, idxVal, Eu, srcIdx, sideBound, point, FL.offset]
        omega)
    (fun i j => U i (2 * (f.i - 1) - j))
    (by
      intro i j hi hj
      simp only [InTag] at hi hj
      rw [← i1 i (2 * (f.i - 1) - j) (by omega) (by omega) (by omega) (by omega)]
      simp [valueOf, cellAt, idxVal, Eu, srcIdx, sideBound, point, FL.offset]
      congr 5
      omega)
  have i2 : ∀ i j : Int, 0 ≤ i → i < e.i → -1 ≤ j → j ≤ f.i → σ2 (u, 0, [i, j]) = some (U i (reflect f.i j)) := by
    intro i j p q p' q'
    unfold reflect
    split
    · rw [t2, g1 i j (by simp only [InTag]; omega) (by simp only [InTag]; omega)]
      intro i' j' hi hj e
      simp only [InTag] at hi hj
      simp at e; omega
    · split
      · rw [g2 i j (by simp only [InTag]; omega) (by simp only [InTag]; omega)]
      · rw [t2, i1 i j (by omega) (by omega) (by omega) (by omega)]
        intro i' j' hi hj e
        simp only [InTag] at hi hj
        simp at e; omega
  have refl0 : ∀ j : Int, 0 ≤ j → j < f.i → reflect f.i j = j := by
    intro i p q
    unfold reflect
    rw [if_neg (by omega), if_neg (by omega)]
  -- the first direction
  obtain ⟨w3, σ3, r3, R3, g3, t3⟩ := loop_one2 (x := u) (y := u) (t := .N) (t' := .IN) (n := 0)
    (rhs := .un (- ·) (.elem u 0 [.src u .mirror 0 .N 0, .plus 1 0] [.C, .C])) R2 hu hu lu nu
    (by
      intro i j hi hj
      simp only [InTag] at hi hj
      refine ⟨⟨⟨ku, [e, f], vu, hu, ?_⟩, ?_⟩, by omega, by omega, by omega, by omega, ?_⟩
      · simp only [List.map_cons, List.map_nil, idxVal, Eu, srcIdx, sideBound, List.getD_cons_zero, List.getD_cons_succ]
        exact valid2 lu nu (by omega) (by omega) (by omega) (by omega)
      · intro q hq
        rcases List.mem_cons.1 hq with rfl | hq
        · refine ⟨e, by rw [Eu]; rfl, Nat.two_pos, ?_, a1, fun _ => f1⟩
          simp only [sideTag, InTag, List.getD_cons_zero, List.getD_cons_succ]; omega
        · rw [List.mem_singleton.1 hq]; exact Nat.one_lt_two
      · intro i' j' hi' hj' _
        simp only [InTag] at hi' hj'
        simp [readsOf, cellAt, idxVal, Eu, srcIdx, sideBound, point, FL.offset]
        omega)
    (fun i j => -(U (-i) j))
    (by
      intro i j hi hj
      simp only [InTag] at hi hj
      have := i2 (-i) j (by omega) (by omega) (by omega) (by omega)
      rw [refl0 j (by omega) (by omega)] at this
      simp [valueOf, cellAt, idxVal, Eu, srcIdx, sideBound, point, FL.offset]
      exact ⟨_, this, rfl⟩)
  have i3 : ∀ i j : Int, 0 ≤ i → i < e.i → -1 ≤ j → j ≤ f.i → σ3 (u, 0, [i, j]) = some (U i (reflect f.i j)) := by
    intro i j p q p' q'
    rw [t3, i2 i j p q p' q']
    intro i' j' hi hj e
    simp only [InTag] at hi hj
    simp at e; omega
  obtain ⟨w4, σ4, r4, R4, g4, t4⟩ := loop_one2 (x := u) (y := u) (t := .P) (t' := .IN) (n := 0)
    (rhs := .un (- ·) (.elem u 0 [.src u .mirror 0 .P 0, .plus 1 0] [.C, .C])) R3 hu hu lu nu
    (by
      intro i j hi hj
      simp only [InTag] at hi hj
      refine ⟨⟨⟨ku, [e, f], vu, hu, ?_⟩, ?_⟩, by omega, by omega, by omega, by omega, ?_⟩
      · simp only [List.map_cons, List.map_nil, idxVal, Eu, srcIdx, sideBound, List.getD_cons_zero, List.getD_cons_succ]
        exact valid2 lu nu (by omega) (by omega) (by omega) (by omega)
      · intro q hq
        rcases List.mem_cons.1 hq with rfl | hq
        · refine ⟨e, by rw [Eu]; rfl, Nat.two_pos, ?_, b1, fun _ => f1⟩
          simp only [sideTag, InTag, List.getD_cons_zero, List.getD_cons_succ]; omega
        · rw [List.mem_singleton.1 hq]; exact Nat.one_lt_two
      · intro i' j' hi' hj' _
        simp only [InTag] at hi' hj'
        simp [readsOf, cellAt, idxVal, Eu, srcIdx, sideBound, point, FL.offset]
        omega)
    (fun i j => -(U (2 * (e.i - 1) - i) j))
    (by
      intro i j hi hj
      simp only [InTag] at hi hj
      have := i3 (2 * (e.i - 1) - i) j (by omega) (by omega) (by omega) (by omega)
      rw [refl0 j (by omega) (by omega)] at this
      simp [valueOf, cellAt, idxVal, Eu, srcIdx, sideBound, point, FL.offset]
      refine ⟨_, ?_, rfl⟩
      rw [← this]
      congr 4
      omega)
  have i4 : ∀ i j : Int, 0 ≤ i → i < e.i → -1 ≤ j → j ≤ f.i → σ4 (u, 0, [i, j]) = some (U i (reflect f.i j)) := by
    intro i j p q p' q'
    rw [t4, i3 i j p q p' q']
    intro i' j' hi hj e
    simp only [InTag] at hi hj
    simp at e; omega
  refine ⟨w4, σ4, ?_, R4, i4, ?_, ?_⟩
  · unfold Heat2.pass
    simp only [List.take_succ_cons, List.take_zero]
    rw [runLoops_cons r1, runLoops_cons r2, runLoops_cons r3, runLoops_cons r4]
    rfl
  · intro i j p q p' q'
    unfold oddX reflect
    by_cases h1 : i < 0
    · rw [if_pos (.inl h1), if_pos h1, t4, g3 i j (by simp only [InTag]; omega) (by simp only [InTag]; omega)]
      intro i' j' hi hj e
      simp only [InTag] at hi hj
      simp at e; omega
    · by_cases h2 : (e.i : Int) ≤ i
      · rw [if_pos (.inr h2), if_neg h1, if_pos h2, g4 i j (by simp only [InTag]; omega) (by simp only [InTag]; omega)]
      · rw [if_neg (by omega), i4 i j (by omega) (by omega) (by omega) (by omega), refl0 j p' q']
  · intro c p
    rw [t4 c fun i j _ _ => p i j, t3 c fun i j _ _ => p i j, t2 c fun i j _ _ => p i j, t1 c fun i j _ _ => p i j]

/-- one pass computes one step of the scheme -/
theorem heat2_pass [Add V] [Sub V] [Mul V] [Neg V] [OfNat V 2] {σ : Vals V} (R : Reach mem chk w (withVals aw σ)) {u dudt : Nat}
    {ku kd : Kind} {e f e' f' : Ext} (H : Heat2Ready aw u dudt ku kd e f e' f') (ax ay dt : V) (U : Int → Int → V)
    (init : ∀ i j : Int, 0 ≤ i → i < e.i → 0 ≤ j → j < f.i → σ (u, 0, [i, j]) = some (U i j)) :
    ∃ w' σ', runLoops chk (Heat2.pass u dudt ax ay dt) w = .ok () w' ∧ Reach mem chk w' (withVals aw σ') ∧
      (∀ i j : Int, 0 ≤ i → i < e.i → 0 ≤ j → j < f.i → σ' (u, 0, [i, j]) = some (heatStep2 e.i f.i ax ay dt U i j)) ∧
      ∀ c, (∀ i j, c ≠ (u, 0, [i, j])) → (∀ i j, c ≠ (dudt, 0, [i, j])) → σ' c = σ c := by
  obtain ⟨w4, σ4, r4, R4, i4, o4, t4⟩ := heat2_fill R H ax ay dt U init
  obtain ⟨hne, ⟨vu, hu⟩, ⟨vd, hd⟩, lu, ld, nu, nd, n1, p1, n2, p2, a1, b1, a2, b2, s1, s2, f1, f2⟩ := H
  have in4 : ∀ i j : Int, 0 ≤ i → i < e.i → 0 ≤ j → j < f.i → σ4 (u, 0, [i, j]) = some (U i j) := by
    intro i j p q p' q'
    rw [o4 i j (by omega) (by omega) p' q']
    unfold oddX
    rw [if_neg (by omega)]
  -- the difference quotient in the first direction
  obtain ⟨w5, σ5, r5, R5, g5, t5⟩ := loop_one2 (x := dudt) (y := dudt) (t := .IN) (t' := .IN) (n := 0)
    (rhs := .bin (· * ·) (.num ax) (.bin (· + ·) (.bin (· - ·) (Heat2.elem u 0 (-1) 0) (.bin (· * ·) (.num 2) (Heat2.elem u 0 0 0)))
      (Heat2.elem u 0 1 0))) R4 hd hd ld nd
    (by
      intro i j hi hj
      simp only [InTag] at hi hj
      refine ⟨⟨trivial, ⟨exprOk_elem2 hu lu nu (by omega) (by omega) (by omega) (by omega), trivial,
        exprOk_elem2 hu lu nu (by omega) (by omega) (by omega) (by omega)⟩,
        exprOk_elem2 hu lu nu (by omega) (by omega) (by omega) (by omega)⟩, by omega, by omega, by omega, by omega, ?_⟩
      intro i' j' _ _ _
      simp only [readsOf, reads_elem2]
      simp [hne])
    (fun i j => ax * (oddX e.i U (i - 1) j - 2 * U i j + oddX e.i U (i + 1) j))
    (by
      intro i j hi hj
      simp only [InTag] at hi hj
      simp only [valueOf, value_elem2, Int.add_zero, in4 i j (by omega) (by omega) (by omega) (by omega),
        o4 (i + -1) j (by omega) (by omega) (by omega) (by omega), o4 (i + 1) j (by omega) (by omega) (by omega) (by omega)]
      rfl)
  have in5 : ∀ i j : Int, σ5 (u, 0, [i, j]) = σ4 (u, 0, [i, j]) := by
    intro i j
    rw [t5]
    intro i' j' _ _ e
    exact hne (Prod.mk.inj e).1.symm
  -- the second direction
  obtain ⟨w6, σ6, r6, R6, g6, t6⟩ := loop_one2 (x := dudt) (y := dudt) (t := .IN) (t' := .IN) (n := 0)
    (rhs := .bin (· + ·) (Heat2.elem dudt 0 0 0) (.bin (· * ·) (.num ay)
      (.bin (· + ·) (.bin (· - ·) (Heat2.elem u 0 0 (-1)) (.bin (· * ·) (.num 2) (Heat2.elem u 0 0 0))) (Heat2.elem u 0 0 1)))) R5 hd hd ld nd
    (by
      intro i j hi hj
      simp only [InTag] at hi hj
      refine ⟨⟨exprOk_elem2 hd ld nd (by omega) (by omega) (by omega) (by omega), trivial,
        ⟨exprOk_elem2 hu lu nu (by omega) (by omega) (by omega) (by omega), trivial,
        exprOk_elem2 hu lu nu (by omega) (by omega) (by omega) (by omega)⟩,
        exprOk_elem2 hu lu nu (by omega) (by omega) (by omega) (by omega)⟩, by omega, by omega, by omega, by omega, ?_⟩
      intro i' j' _ _ hn
      simp only [readsOf, reads_elem2]
      simp [hne]
      omega)
    (fun i j => ax * (oddX e.i U (i - 1) j - 2 * U i j + oddX e.i U (i + 1) j) +
      ay * (U i (reflect f.i (j - 1)) - 2 * U i j + U i (reflect f.i (j + 1))))
    (by
      intro i j hi hj
      simp only [InTag] at hi hj
      simp only [valueOf, value_elem2, Int.add_zero, in5, in4 i j (by omega) (by omega) (by omega) (by omega),
        i4 i (j + -1) (by omega) (by omega) (by omega) (by omega), i4 i (j + 1) (by omega) (by omega) (by omega) (by omega),
        g5 i j (by simp only [InTag]; omega) (by simp only [InTag]; omega)]
      rfl)
  have in6 : ∀ i j : Int, σ6 (u, 0, [i, j]) = σ4 (u, 0, [i, j]) := by
    intro i j
    rw [t6, in5]
    intro i' j' _ _ e
    exact hne (Prod.mk.inj e).1.symm
  -- the step
  obtain ⟨w7, σ7, r7, R7, g7, t7⟩ := loop_one2 (x := u) (y := u) (t := .IN) (t' := .IN) (n := 0)
    (rhs := .bin (· + ·) (Heat2.elem u 0 0 0) (.bin (· * ·) (.num dt) (Heat2.elem dudt 0 0 0))) R6 hu hu lu nu
    (by
      intro i j hi hj
      simp only [InTag] at hi hj
      refine ⟨⟨exprOk_elem2 hu lu nu (by omega) (by omega) (by omega) (by omega), trivial,
        exprOk_elem2 hd ld nd (by omega) (by omega) (by omega) (by omega)⟩, by omega, by omega, by omega, by omega, ?_⟩
      intro i' j' _ _ hn
      simp only [readsOf, reads_elem2]
      simp [hne.symm]
      omega)
    (heatStep2 e.i f.i ax ay dt U)
    (by
      intro i j hi hj
      simp only [InTag] at hi hj
      simp only [valueOf, value_elem2, Int.add_zero, in6, in4 i j (by omega) (by omega) (by omega) (by omega),
        g6 i j (by simp only [InTag]; omega) (by simp only [InTag]; omega)]
      rfl)
  refine ⟨w7, σ7, ?_, R7, fun i j p q p' q' => g7 i j (by simp only [InTag]; omega) (by simp only [InTag]; omega), ?_⟩
  · rw [← List.take_append_drop 4 (Heat2.pass u dudt ax ay dt), runLoops_append, M.bind_ok r4]
    unfold Heat2.pass
    simp only [List.drop_succ_cons, List.drop_zero]
    rw [runLoops_cons r5, runLoops_cons r6, runLoops_cons r7]
    rfl
  · intro c p q
    rw [t7 c fun i j _ _ => p i j, t6 c fun i j _ _ => q i j, t5 c fun i j _ _ => q i j, t4 c p]

/-- `m` passes compute `m` steps -/
theorem heat2_passes [Add V] [Sub V] [Mul V] [Neg V] [OfNat V 2] {σ : Vals V} (R : Reach mem chk w (withVals aw σ)) {u dudt : Nat}
    {ku kd : Kind} {e f e' f' : Ext} (H : Heat2Ready aw u dudt ku kd e f e' f') (ax ay dt : V) (m : Nat) (U : Int → Int → V)
    (init : ∀ i j : Int, 0 ≤ i → i < e.i → 0 ≤ j → j < f.i → σ (u, 0, [i, j]) = some (U i j)) :
    ∃ w' σ', runLoops chk (Heat2.passes u dudt ax ay dt m) w = .ok () w' ∧ Reach mem chk w' (withVals aw σ') ∧
      (∀ i j : Int, 0 ≤ i → i < e.i → 0 ≤ j → j < f.i → σ' (u, 0, [i, j]) = some (heatSteps2 e.i f.i ax ay dt m U i j)) ∧
      ∀ c, (∀ i j, c ≠ (u, 0, [i, j])) → (∀ i j, c ≠ (dudt, 0, [i, j])) → σ' c = σ c := by
  induction m generalizing w σ U with
  | zero => exact ⟨w, σ, rfl, R, init, fun _ _ _ => rfl⟩
  | succ m ih =>
    obtain ⟨w1, σ1, r1, R1, a1, b1⟩ := heat2_pass R H ax ay dt U init
    obtain ⟨w2, σ2, r2, R2, a2, b2⟩ := ih R1 (heatStep2 e.i f.i ax ay dt U) a1
    refine ⟨w2, σ2, ?_, R2, a2, fun c p q => by rw [b2 c p q, b1 c p q]⟩
    unfold Heat2.passes
    rw [runLoops_append, M.bind_ok r1, r2]

end Verif
