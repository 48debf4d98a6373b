import Verif.Proof.Heat2
/-!
# Example_D2_heat.cpp: all loops
-/
set_option linter.unusedSimpArgs false
namespace Verif
open Spec
variable {V : Type} {mem : Nat → Nat → Bool} {chk : Bool} {w : World V} {aw : AWorld V}

/-- the loop that sets the coordinates -/
theorem heat2_coords [Add V] [Mul V] {σ : Vals V} (R : Reach mem chk w (withVals aw σ)) {x : Nat} {k : Kind} {e f : Ext}
    {val : Nat → List Int → Option V} (hx : aw.arr x = some (k, .ready [e, f] val)) (hl : k.locs = [.center, .center]) (hn : 1 < k.N)
    (x0 hx' y0 hy' : V) (toV : Int → V) :
    ∃ w' σ', (Loop.mk x [.IN, .IN] [Heat2.set x 0 (.bin (· + ·) (.num x0) (.bin (· * ·) (.conv 0 toV) (.num hx'))),
        Heat2.set x 1 (.bin (· + ·) (.num y0) (.bin (· * ·) (.conv 1 toV) (.num hy')))]).exec chk w = .ok () w' ∧
      Reach mem chk w' (withVals aw σ') ∧
      (∀ i j : Int, 0 ≤ i → i < e.i → 0 ≤ j → j < f.i → σ' (x, 0, [i, j]) = some (x0 + toV i * hx') ∧ σ' (x, 1, [i, j]) = some (y0 + toV j * hy')) ∧
      ∀ c, c.1 ≠ x → σ' c = σ c := by
  obtain ⟨w', σ', h1, h2, h3, h4⟩ := loop_run (l := ⟨x, [.IN, .IN], [Heat2.set x 0 (.bin (· + ·) (.num x0) (.bin (· * ·) (.conv 0 toV) (.num hx'))),
        Heat2.set x 1 (.bin (· + ·) (.num y0) (.bin (· * ·) (.conv 1 toV) (.num hy')))]⟩) R hx rfl
    (by
      intro xs h a ha
      obtain ⟨i, j, rfl, hi, hj⟩ := inTags2 h
      simp only [InTag] at hi hj
      simp only [List.mem_cons, List.not_mem_nil, or_false] at ha
      rcases ha with rfl | rfl
      · exact ⟨⟨trivial, Nat.two_pos, trivial⟩, access2 hx hl (n := 0) (by omega) (by omega) (by omega) (by omega) (by omega)⟩
      · exact ⟨⟨trivial, Nat.one_lt_two, trivial⟩, access2 hx hl hn (by omega) (by omega) (by omega) (by omega)⟩)
    (by
      intro xs ys h h' ne c hc hu
      obtain ⟨i, j, rfl, hi, hj⟩ := inTags2 h
      obtain ⟨i', j', rfl, hi', hj'⟩ := inTags2 h'
      simp only [writesAt, usesAt, List.map_cons, List.map_nil, target2, List.flatMap_cons, List.flatMap_nil, List.mem_cons, List.not_mem_nil,
        or_false, List.mem_append, Heat2.set, readsOf, List.append_nil] at hc hu
      simp only [targetOf, cellAt, List.map_cons, List.map_nil, idxVal, point, FL.offset, List.getD_cons_zero, List.getD_cons_succ, Int.add_zero] at hc hu
      apply ne
      rcases hc with rfl | rfl <;> simp only [Prod.mk.injEq, List.cons.injEq, List.nil_append, List.append_nil] at hu <;> simp at hu <;> simp [hu])
    (fun xs => setCell (setCell σ (x, 0, [xs.getD 0 0, xs.getD 1 0]) (x0 + toV (xs.getD 0 0) * hx')) (x, 1, [xs.getD 0 0, xs.getD 1 0])
      (y0 + toV (xs.getD 1 0) * hy'))
    (by
      intro xs h
      obtain ⟨i, j, rfl, hi, hj⟩ := inTags2 h
      simp only [bodyAt, Heat2.set, valueOf]
      simp [targetOf, cellAt, idxVal, point, FL.offset])
  refine ⟨w', σ', h1, h2, ?_, ?_⟩
  · intro i j p q p' q'
    have hin : InTags [e, f] [.IN, .IN] [i, j] := ⟨by simp only [InTag]; omega, by simp only [InTag]; omega, trivial⟩
    have hw : writesAt (extsOf aw) [Heat2.set x 0 (.bin (· + ·) (.num x0) (.bin (· * ·) (.conv 0 toV) (.num hx'))),
        Heat2.set x 1 (.bin (· + ·) (.num y0) (.bin (· * ·) (.conv 1 toV) (.num hy')))] [i, j] = [(x, 0, [i, j]), (x, 1, [i, j])] := by
      simp only [writesAt, List.map_cons, List.map_nil, target2]
    constructor
    · rw [h3 _ hin (x, 0, [i, j]) (by rw [hw]; simp)]
      simp [setCell]
    · rw [h3 _ hin (x, 1, [i, j]) (by rw [hw]; simp)]
      simp [setCell]
  · intro c hc
    apply h4
    intro xs h hm
    obtain ⟨i, j, rfl, hi, hj⟩ := inTags2 h
    simp only [writesAt, List.map_cons, List.map_nil, target2, List.mem_cons, List.not_mem_nil, or_false] at hm
    rcases hm with rfl | rfl <;> exact hc rfl

/-- all loops -/
theorem heat2_loops [Add V] [Sub V] [Mul V] [Neg V] [OfNat V 2] {σ : Vals V} (R : Reach mem chk w (withVals aw σ)) {x u dudt : Nat}
    {kx ku kd : Kind} {ex fx e f e' f' : Ext} (H : Heat2Ready aw u dudt ku kd e f e' f') (hxu : x ≠ u) (hxd : x ≠ dudt)
    {vx : Nat → List Int → Option V} (hx : aw.arr x = some (kx, .ready [ex, fx] vx)) (lx : kx.locs = [.center, .center]) (nx : 1 < kx.N)
    (nu : 1 < ku.N) (s1 : ex.i = e.i) (s2 : fx.i = f.i) (x0 hx' y0 hy' : V) (toV : Int → V) (g exac : V → V → V) (ax ay dt : V) (m : Nat) :
    ∃ w' σ', runLoops chk (Heat2.loops x u dudt x0 hx' y0 hy' toV g exac ax ay dt m) w = .ok () w' ∧ Reach mem chk w' (withVals aw σ') ∧
      ∀ i j : Int, 0 ≤ i → i < e.i → 0 ≤ j → j < f.i →
        σ' (x, 0, [i, j]) = some (x0 + toV i * hx') ∧ σ' (x, 1, [i, j]) = some (y0 + toV j * hy') ∧
        σ' (u, 0, [i, j]) = some (heatSteps2 e.i f.i ax ay dt m (fun i j => g (x0 + toV i * hx') (y0 + toV j * hy')) i j) ∧
        σ' (u, 1, [i, j]) = some (exac (x0 + toV i * hx') (y0 + toV j * hy')) := by
  obtain ⟨vu, hu⟩ := H.hu
  have lu := H.lu
  obtain ⟨w1, σ1, r1, R1, a1, b1⟩ := heat2_coords R hx lx nx x0 hx' y0 hy' toV
  rw [s1, s2] at a1
  obtain ⟨w2, σ2, r2, R2, a2, b2⟩ := loop_one2 (x := u) (y := u) (t := .IN) (t' := .IN) (n := 0)
    (rhs := .bin g (Heat2.elem x 0 0 0) (Heat2.elem x 1 0 0)) R1 hu hu lu (by omega)
    (by
      intro i j hi hj
      simp only [InTag] at hi hj
      refine ⟨⟨exprOk_elem2 hx lx (by omega) (by omega) (by omega) (by omega) (by omega), exprOk_elem2 hx lx nx (by omega) (by omega) (by omega) (by omega)⟩,
        by omega, by omega, by omega, by omega, ?_⟩
      intro i' j' hi' hj' ne
      simp only [readsOf, reads_elem2]
      simp [hxu.symm])
    (fun i j => g (x0 + toV i * hx') (y0 + toV j * hy'))
    (by
      intro i j hi hj
      simp only [InTag] at hi hj
      obtain ⟨q1, q2⟩ := a1 i j (by omega) (by omega) (by omega) (by omega)
      simp only [valueOf, value_elem2, Int.add_zero, q1, q2])
  obtain ⟨w3, σ3, r3, R3, a3, b3⟩ := heat2_passes R2 H ax ay dt m (fun i j => g (x0 + toV i * hx') (y0 + toV j * hy'))
    (fun i j p q p' q' => a2 i j (by simp only [InTag]; omega) (by simp only [InTag]; omega))
  have i3 : ∀ (n : Nat) (i j : Int), σ3 (x, n, [i, j]) = σ1 (x, n, [i, j]) := by
    intro n i j
    rw [b3, b2]
    · intro i' j' _ _ e; exact hxu (Prod.mk.inj e).1
    · intro i' j' e; exact hxu (Prod.mk.inj e).1
    · intro i' j' e; exact hxd (Prod.mk.inj e).1
  obtain ⟨w4, σ4, r4, R4, a4, b4⟩ := loop_one2 (x := u) (y := u) (t := .IN) (t' := .IN) (n := 1)
    (rhs := .bin exac (Heat2.elem x 0 0 0) (Heat2.elem x 1 0 0)) R3 hu hu lu nu
    (by
      intro i j hi hj
      simp only [InTag] at hi hj
      refine ⟨⟨exprOk_elem2 hx lx (by omega) (by omega) (by omega) (by omega) (by omega), exprOk_elem2 hx lx nx (by omega) (by omega) (by omega) (by omega)⟩,
        by omega, by omega, by omega, by omega, ?_⟩
      intro i' j' hi' hj' ne
      simp only [readsOf, reads_elem2]
      simp [hxu.symm])
    (fun i j => exac (x0 + toV i * hx') (y0 + toV j * hy'))
    (by
      intro i j hi hj
      simp only [InTag] at hi hj
      obtain ⟨q1, q2⟩ := a1 i j (by omega) (by omega) (by omega) (by omega)
      simp only [valueOf, value_elem2, Int.add_zero, i3, q1, q2])
  refine ⟨w4, σ4, ?_, R4, ?_⟩
  · unfold Heat2.loops
    rw [runLoops_append, runLoops_append]
    have e1 : runLoops chk [⟨x, [.IN, .IN], [Heat2.set x 0 (.bin (· + ·) (.num x0) (.bin (· * ·) (.conv 0 toV) (.num hx'))),
        Heat2.set x 1 (.bin (· + ·) (.num y0) (.bin (· * ·) (.conv 1 toV) (.num hy')))]⟩,
        ⟨u, [.IN, .IN], [Heat2.set u 0 (.bin g (Heat2.elem x 0 0 0) (Heat2.elem x 1 0 0))]⟩] w = .ok () w2 := by
      rw [runLoops_cons r1, runLoops_cons r2]; rfl
    simp only [bind_assoc]
    rw [M.bind_ok e1, M.bind_ok r3, runLoops_cons r4]
    rfl
  · intro i j p q p' q'
    obtain ⟨q1, q2⟩ := a1 i j p q p' q'
    have ex4 : ∀ n, σ4 (x, n, [i, j]) = σ3 (x, n, [i, j]) := fun n => b4 _ (fun i' j' _ _ e => hxu (Prod.mk.inj e).1)
    refine ⟨by rw [ex4, i3, q1], by rw [ex4, i3, q2], ?_, a4 i j (by simp only [InTag]; omega) (by simp only [InTag]; omega)⟩
    rw [b4, a3 i j p q p' q']
    intro i' j' _ _ e
    simp at e

end Verif
