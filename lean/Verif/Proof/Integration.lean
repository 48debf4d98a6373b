import Verif.Proof.Heat1
import Verif.Proof.Reduction
import Verif.Model.Integration
/-!
# Example_D1_integration.cpp: proofs
-/
set_option linter.unusedSimpArgs false
namespace Verif
open Spec
variable {V : Type} {mem : Nat → Nat → Bool} {chk : Bool} {w : World V} {aw : AWorld V}

/-- what the loop leaves in the elements at `i` -/
theorem integration_fill [Mul V] {σ : Vals V} (R : Reach mem chk w (withVals aw σ)) {x f : Nat} (hne : x ≠ f)
    {kx kf : Kind} {e : Ext} {vx vf : Nat → List Int → Option V} (hx : aw.arr x = some (kx, .ready [e] vx))
    (hf : aw.arr f = some (kf, .ready [e] vf)) (lx : kx.locs = [.center]) (lf : kf.locs = [.center]) (nf : 1 < kf.N) (h : V)
    (toV : Int → V) (root : V → V) :
    ∃ w' σ', (Integration.fill x f h toV root).exec chk w = .ok () w' ∧ Reach mem chk w' (withVals aw σ') ∧
      ∀ i : Int, -(e.n : Int) ≤ i → i < e.i + e.p →
        σ' (x, 0, [i]) = some (toV i * h) ∧ σ' (f, 0, [i]) = some (toV i * h) ∧ σ' (f, 1, [i]) = some (root (toV i * h)) := by
  have nx : 0 < kx.N := Nat.pos_of_ne_zero (R.comps (withVals_arr hx))
  have tg : ∀ (y n : Nat) (rhs : Expr V) (i : Int), targetOf (extsOf aw) [i] (Heat1.set y n rhs) = (y, n, [i]) := by
    intro y n rhs i
    simp [targetOf, Heat1.set, cellAt, idxVal, point, FL.offset]
  have wr : ∀ i : Int, writesAt (extsOf aw) (Integration.fill x f h toV root).body [i] = [(x, 0, [i]), (f, 0, [i]), (f, 1, [i])] := by
    intro i
    simp only [writesAt, Integration.fill, List.map_cons, List.map_nil, tg]
  have us : ∀ i : Int, ∀ c ∈ usesAt (extsOf aw) (Integration.fill x f h toV root).body [i], c.2.2 = [i] := by
    intro i c hc
    simp only [usesAt, Integration.fill, List.flatMap_cons, List.flatMap_nil, tg] at hc
    simp only [Heat1.set, readsOf, reads_elem1, List.append_nil,
      List.cons_append, List.nil_append, List.mem_cons, List.not_mem_nil, or_false, Int.add_zero] at hc
    rcases hc with rfl | rfl | rfl | rfl | rfl <;> rfl
  obtain ⟨w', σ', h1, h2, h3, -⟩ := loop_run (l := Integration.fill x f h toV root) R hx rfl
    (by
      intro xs hxs
      obtain ⟨i, rfl, hi⟩ := inTags1 hxs
      simp only [InTag] at hi
      intro a ha
      simp only [Integration.fill, List.mem_cons, List.not_mem_nil, or_false] at ha
      rcases ha with rfl | rfl | rfl
      · exact ⟨⟨Nat.one_pos, trivial⟩, access1 hx lx nx (by omega) (by omega)⟩
      · exact ⟨exprOk_elem1 hx lx nx (by omega) (by omega), access1 hf lf (Nat.lt_trans Nat.one_pos nf) (by omega) (by omega)⟩
      · exact ⟨exprOk_elem1 hx lx nx (by omega) (by omega), access1 hf lf nf (by omega) (by omega)⟩)
    (by
      intro xs ys hxs hys ne c hc hu
      obtain ⟨i, rfl, hi⟩ := inTags1 hxs
      obtain ⟨j, rfl, hj⟩ := inTags1 hys
      have := us i c hu
      rw [wr] at hc
      simp only [List.mem_cons, List.not_mem_nil, or_false] at hc
      rcases hc with rfl | rfl | rfl <;> exact ne this.symm)
    (fun xs => setCell (setCell (setCell σ (x, 0, xs) (toV (xs.getD 0 0) * h)) (f, 0, xs) (toV (xs.getD 0 0) * h)) (f, 1, xs)
      (root (toV (xs.getD 0 0) * h)))
    (by
      intro xs hxs
      obtain ⟨i, rfl, hi⟩ := inTags1 hxs
      simp only [Integration.fill, bodyAt, tg]
      simp [Heat1.set, valueOf, value_elem1, setCell, hne])
  refine ⟨w', σ', h1, h2, fun i p q => ?_⟩
  have hi : InTags [e] (Integration.fill x f h toV root).ts [i] := ⟨by simp only [InTag]; omega, trivial⟩
  refine ⟨?_, ?_, ?_⟩
  · rw [h3 [i] hi _ (by rw [wr]; simp)]
    simp [setCell, hne]
  · rw [h3 [i] hi _ (by rw [wr]; simp)]
    simp [setCell]
  · rw [h3 [i] hi _ (by rw [wr]; simp)]
    simp [setCell]

/-- the sum the reduction computes of `N` numbers, in this order of additions -/
def sumUp [Add V] [OfNat V 0] (N : Nat) (F : Int → V) : V := 0 + (List.range N).foldl (fun t (i : Nat) => t + F i) 0

theorem ints_zero_range (N : Nat) : ints 0 N = (List.range N).map fun (i : Nat) => (i : Int) := by
  have : ∀ (N : Nat) (b : Nat), ints b N = (List.range' b N).map fun (i : Nat) => (i : Int) := by
    intro N
    induction N with
    | zero => intro b; rfl
    | succ N ih =>
      intro b
      simp only [ints, List.range'_succ, List.map_cons]
      exact congrArg _ (ih (b + 1))
  rw [List.range_eq_range']
  exact this N 0

/-- the body of `PD_For_N` -/
theorem integration_component [Add V] [OfNat V 0] {σ : Vals V} (R : Reach mem chk w (withVals aw σ)) {f : Nat} {kf : Kind} {N : Nat}
    {vf : Nat → List Int → Option V} (hf : aw.arr f = some (kf, .ready [⟨0, N, 0⟩] vf)) (lf : kf.locs = [.center]) (div : V → V)
    {n : Nat} (hn : n < kf.N) (F : Int → V) (init : ∀ i : Int, 0 ≤ i → i < N → σ (f, n, [i]) = some (F i)) (v : Integration.Vars V)
    (hl : n < v.sum.length) (h0 : v.sum.getD n 0 = 0) :
    Integration.component chk f div n (w, v) =
      .ok () (w, ⟨v.sum.set n (div (sumUp N F)), v.out ++ [div (sumUp N F)]⟩) := by
  have r := reduceExpr_ok (S := Integration.Vars V) (chk := chk) R (ts := [.ALL]) hf rfl (Integration.sumRef 0 n) PD_RF_SUM
    (e := Heat1.elem f n 0)
    (by
      intro xs h
      obtain ⟨i, rfl, hi⟩ := inTags1 h
      simp only [InTag] at hi
      exact exprOk_elem1 hf lf hn (by simp only; omega) (by simp only; omega))
    (fun xs => F (xs.getD 0 0))
    (by
      intro xs h
      obtain ⟨i, rfl, hi⟩ := inTags1 h
      simp only [InTag] at hi
      rw [value_elem1, Int.add_zero, init i (by omega) (by omega)]
      rfl) v
  have z : zonePts [⟨0, N, 0⟩] [.ALL] = (List.range N).map fun (i : Nat) => [(i : Int)] := by
    simp only [zonePts, tagBegin, tagEnd, List.map_cons, List.map_nil]
    have : ((N : Int) + (0 : Nat) - -((0 : Nat) : Int)).toNat = N := by omega
    rw [this, show (-((0 : Nat) : Int)) = 0 from rfl, ints_zero_range, List.flatMap_map]
    induction List.range N with
    | nil => rfl
    | cons a l ih => rw [List.flatMap_cons, ih]; rfl
  have g : (Integration.sumRef 0 n).get v = 0 := h0
  rw [z, List.foldl_map, g] at r
  unfold Integration.component
  have i1 : Integration.inSum n (w, v) = .ok () (w, v) := by
    unfold Integration.inSum
    rw [if_pos hl]
  rw [M.bind_ok i1, M.bind_ok r]
  show Res.ok _ _ = _
  simp [Integration.sumRef, hl, sumUp, PD_RF_SUM]

/-- the lambda -/
theorem integration_lambda [Add V] [OfNat V 0] {σ : Vals V} (R : Reach mem chk w (withVals aw σ)) {f : Nat} {kf : Kind} {N : Nat}
    {vf : Nat → List Int → Option V} (hf : aw.arr f = some (kf, .ready [⟨0, N, 0⟩] vf)) (lf : kf.locs = [.center]) (nf : 1 < kf.N) (div : V → V)
    (F G : Int → V) (i0 : ∀ i : Int, 0 ≤ i → i < N → σ (f, 0, [i]) = some (F i))
    (i1 : ∀ i : Int, 0 ≤ i → i < N → σ (f, 1, [i]) = some (G i)) (v : Integration.Vars V) :
    Integration.lambda chk f 2 div (w, v) =
      .ok () (w, ⟨[div (sumUp N F), div (sumUp N G)], v.out ++ [div (sumUp N F), div (sumUp N G)]⟩) := by
  unfold Integration.lambda PD_For_N
  rw [forU_eq 0 2 (by decide) (by decide)]
  have h0 : (M.modify fun s => (s.1, { s.2 with sum := [0, 0] }) : M (World V × Integration.Vars V) Unit) (w, v) = .ok () (w, ⟨[0, 0], v.out⟩) := rfl
  rw [M.bind_ok h0]
  simp only [nats, runAll_cons, runAll_nil]
  rw [M.bind_ok (integration_component (chk := chk) R hf lf div (n := 0) (by omega) F i0 _ (by simp) rfl),
    M.bind_ok (integration_component (chk := chk) R hf lf div (n := 1) nf G i1 _ (by simp) rfl)]
  simp

end Verif
