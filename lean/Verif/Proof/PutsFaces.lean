import Verif.Model.PutsFaces
import Verif.Props.Puts
/-!
# Helper lemmas: two loops of assignments
-/
namespace Verif
open Spec
variable {V : Type} {mem : Nat → Nat → Bool} {chk : Bool} {w : World V} {aw : AWorld V}

/-- two loops of assignments after each other: the second one decides where it reaches -/
theorem two_loops (R : Reach mem chk w aw) {x N : Nat} {locs : List Loc} {es : List Ext} {val : Nat → List Int → Option V}
    (hx : aw.arr x = some (⟨N, locs⟩, .ready es val)) {l l' : List (Put V)} (hl : ∀ p ∈ l, p.far.length = locs.length ∧ FlagsFit locs p.fs)
    (hl' : ∀ p ∈ l', p.far.length = locs.length ∧ FlagsFit locs p.fs) (s : PutVars) :
    ∃ w' s' val', (Stmt.seq (putLoop x N locs.length l) (putLoop x N locs.length l')).exec chk (w, s) = .ok () (w', s') ∧
      Reach mem chk w' (aw.set x (some (⟨N, locs⟩, .ready es val'))) ∧
      (∀ n < N, ∀ ys, (∀ p ∈ l', ¬ p.Hits es ys) → ∀ l1 p l2, l = l1 ++ p :: l2 → Wins es l1 p l2 ys → val' n ys = some (p.val n (p.lastAt es ys))) ∧
      (∀ n < N, ∀ ys l1 p l2, l' = l1 ++ p :: l2 → Wins es l1 p l2 ys → val' n ys = some (p.val n (p.lastAt es ys))) := by
  obtain ⟨w1, s1, v1, g1, R1, -, g2, -⟩ := Props.C104 R hx hl s
  obtain ⟨w2, s2, v2, k1, R2, k2, k3, -⟩ := Props.C104 R1 (x := x) (k := ⟨N, locs⟩) (es := es) (val := v1)
    (by simp only [AWorld.set, if_true]) hl' s1
  refine ⟨w2, s2, v2, ?_, ?_, ?_, k3⟩
  · show (Stmt.exec chk _ >>= fun _ => Stmt.exec chk _) (w, s) = _
    exact (M.bind_ok g1).trans k1
  · have : (aw.set x (some (⟨N, locs⟩, .ready es v1))).set x (some (⟨N, locs⟩, .ready es v2)) = aw.set x (some (⟨N, locs⟩, .ready es v2)) := by
      simp only [AWorld.set]; congr 1; funext y; by_cases hy : y = x <;> simp [hy]
    rw [this] at R2; exact R2
  · intro n hn ys h l1 p l2 e hw
    rw [k2 n ys fun _ => h, g2 n hn ys l1 p l2 e hw]

/-- decides which assignment wins -/
macro "settle_x" : tactic => `(tactic| (
  simp only [Wins, d3hX1, d3hX2, d3hX3, d3hX4, d3hX5, d3hX6, List.take_succ_cons, List.take_zero, List.drop_succ_cons, List.drop_zero, List.drop_nil,
    List.getElem_cons_succ, List.getElem_cons_zero,
    List.forall_mem_cons, List.not_mem_nil, false_imp_iff, implies_true, and_true, Put.Hits, hits, hits1, Put.lastAt, lastIter, lex3, FL.offset,
    List.cons.injEq, if_true, true_and, Bool.false_eq_true, if_false]
  (try and_intros) <;> omega))

/-- no assignment of the second loop reaches the point -/
macro "untouched" k2:ident hn:ident q:term : tactic => `(tactic| (
  rw [$k2 _ $hn _ (by
      simp only [d3hX1, d3hX2, d3hX3, d3hX4, d3hX5, d3hX6, List.forall_mem_cons, List.not_mem_nil, false_imp_iff, implies_true, and_true, Put.Hits, hits, hits1,
        FL.offset, if_true, true_and, Bool.false_eq_true, if_false]
      (try and_intros) <;> omega) [] _ [] rfl ⟨by simp only [Put.Hits, hits, hits1, FL.offset, if_true, true_and, and_true, Bool.false_eq_true, if_false]; omega, by simp, by simp⟩]
  simp [Put.lastAt, lastIter, FL.offset, $q:term]))

macro "untouched2" k2:ident hn:ident q:term:max q2:term:max : tactic => `(tactic| (
  rw [$k2 _ $hn _ (by
      simp only [d3hX1, d3hX2, d3hX3, d3hX4, d3hX5, d3hX6, List.forall_mem_cons, List.not_mem_nil, false_imp_iff, implies_true, and_true, Put.Hits, hits, hits1,
        FL.offset, if_true, true_and, Bool.false_eq_true, if_false]
      (try and_intros) <;> omega) [] _ [] rfl ⟨by simp only [Put.Hits, hits, hits1, FL.offset, if_true, true_and, and_true, Bool.false_eq_true, if_false]; omega, by simp, by simp⟩]
  simp [Put.lastAt, lastIter, FL.offset, $q:term, $q2:term]))

end Verif
