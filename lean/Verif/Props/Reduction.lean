import Verif.Proof.Reduction
import Verif.Props.Client
/-!
# C75: reductions in user programs
-/
namespace Verif.Props
open Spec
open scoped BigOperators
variable {V : Type} {mem : Nat → Nat → Bool} {chk : Bool} {w : World V} {aw : AWorld V} {S : Type}

/-- C75: a reduction `PD_Reduce_?D(x.size().range(ts...), ans, reduce, e)` of an expression of elements, in any reachable
state in which every element the expression names exists and holds a number.  The arrays stay as they are; the variable is set
to what the reducer makes of the numbers taken in the lexicographic order of their points, starting from the variable, and then of
the result and the variable once more. -/
theorem C75 (R : Reach mem chk w aw) {x : Nat} {ts : List RA} {k : Kind} {es : List Ext} {val : Nat → List Int → Option V}
    (hx : aw.arr x = some (k, .ready es val)) (hl : ts.length = es.length) {e : Expr V}
    (ok : ∀ xs, InTags es ts xs → ExprOk aw (extsOf aw) xs e) (value : List Int → V)
    (hv : ∀ xs, InTags es ts xs → valueOf (extsOf aw) xs (valsOf aw) e = some (value xs)) :
    ∃ l, Enumerates l (InTags es ts) (List.Lex intLt) ∧ ∀ (ans : Ref S V) (red : V → V → V) (s : S),
      reduceExpr chk x ts ans red e (w, s) =
        .ok () (w, ans.set (red (l.foldl (fun t xs => red (value xs) t) (ans.get s)) (ans.get s)) s) := by
  have R0 : Reach mem chk w (withVals aw (valsOf aw)) := by rw [withVals_valsOf]; exact R
  exact ⟨_, enum_zonePts hl, fun ans red s => reduceExpr_ok R0 hx hl ans red ok value hv s⟩

/-- C75 (only if): if one of the numbers was never assigned, the reduction is undefined -/
theorem C75_uninit (R : Reach mem chk w aw) {x : Nat} {ts : List RA} {k : Kind} {es : List Ext} {val : Nat → List Int → Option V}
    (hx : aw.arr x = some (k, .ready es val)) (hl : ts.length = es.length) {e : Expr V}
    (ok : ∀ xs, InTags es ts xs → ExprOk aw (extsOf aw) xs e) {zs : List Int} (hz : InTags es ts zs)
    (hv : valueOf (extsOf aw) zs (valsOf aw) e = none) (ans : Ref S V) (red : V → V → V) (s : S) :
    reduceExpr chk x ts ans red e (w, s) = .ub .uninit := by
  have R0 : Reach mem chk w (withVals aw (valsOf aw)) := by rw [withVals_valsOf]; exact R
  exact reduceExpr_uninit R0 hx hl ans red ok hz hv s

theorem irr_list : ∀ p : List Int, ¬ List.Lex intLt p p := by
  intro p
  induction p with
  | nil => intro h; cases h
  | cons a p ih =>
    intro h
    cases h with
    | cons h => exact ih h
    | rel h => exact irr_int a h

/-- C75 with `PD_RF_SUM` over exact numbers: a variable that is 0 becomes the sum of the numbers at the points of the range;
any other is counted twice -/
theorem C75_sum [AddCommMonoid V] (R : Reach mem chk w aw) {x : Nat} {ts : List RA} {k : Kind} {es : List Ext}
    {val : Nat → List Int → Option V} (hx : aw.arr x = some (k, .ready es val)) (hl : ts.length = es.length) {e : Expr V}
    (ok : ∀ xs, InTags es ts xs → ExprOk aw (extsOf aw) xs e) (value : List Int → V)
    (hv : ∀ xs, InTags es ts xs → valueOf (extsOf aw) xs (valsOf aw) e = some (value xs)) (P : Finset (List Int))
    (hP : ∀ xs, xs ∈ P ↔ InTags es ts xs) (ans : Ref S V) (s : S) :
    reduceExpr chk x ts ans PD_RF_SUM e (w, s) = .ok () (w, ans.set (ans.get s + (ans.get s + ∑ xs ∈ P, value xs)) s) ∧
    (ans.get s = 0 → reduceExpr chk x ts ans PD_RF_SUM e (w, s) = .ok () (w, ans.set (∑ xs ∈ P, value xs) s)) := by
  obtain ⟨l, el, h⟩ := C75 (S := S) R hx hl ok value hv
  have : ∀ t : V, l.foldl (fun t xs => PD_RF_SUM (value xs) t) t = t + ∑ xs ∈ P, value xs := by
    intro t
    rw [← enum_sum el irr_list P hP value]
    exact foldl_add l value t
  have h := h ans PD_RF_SUM s
  rw [this] at h
  refine ⟨h, fun h0 => ?_⟩
  rw [h, h0]
  simp only [PD_RF_SUM, zero_add]

/-- C75 with `PD_RF_MAX` and `PD_RF_MIN`: the variable becomes the greatest (least) of its old value and the numbers at the points of
the range -/
theorem C75_max [LinearOrder V] (R : Reach mem chk w aw) {x : Nat} {ts : List RA} {k : Kind} {es : List Ext}
    {val : Nat → List Int → Option V} (hx : aw.arr x = some (k, .ready es val)) (hl : ts.length = es.length) {e : Expr V}
    (ok : ∀ xs, InTags es ts xs → ExprOk aw (extsOf aw) xs e) (value : List Int → V)
    (hv : ∀ xs, InTags es ts xs → valueOf (extsOf aw) xs (valsOf aw) e = some (value xs)) (ans : Ref S V) (s : S) :
    (∃ v, IsGreatest {v | v = ans.get s ∨ ∃ xs, InTags es ts xs ∧ v = value xs} v ∧
      reduceExpr chk x ts ans PD_RF_MAX e (w, s) = .ok () (w, ans.set v s)) ∧
    (∃ v, IsLeast {v | v = ans.get s ∨ ∃ xs, InTags es ts xs ∧ v = value xs} v ∧
      reduceExpr chk x ts ans PD_RF_MIN e (w, s) = .ok () (w, ans.set v s)) := by
  obtain ⟨l, el, h⟩ := C75 (S := S) R hx hl ok value hv
  have e1 : ∀ a b : V, PD_RF_MAX a b = max b a := by
    intro a b; unfold PD_RF_MAX
    split
    · rename_i h; exact (max_eq_right h.le).symm
    · rename_i h; exact (max_eq_left (not_lt.1 h)).symm
  have e2 : ∀ a b : V, PD_RF_MIN a b = min b a := by
    intro a b; unfold PD_RF_MIN
    split
    · rename_i h; exact (min_eq_right h.le).symm
    · rename_i h; exact (min_eq_left (not_lt.1 h)).symm
  refine ⟨?_, ?_⟩
  · have g := foldl_max l value (ans.get s)
    refine ⟨_, ?_, h ans PD_RF_MAX s⟩
    simp only [e1]
    have : ans.get s ≤ l.foldl (fun t xs => max t (value xs)) (ans.get s) := g.2 (.inl rfl)
    rw [max_eq_right this]
    simpa only [el.1] using g
  · have g := foldl_min l value (ans.get s)
    refine ⟨_, ?_, h ans PD_RF_MIN s⟩
    simp only [e2]
    have : l.foldl (fun t xs => min t (value xs)) (ans.get s) ≤ ans.get s := g.2 (.inl rfl)
    rw [min_eq_right this]
    simpa only [el.1] using g

/-- the variable in the examples -/
def theVar : Ref Int Int := ⟨id, fun v _ => v⟩

/-- what a reduction over array 0 of `clientOps`, which holds 5, 6, 7, 8, 9, makes of a variable -/
def clientReduce (ts : List RA) (red : Int → Int → Int) (e : Expr Int) (a : Int) : Option Int :=
  match run true clientOps (World.init fun _ _ => true) with
  | some (_, w) =>
    match reduceExpr true 0 ts theVar red e (w, a) with
    | .ok _ s => some s.2
    | _ => none
  | none => none

/-- the hypotheses of C75 hold of the sum of `a(0, i)` over the five points; sums over all and over the interior points, the
largest, a reducer in which the order matters, and a variable that was not 0 -/
example : (∃ (w : World Int) (aw : AWorld Int) (val : Nat → List Int → Option Int) (value : List Int → Int),
      Reach (fun _ _ => true) true w aw ∧ aw.arr 0 = some (⟨1, [.center]⟩, .ready [⟨1, 3, 1⟩] val) ∧
      (∀ xs, InTags [⟨1, 3, 1⟩] [.ALL] xs → ExprOk aw (extsOf aw) xs (.elem 0 0 [.plus 0 0] [.C])) ∧
      ∀ xs, InTags [⟨1, 3, 1⟩] [.ALL] xs → valueOf (extsOf aw) xs (valsOf aw) (.elem 0 0 [.plus 0 0] [.C]) = some (value xs)) ∧
    clientReduce [.ALL] PD_RF_SUM (.elem 0 0 [.plus 0 0] [.C]) 0 = some 35 ∧
    clientReduce [.IN] PD_RF_SUM (.elem 0 0 [.plus 0 0] [.C]) 0 = some 21 ∧
    clientReduce [.IN] PD_RF_MAX (.elem 0 0 [.plus 0 1] [.C]) 2 = some 9 ∧
    clientReduce [.IN] (fun x xx => 10 * xx + x) (.elem 0 0 [.plus 0 0] [.C]) 0 = some 678 ∧
    clientReduce [.ALL] PD_RF_SUM (.elem 0 0 [.plus 0 0] [.C]) 100 = some 235 := by
  refine ⟨?_, by decide +kernel, by decide +kernel, by decide +kernel, by decide +kernel, by decide +kernel⟩
  obtain ⟨evs, aw, val', h, h1, hv⟩ : ∃ evs aw val', arun (fun _ _ => true) true clientOps AWorld.init = some (evs, aw) ∧
      aw.arr 0 = some (⟨1, [.center]⟩, .ready [⟨1, 3, 1⟩] val') ∧
      ∀ i ∈ [(-1 : Int), 0, 1, 2, 3], val' 0 [i] = some (i + 6) := ⟨_, _, _, rfl, rfl, by decide⟩
  obtain ⟨w, R⟩ := reach_of_arun h
  refine ⟨w, aw, val', fun xs => xs.getD 0 0 + 6, R, h1, ?_, ?_⟩
  · intro xs hxs
    match xs, hxs with
    | [i], hxs =>
      have hxs := hxs.1
      simp only [InTag] at hxs
      refine ⟨⟨_, _, _, h1, ⟨rfl, by decide, ⟨rfl, trivial⟩, ?_, trivial⟩⟩, ?_⟩
      all_goals simp [Dim.Has, idxVal, FL.offset, IdxOk, Loc.toNat]
      all_goals omega
  · intro xs hxs
    match xs, hxs with
    | [i], hxs =>
      have hxs := hxs.1
      simp only [InTag] at hxs
      have := hv i (by simp at hxs ⊢; omega)
      simp [valueOf, cellAt, idxVal, point, FL.offset, valsOf, h1, this]

/-- an element never assigned -/
example : clientReduce [.IN] PD_RF_SUM (.elem 1 0 [.plus 0 0] [.C]) 0 = none := by decide +kernel

end Verif.Props
