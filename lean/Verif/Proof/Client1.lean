import Verif.Spec.Client
import Verif.Proof.Fill
/-!
# Loops of user programs: proofs
-/
set_option linter.unusedSimpArgs false
namespace Verif
open Spec
variable {V : Type} {mem : Nat → Nat → Bool} {chk : Bool} {w : World V} {aw : AWorld V}

/-! ## Reachable states go on -/

theorem arun_concat {ops ops' : List (Op V)} {a a' a'' : AWorld V} {es es' : List (Ev V)}
    (h : arun mem chk ops a = some (es, a')) (h' : arun mem chk ops' a' = some (es', a'')) :
    arun mem chk (ops ++ ops') a = some (es ++ es', a'') := by
  induction ops generalizing a es with
  | nil => cases h; exact h'
  | cons op ops ih =>
    simp only [arun, List.cons_append] at h ⊢
    split at h
    · cases h
    · rename_i e b hb
      obtain ⟨⟨es1, b1⟩, h1, h2⟩ := Option.map_eq_some_iff.1 h
      cases h2
      rw [ih h1]; rfl

theorem run_concat {ops ops' : List (Op V)} {a a' a'' : World V} {es es' : List (Ev V)}
    (h : run chk ops a = some (es, a')) (h' : run chk ops' a' = some (es', a'')) :
    run chk (ops ++ ops') a = some (es ++ es', a'') := by
  induction ops generalizing a es with
  | nil => cases h; exact h'
  | cons op ops ih =>
    simp only [run, List.cons_append] at h ⊢
    split at h
    · rename_i r b hb
      obtain ⟨⟨es1, b1⟩, h1, h2⟩ := Option.map_eq_some_iff.1 h
      cases h2
      rw [ih h1]; rfl
    · rename_i r b hb
      obtain ⟨⟨es1, b1⟩, h1, h2⟩ := Option.map_eq_some_iff.1 h
      cases h2
      rw [ih h1]; rfl
    · cases h

/-- one more call that returns -/
theorem Spec.Reach.stepOk (R : Reach mem chk w aw) {op : Op V} {r : Ret V} {w' : World V} {aw' : AWorld V}
    (h : astep mem chk aw op = some (.ret r, aw')) (h' : exec chk op w = .ok r w') : Reach mem chk w' aw' := by
  obtain ⟨ops, evs, h1, h2⟩ := R
  refine ⟨ops ++ [op], evs ++ [.ret r], arun_concat h1 ?_, run_concat h2 ?_⟩
  · simp only [arun, h]; rfl
  · simp only [run, h']; rfl

/-- a write to a valid address leads to a reachable state -/
theorem Spec.Reach.write (R : Reach mem chk w aw) {x : Nat} {k : Kind} {es : List Ext} {val : Nat → List Int → Option V}
    (hx : aw.arr x = some (k, .ready es val)) {n : Nat} {xs : List Int} {fs : List FL} (v : Valid k es n xs fs) (a : V) :
    ∃ w', exec chk (.write x n xs fs a) w = .ok .unit w' ∧
      Reach mem chk w' (aw.set x (some (k, .ready es fun m ys => if m = n ∧ ys = point xs fs then some a else val m ys))) := by
  obtain ⟨L, R'⟩ := R.rel
  obtain ⟨w', h1, -⟩ := R'.write chk hx v a
  refine ⟨w', h1, R.stepOk ?_ h1⟩
  obtain ⟨o, -, -, -, r⟩ := R'.arr_some hx
  simp only [astep, hx, v.lenx, v.lenf, and_self, if_true, v.err r.len]

/-- a declaration `PointData<..> x(sizes)` whose memory is granted -/
theorem Spec.Reach.make (R : Reach mem chk w aw) {x : Nat} {k : Kind} (junk : Nat → Ptr) {es : List Ext} (hx : aw.arr x = none)
    (hk : KindOk k) (hs : SizesOk k es) (h0 : k.N ≠ 0) (he : sizeErrs 0 es = none) (hp : points (mkShape es k.locs) ≠ 0)
    (hg : granted mem aw.next (requests k.N (mkShape es k.locs)) = (requests k.N (mkShape es k.locs)).length) :
    ∃ w', exec chk (.makeSized x k junk es) w = .ok .unit w' ∧
      Reach mem chk w' { aw.set x (some (k, .ready es fun _ _ => none)) with
        next := aw.next + (requests k.N (mkShape es k.locs)).length } := by
  have h : astep mem chk aw (.makeSized x k junk es) = some (.ret .unit, { aw.set x (some (k, .ready es fun _ _ => none)) with
        next := aw.next + (requests k.N (mkShape es k.locs)).length }) := by
    simp only [astep, hx, Option.isNone_none, true_and, hk, hs, and_self, if_true, h0, if_false, allocEmpty, he, hp, hg]
  obtain ⟨L, R'⟩ := R.rel
  obtain ⟨w', L', h1, -⟩ := step_sim chk R' _ h
  exact ⟨w', h1, R.stepOk h h1⟩

theorem Spec.Reach.init : Reach mem chk (World.init mem : World V) AWorld.init := ⟨[], [], rfl, rfl⟩

theorem runOps_cons {op : Op V} {ops : List (Op V)} {r : Ret V} {w w' : World V} (h : exec chk op w = .ok r w') :
    runOps chk (op :: ops) w = runOps chk ops w' := by
  simp only [runOps]; rw [M.bind_ok h]

/-! ## Arrays with other numbers in them -/

theorem withVals_arr {σ : Vals V} {y : Nat} {k : Kind} {es : List Ext} {val : Nat → List Int → Option V}
    (h : aw.arr y = some (k, .ready es val)) : (withVals aw σ).arr y = some (k, .ready es fun n ys => σ (y, n, ys)) := by
  simp only [withVals, h]

theorem withVals_inv {σ : Vals V} {y : Nat} {k : Kind} {es : List Ext} {val : Nat → List Int → Option V}
    (h : (withVals aw σ).arr y = some (k, .ready es val)) : ∃ val', aw.arr y = some (k, .ready es val') := by
  simp only [withVals] at h
  split at h
  · rename_i k' es' v' h'
    cases h
    exact ⟨_, h'⟩
  · exact ⟨_, h⟩

theorem withVals_valsOf : withVals aw (valsOf aw) = aw := by
  unfold withVals valsOf
  obtain ⟨arr, nx, lk⟩ := aw
  simp only [AWorld.mk.injEq, and_true]
  funext y
  split <;> simp_all

theorem withVals_withVals {σ τ : Vals V} : withVals (withVals aw σ) τ = withVals aw τ := by
  unfold withVals
  simp only [AWorld.mk.injEq, and_true]
  funext y
  rcases h : aw.arr y with _ | ⟨k, a⟩
  · rfl
  · cases a <;> rfl

theorem extsOf_withVals {σ : Vals V} : extsOf (withVals aw σ) = extsOf aw := by
  unfold extsOf withVals
  funext y
  rcases h : aw.arr y with _ | ⟨k, a⟩
  · simp only [h]
  · cases a <;> simp only [h]

theorem extsOf_eq {y : Nat} {k : Kind} {es : List Ext} {val : Nat → List Int → Option V}
    (h : aw.arr y = some (k, .ready es val)) : extsOf aw y = es := by
  simp only [extsOf, h]

theorem valsOf_withVals {σ : Vals V} {y : Nat} {k : Kind} {es : List Ext} {val : Nat → List Int → Option V}
    (h : aw.arr y = some (k, .ready es val)) (n : Nat) (ys : List Int) : valsOf (withVals aw σ) (y, n, ys) = σ (y, n, ys) := by
  simp only [valsOf, withVals, h]

theorem set_withVals {σ : Vals V} {x : Nat} {k : Kind} {es : List Ext} {val : Nat → List Int → Option V}
    (h : aw.arr x = some (k, .ready es val)) (n : Nat) (p : List Int) (v : V) :
    (withVals aw σ).set x (some (k, .ready es fun m ys => if m = n ∧ ys = p then some v else σ (x, m, ys))) =
      withVals aw (setCell σ (x, n, p) v) := by
  unfold withVals AWorld.set
  simp only [AWorld.mk.injEq, and_true]
  funext y
  by_cases hy : y = x
  · subst hy
    simp only [if_true, h]
    congr 3
    funext m ys
    simp only [setCell, Prod.mk.injEq, true_and]
  · simp only [if_neg hy]
    split
    · congr 3
      funext m ys
      simp only [setCell]
      rw [if_neg (by intro e; exact hy (Prod.mk.inj e).1)]
    · rfl

/-! ## Evaluation -/

theorem loopIdx_ok {xs : List Int} {d : Nat} (h : d < xs.length) : loopIdx xs d = .ok (xs.getD d 0) := by
  unfold loopIdx
  rw [List.getElem?_eq_getElem h, List.getD_eq_getElem?_getD, List.getElem?_eq_getElem h]
  rfl

/-- the indices of a stored point fit `int` -/
theorem valid_i32 {k : Kind} {es : List Ext} {n : Nat} {xs : List Int} {fs : List FL} (v : Valid k es n xs fs)
    (ft : DimsFit es) : ∀ x ∈ xs, InI32 x := by
  obtain ⟨l1, -, hf, hp⟩ := v
  revert l1 hf hp
  generalize k.locs = ls
  intro l1 hf hp
  induction es generalizing ls xs fs with
  | nil =>
    cases ls with
    | nil => cases xs <;> simp_all
    | cons l ls =>
      cases xs with
      | nil => simp at l1
      | cons x xs =>
        cases fs with
        | nil => exact hf.elim
        | cons f fs => simp [mkShape, HasPt, point] at hp
  | cons e es ih =>
    cases ls with
    | nil => cases xs <;> simp_all
    | cons l ls =>
      cases xs with
      | nil => simp
      | cons x xs =>
        cases fs with
        | nil => exact hf.elim
        | cons f fs =>
          intro z hz
          rcases List.mem_cons.1 hz with rfl | hz
          · have h1 := hp.1
            have h2 := ft e (by simp)
            unfold Dim.Has at h1
            unfold InI32
            cases l <;> cases f <;> simp only [Loc.toNat, FL.offset] at h1 <;> omega
          · exact ih (fun e he => ft e (by simp [he])) ls (by simpa using l1) hf.2 hp.2 z hz

theorem idx_eval (R : Reach mem chk w aw) {E : Exts} (hE : E = extsOf aw) {xs : List Int} {i : Idx} (ok : IdxOk E xs i)
    (fit : InI32 (idxVal E xs i)) : i.eval chk xs w = .ok (idxVal E xs i) w := by
  cases i with
  | plus d s =>
    simp only [Idx.eval]
    rw [loopIdx_ok ok]
    simp only [M.monadLift_eq, M.liftM_eq, M.lift_ok, pure_bind]
    simp only [idxVal] at fit ⊢
    rw [i32_ok fit]; rfl
  | src y how d fl j =>
    obtain ⟨e, he, hj, ht, hs, hm⟩ := ok
    simp only [Idx.eval]
    rw [loopIdx_ok hj]
    simp only [M.monadLift_eq, M.liftM_eq, M.lift_ok, pure_bind]
    subst hE
    have : ∃ k val, aw.arr y = some (k, .ready (extsOf aw y) val) := by
      unfold extsOf at he ⊢
      split at he
      · rename_i k es val h; exact ⟨k, val, h⟩
      · simp at he
    obtain ⟨k, val, hy⟩ := this
    obtain ⟨L, R'⟩ := R.rel
    obtain ⟨o, hb, hk, h0, r⟩ := R'.arr_some hy
    cases r with
    | @ready _ _ B cell r fits pos vals =>
      have df : ∀ e ∈ extsOf aw y, e.Fits := fun e he => by
        have := dimsFit_of (k := k) ⟨r.len, fits⟩ e he
        unfold Ext.Fits; omega
      have hsrc := (Obj.source_eq chk r df how he fl hm hs ht).1
      unfold World.access
      rw [hb]
      simp only [hsrc, M.lift_ok]
      show Res.ok _ _ = _
      simp only [idxVal, List.getD_eq_getElem?_getD, he, Option.getD_some]

theorem Spec.Reach.dims (R : Reach mem chk w aw) {y : Nat} {k : Kind} {es : List Ext} {val : Nat → List Int → Option V}
    (hy : aw.arr y = some (k, .ready es val)) : DimsFit es := by
  obtain ⟨L, R'⟩ := R.rel
  obtain ⟨o, hb, hk, h0, r⟩ := R'.arr_some hy
  cases r with
  | @ready _ _ B cell r fits pos vals => exact dimsFit_of (k := k) ⟨r.len, fits⟩

theorem evalIdx_ok (R : Reach mem chk w aw) {E : Exts} (hE : E = extsOf aw) {xs : List Int} {is : List Idx}
    (ok : ∀ i ∈ is, IdxOk E xs i) (fit : ∀ i ∈ is, InI32 (idxVal E xs i)) :
    evalIdx chk xs is w = .ok (is.map (idxVal E xs)) w := by
  induction is with
  | nil => rfl
  | cons i is ih =>
    unfold evalIdx
    rw [M.bind_ok (idx_eval R hE (ok i (by simp)) (fit i (by simp))),
      M.bind_ok (ih (fun j hj => ok j (by simp [hj])) (fun j hj => fit j (by simp [hj])))]
    rfl

/-- the index arguments of a valid access -/
theorem access_idx (R : Reach mem chk w aw) {E : Exts} (hE : E = extsOf aw) {xs : List Int} {y n : Nat} {is : List Idx} {fs : List FL}
    (ok : AccessOk aw E xs y n is fs) : evalIdx chk xs is w = .ok (is.map (idxVal E xs)) w := by
  obtain ⟨⟨k, es, val, hy, v⟩, hi⟩ := ok
  refine evalIdx_ok R hE hi fun i h => ?_
  exact valid_i32 v (R.dims hy) _ (List.mem_map.2 ⟨i, h, rfl⟩)

theorem accessOk_withVals {σ : Vals V} {E : Exts} {xs : List Int} {y n : Nat} {is : List Idx} {fs : List FL} 
    (ok : AccessOk aw E xs y n is fs) : AccessOk (withVals aw σ) E xs y n is fs := by
  obtain ⟨⟨k, es, val, hy, v⟩, hi⟩ := ok
  exact ⟨⟨k, es, _, withVals_arr hy, v⟩, hi⟩

theorem exprOk_withVals {σ : Vals V} {E : Exts} {xs : List Int} {e : Expr V}
    (ok : ExprOk aw E xs e) : ExprOk (withVals aw σ) E xs e := by
  induction e with
  | num v => trivial
  | conv d f => exact ok
  | elem y n is fs => exact accessOk_withVals ok
  | un f a ih => exact ih ok
  | bin f a b iha ihb => exact ⟨iha ok.1, ihb ok.2⟩

/-- an expression evaluates to the number it denotes -/
theorem expr_eval {σ : Vals V} (R : Reach mem chk w (withVals aw σ)) {xs : List Int} {e : Expr V} (ok : ExprOk aw (extsOf aw) xs e)
    {v : V} (hv : valueOf (extsOf aw) xs σ e = some v) : e.eval chk xs w = .ok v w := by
  induction e generalizing v with
  | num u => cases hv; rfl
  | conv d f =>
    cases hv
    unfold Expr.eval
    rw [loopIdx_ok ok]
    rfl
  | elem y n is fs =>
    have ok' := accessOk_withVals (σ := σ) ok
    obtain ⟨⟨k, es, val, hy, vd⟩, hi⟩ := ok
    obtain ⟨L, R'⟩ := R.rel
    unfold Expr.eval
    rw [M.bind_ok (access_idx R extsOf_withVals.symm ok'), M.bind_ok (R'.read chk (withVals_arr hy) vd)]
    simp only [valueOf, cellAt] at hv
    simp only [hv]
    rfl
  | un f a ih =>
    simp only [valueOf, Option.map_eq_some_iff] at hv
    obtain ⟨u, h1, rfl⟩ := hv
    unfold Expr.eval
    rw [M.bind_ok (ih ok h1)]
    rfl
  | bin f a b iha ihb =>
    simp only [valueOf] at hv
    split at hv
    · rename_i u u' h1 h2
      cases hv
      unfold Expr.eval
      rw [M.bind_ok (iha ok.1 h1), M.bind_ok (ihb ok.2 h2)]
      rfl
    · cases hv

/-- an expression that denotes no number reads one never assigned -/
theorem expr_uninit {σ : Vals V} (R : Reach mem chk w (withVals aw σ)) {xs : List Int} {e : Expr V} (ok : ExprOk aw (extsOf aw) xs e)
    (hv : valueOf (extsOf aw) xs σ e = none) : e.eval chk xs w = .ub .uninit := by
  induction e with
  | num u => cases hv
  | conv d f => cases hv
  | elem y n is fs =>
    have ok' := accessOk_withVals (σ := σ) ok
    obtain ⟨⟨k, es, val, hy, vd⟩, hi⟩ := ok
    obtain ⟨L, R'⟩ := R.rel
    unfold Expr.eval
    rw [M.bind_ok (access_idx R extsOf_withVals.symm ok'), M.bind_ok (R'.read chk (withVals_arr hy) vd)]
    simp only [valueOf, cellAt] at hv
    simp only [hv]
    rfl
  | un f a ih =>
    simp only [valueOf, Option.map_eq_none_iff] at hv
    unfold Expr.eval
    rw [M.bind_ub (ih ok hv)]
  | bin f a b iha ihb =>
    unfold Expr.eval
    rcases h1 : valueOf (extsOf aw) xs σ a with _ | u
    · rw [M.bind_ub (iha ok.1 h1)]
    · rcases h2 : valueOf (extsOf aw) xs σ b with _ | u'
      · rw [M.bind_ok (expr_eval R ok.1 h1), M.bind_ub (ihb ok.2 h2)]
      · simp only [valueOf, h1, h2] at hv; cases hv

/-- the body does what it denotes -/
theorem body_run {σ σ' : Vals V} (R : Reach mem chk w (withVals aw σ)) {xs : List Int} {body : List (Assign V)}
    (ok : BodyOk aw (extsOf aw) body xs) (hv : bodyAt (extsOf aw) xs body σ = some σ') :
    ∃ w', runBody chk body xs w = .ok () w' ∧ Reach mem chk w' (withVals aw σ') := by
  induction body generalizing w σ with
  | nil => cases hv; exact ⟨w, rfl, R⟩
  | cons a body ih =>
    simp only [bodyAt] at hv
    split at hv
    · rename_i v h1
      obtain ⟨o1, o2⟩ := ok a (by simp)
      have o2' := accessOk_withVals (σ := σ) o2
      have e2 := access_idx R extsOf_withVals.symm o2'
      obtain ⟨⟨k, es, val, hy, vd⟩, hi⟩ := o2
      obtain ⟨w1, h2, R1⟩ := R.write (withVals_arr hy) vd v
      rw [set_withVals hy] at R1
      obtain ⟨w', h3, R'⟩ := ih R1 (fun b hb => ok b (by simp [hb])) hv
      refine ⟨w', ?_, R'⟩
      unfold runBody
      have : a.exec chk xs w = .ok () w1 := by
        unfold Assign.exec
        rw [M.bind_ok (expr_eval R o1 h1), M.bind_ok e2, M.bind_ok h2]
        rfl
      rw [M.bind_ok this, h3]
    · cases hv

/-- the body is undefined where it denotes nothing -/
theorem body_uninit {σ : Vals V} (R : Reach mem chk w (withVals aw σ)) {xs : List Int} {body : List (Assign V)}
    (ok : BodyOk aw (extsOf aw) body xs) (hv : bodyAt (extsOf aw) xs body σ = none) :
    runBody chk body xs w = .ub .uninit := by
  induction body generalizing w σ with
  | nil => cases hv
  | cons a body ih =>
    simp only [bodyAt] at hv
    obtain ⟨o1, o2⟩ := ok a (by simp)
    unfold runBody
    split at hv
    · rename_i v h1
      have o2' := accessOk_withVals (σ := σ) o2
      have e2 := access_idx R extsOf_withVals.symm o2'
      obtain ⟨⟨k, es, val, hy, vd⟩, hi⟩ := o2
      obtain ⟨w1, h2, R1⟩ := R.write (withVals_arr hy) vd v
      rw [set_withVals hy] at R1
      have : a.exec chk xs w = .ok () w1 := by
        unfold Assign.exec
        rw [M.bind_ok (expr_eval R o1 h1), M.bind_ok e2, M.bind_ok h2]
        rfl
      rw [M.bind_ok this]
      exact ih R1 (fun b hb => ok b (by simp [hb])) hv
    · rename_i h1
      have : a.exec chk xs w = .ub .uninit := by
        unfold Assign.exec
        rw [M.bind_ub (expr_uninit R o1 h1)]
      rw [M.bind_ub this]

/-- the numbers after the iterations at the points of a list -/
noncomputable def ptsAt (E : Exts) (body : List (Assign V)) : List (List Int) → Vals V → Option (Vals V)
  | [], σ => some σ
  | xs :: l, σ =>
    match bodyAt E xs body σ with
    | some σ' => ptsAt E body l σ'
    | none => none

theorem pts_run {body : List (Assign V)} (l : List (List Int)) {w : World V} {σ σ' : Vals V} (R : Reach mem chk w (withVals aw σ)) 
    (ok : ∀ xs ∈ l, BodyOk aw (extsOf aw) body xs) (hv : ptsAt (extsOf aw) body l σ = some σ') :
    ∃ w', runAll (runBody chk body) l w = .ok () w' ∧ Reach mem chk w' (withVals aw σ') := by
  induction l generalizing w σ with
  | nil => cases hv; exact ⟨w, rfl, R⟩
  | cons xs l ih =>
    simp only [ptsAt] at hv
    split at hv
    · rename_i σ1 h1
      obtain ⟨w1, h2, R1⟩ := body_run R (ok xs (by simp)) h1
      obtain ⟨w', h3, R'⟩ := ih R1 (fun b hb => ok b (by simp [hb])) hv
      exact ⟨w', by rw [runAll_cons, M.bind_ok h2, h3], R'⟩
    · cases hv

theorem pts_uninit {body : List (Assign V)} (l : List (List Int)) {w : World V} {σ : Vals V} (R : Reach mem chk w (withVals aw σ)) 
    (ok : ∀ xs ∈ l, BodyOk aw (extsOf aw) body xs) (hv : ptsAt (extsOf aw) body l σ = none) :
    runAll (runBody chk body) l w = .ub .uninit := by
  induction l generalizing w σ with
  | nil => cases hv
  | cons xs l ih =>
    simp only [ptsAt] at hv
    rw [runAll_cons]
    split at hv
    · rename_i σ1 h1
      obtain ⟨w1, h2, R1⟩ := body_run R (ok xs (by simp)) h1
      rw [M.bind_ok h2]
      exact ih R1 (fun b hb => ok b (by simp [hb])) hv
    · rename_i h1
      rw [M.bind_ub (body_uninit R (ok xs (by simp)) h1)]

/-! ## Independent iterations -/

theorem value_congr {E : Exts} {xs : List Int} {σ τ : Vals V} {e : Expr V} (h : ∀ c ∈ readsOf E xs e, σ c = τ c) :
    valueOf E xs σ e = valueOf E xs τ e := by
  induction e with
  | num v => rfl
  | conv d f => rfl
  | elem y n is fs => exact h _ (by simp [readsOf])
  | un f a ih => simp only [valueOf]; rw [ih h]
  | bin f a b iha ihb =>
    simp only [valueOf]
    rw [iha (fun c hc => h c (by simp [readsOf, hc])), ihb (fun c hc => h c (by simp [readsOf, hc]))]

/-- the body only looks at the elements it uses -/
theorem body_congr {E : Exts} {xs : List Int} {body : List (Assign V)} {σ τ : Vals V} {U : Cell → Prop}
    (hU : ∀ c ∈ usesAt E body xs, U c) (h : ∀ c, U c → σ c = τ c) {σ' : Vals V} (hs : bodyAt E xs body σ = some σ') :
    ∃ τ', bodyAt E xs body τ = some τ' ∧ ∀ c, U c → σ' c = τ' c := by
  induction body generalizing σ τ with
  | nil => cases hs; exact ⟨τ, rfl, h⟩
  | cons a body ih =>
    simp only [bodyAt] at hs ⊢
    split at hs
    · rename_i v h1
      have : valueOf E xs τ a.rhs = some v := by
        rw [← h1]
        exact (value_congr fun c hc => h c (hU c (by simp [usesAt, hc]))).symm
      rw [this]
      refine ih (fun c hc => hU c (by rw [usesAt, List.flatMap_cons]; exact List.mem_append_right _ hc)) ?_ hs
      intro c hc
      simp only [setCell]
      split
      · rfl
      · exact h c hc
    · cases hs

/-- the body only changes its targets -/
theorem body_frame {E : Exts} {xs : List Int} {body : List (Assign V)} {σ σ' : Vals V} (hs : bodyAt E xs body σ = some σ')
    {c : Cell} (hc : c ∉ writesAt E body xs) : σ' c = σ c := by
  induction body generalizing σ with
  | nil => cases hs; rfl
  | cons a body ih =>
    simp only [bodyAt] at hs
    split at hs
    · rename_i v h1
      rw [ih hs (fun h => hc (by simp only [writesAt, List.map_cons, List.mem_cons] at h ⊢; exact .inr h))]
      simp only [setCell]
      rw [if_neg]
      intro e; exact hc (by simp [writesAt, e])
    · cases hs

theorem writes_uses {E : Exts} {body : List (Assign V)} {xs : List Int} {c : Cell} (h : c ∈ writesAt E body xs) : c ∈ usesAt E body xs := by
  obtain ⟨a, h1, h2⟩ := List.mem_map.1 h
  exact List.mem_flatMap.2 ⟨a, h1, by simp [h2]⟩

/-- independent iterations: the numbers after the loop are those of each iteration run alone -/
theorem pts_independent {E : Exts} {body : List (Assign V)} {P : List Int → Prop} (ind : Independent E body P) (l : List (List Int)) 
    (hP : ∀ xs ∈ l, P xs) (nd : l.Nodup) (σ : Vals V) (alone : List Int → Vals V)
    (hb : ∀ xs ∈ l, bodyAt E xs body σ = some (alone xs)) :
    ∃ σ', ptsAt E body l σ = some σ' ∧ (∀ xs ∈ l, ∀ c ∈ writesAt E body xs, σ' c = alone xs c) ∧
      ∀ c, (∀ xs ∈ l, c ∉ writesAt E body xs) → σ' c = σ c := by
  have key : ∀ (l : List (List Int)), (∀ xs ∈ l, P xs) → l.Nodup → ∀ (τ : Vals V),
      (∀ xs ∈ l, ∀ c ∈ usesAt E body xs, τ c = σ c) → (∀ xs ∈ l, bodyAt E xs body σ = some (alone xs)) →
      ∃ σ', ptsAt E body l τ = some σ' ∧ (∀ xs ∈ l, ∀ c ∈ writesAt E body xs, σ' c = alone xs c) ∧
        ∀ c, (∀ xs ∈ l, c ∉ writesAt E body xs) → σ' c = τ c := by
    intro l
    induction l with
    | nil => intro _ _ τ _ _; exact ⟨τ, rfl, by simp, fun _ _ => rfl⟩
    | cons xs l ih =>
      intro hP nd τ hτ hb
      rw [List.nodup_cons] at nd
      obtain ⟨τ', h1, h2⟩ := body_congr (τ := τ) (U := fun c => c ∈ usesAt E body xs) (fun c h => h)
        (fun c hc => (hτ xs (by simp) c hc).symm) (hb xs (by simp))
      have ne : ∀ ys ∈ l, xs ≠ ys := fun ys hy e => nd.1 (e ▸ hy)
      obtain ⟨σ', g1, g2, g3⟩ := ih (fun ys h => hP ys (by simp [h])) nd.2 τ' (by
        intro ys hy c hc
        rw [body_frame h1, hτ ys (by simp [hy]) c hc]
        intro hw
        exact ind ys xs (hP ys (by simp [hy])) (hP xs (by simp)) (ne ys hy).symm c hw hc) (fun ys h => hb ys (by simp [h]))
      refine ⟨σ', by simp only [ptsAt, h1]; exact g1, ?_, ?_⟩
      · intro ys hy c hc
        rcases List.mem_cons.1 hy with rfl | hy
        · rw [g3, h2 c (writes_uses hc)]
          intro zs hz hw
          exact ind _ zs (hP _ (by simp)) (hP zs (by simp [hz])) (ne zs hz) c hw (writes_uses hc)
        · exact g2 ys hy c hc
      · intro c hc
        rw [g3 c (fun ys hy => hc ys (by simp [hy])), body_frame h1 (hc xs (by simp))]
  exact key l hP nd σ (fun _ _ _ _ => rfl) hb

/-- independent iterations: if one of them, run alone, reads a number never assigned, so does the loop -/
theorem pts_independent_none {E : Exts} {body : List (Assign V)} {P : List Int → Prop} (ind : Independent E body P) (l : List (List Int))
    (hP : ∀ xs ∈ l, P xs) (nd : l.Nodup) (σ : Vals V) {zs : List Int} (hz : zs ∈ l) (hb : bodyAt E zs body σ = none) :
    ptsAt E body l σ = none := by
  have key : ∀ (l : List (List Int)), (∀ xs ∈ l, P xs) → l.Nodup → ∀ (τ : Vals V),
      (∀ xs ∈ l, ∀ c ∈ usesAt E body xs, τ c = σ c) → zs ∈ l → ptsAt E body l τ = none := by
    intro l
    induction l with
    | nil => intro _ _ τ _ h; simp at h
    | cons xs l ih =>
      intro hP nd τ hτ hz
      rw [List.nodup_cons] at nd
      simp only [ptsAt]
      split
      · rename_i τ' h1
        have ne : zs ≠ xs := by
          rintro rfl
          obtain ⟨τ'', h2, -⟩ := body_congr (τ := σ) (U := fun c => c ∈ usesAt E body zs) (fun c h => h)
            (fun c hc => hτ zs (by simp) c hc) h1
          rw [hb] at h2; cases h2
        refine ih (fun ys h => hP ys (by simp [h])) nd.2 τ' ?_ (by simpa [ne] using hz)
        intro ys hy c hc
        rw [body_frame h1, hτ ys (by simp [hy]) c hc]
        intro hw
        exact ind ys xs (hP ys (by simp [hy])) (hP xs (by simp)) (fun e => nd.1 (e ▸ hy)) c hw hc
      · rfl
  exact key l hP nd σ (fun _ _ _ _ => rfl) hz

/-! ## The loop -/

/-- the loop visits the points of the zones -/
theorem loop_eq (R : Reach mem chk w aw) {l : Loop V} {k : Kind} {es : List Ext} {val : Nat → List Int → Option V}
    (hx : aw.arr l.x = some (k, .ready es val)) (hl : l.ts.length = es.length) :
    l.exec chk w = runAll (runBody chk l.body) (zonePts es l.ts) w := by
  obtain ⟨L, R'⟩ := R.rel
  obtain ⟨o, hb, hk, h0, r⟩ := R'.arr_some hx
  cases r with
  | @ready _ _ B cell r fits pos vals =>
    have df : ∀ e ∈ es, e.Fits := fun e he => by
      have := dimsFit_of (k := k) ⟨r.len, fits⟩ e he
      unfold Ext.Fits; omega
    unfold Loop.exec
    rw [hb]
    simp only
    rw [Obj.loopTags_eq chk r df hl]

theorem loop_run {σ : Vals V} (R : Reach mem chk w (withVals aw σ)) {l : Loop V} {k : Kind} {es : List Ext} {val : Nat → List Int → Option V}
    (hx : aw.arr l.x = some (k, .ready es val)) (hl : l.ts.length = es.length)
    (ok : ∀ xs, InTags es l.ts xs → BodyOk aw (extsOf aw) l.body xs) (ind : Independent (extsOf aw) l.body (InTags es l.ts))
    (alone : List Int → Vals V) (hb : ∀ xs, InTags es l.ts xs → bodyAt (extsOf aw) xs l.body σ = some (alone xs)) :
    ∃ w' σ', l.exec chk w = .ok () w' ∧ Reach mem chk w' (withVals aw σ') ∧
      (∀ xs, InTags es l.ts xs → ∀ c ∈ writesAt (extsOf aw) l.body xs, σ' c = alone xs c) ∧
      ∀ c, (∀ xs, InTags es l.ts xs → c ∉ writesAt (extsOf aw) l.body xs) → σ' c = σ c := by
  obtain ⟨σ', h1, h2, h3⟩ := pts_independent ind (zonePts es l.ts) (fun xs h => (mem_zonePts hl).1 h) (nodup_zonePts es l.ts) σ alone
    (fun xs h => hb xs ((mem_zonePts hl).1 h))
  obtain ⟨w', h4, R'⟩ := pts_run (zonePts es l.ts) R (fun xs h => ok xs ((mem_zonePts hl).1 h)) h1
  exact ⟨w', σ', by rw [loop_eq R (withVals_arr hx) hl, h4], R', fun xs h => h2 xs ((mem_zonePts hl).2 h),
    fun c h => h3 c fun xs hx => h xs ((mem_zonePts hl).1 hx)⟩

theorem loop_uninit {σ : Vals V} (R : Reach mem chk w (withVals aw σ)) {l : Loop V} {k : Kind} {es : List Ext} {val : Nat → List Int → Option V}
    (hx : aw.arr l.x = some (k, .ready es val)) (hl : l.ts.length = es.length)
    (ok : ∀ xs, InTags es l.ts xs → BodyOk aw (extsOf aw) l.body xs) (ind : Independent (extsOf aw) l.body (InTags es l.ts))
    {zs : List Int} (hz : InTags es l.ts zs) (hb : bodyAt (extsOf aw) zs l.body σ = none) :
    l.exec chk w = .ub .uninit := by
  have h1 := pts_independent_none ind (zonePts es l.ts) (fun xs h => (mem_zonePts hl).1 h) (nodup_zonePts es l.ts) σ
    ((mem_zonePts hl).2 hz) hb
  rw [loop_eq R (withVals_arr hx) hl]
  exact pts_uninit (zonePts es l.ts) R (fun xs h => ok xs ((mem_zonePts hl).1 h)) h1

/-- one assignment per iteration -/
theorem loop_one {σ : Vals V} (R : Reach mem chk w (withVals aw σ)) {x : Nat} {ts : List RA} {a : Assign V} {k : Kind} {es : List Ext}
    {val : Nat → List Int → Option V} (hx : aw.arr x = some (k, .ready es val)) (hl : ts.length = es.length)
    (ok : ∀ xs, InTags es ts xs → ExprOk aw (extsOf aw) xs a.rhs ∧ AccessOk aw (extsOf aw) xs a.x a.n a.is a.fs)
    (ind : ∀ xs ys, InTags es ts xs → InTags es ts ys → xs ≠ ys → targetOf (extsOf aw) ys a ≠ targetOf (extsOf aw) xs a ∧
      targetOf (extsOf aw) ys a ∉ readsOf (extsOf aw) xs a.rhs)
    (v : List Int → V) (hv : ∀ xs, InTags es ts xs → valueOf (extsOf aw) xs σ a.rhs = some (v xs)) :
    ∃ w' σ', (Loop.mk x ts [a]).exec chk w = .ok () w' ∧ Reach mem chk w' (withVals aw σ') ∧
      (∀ xs, InTags es ts xs → σ' (targetOf (extsOf aw) xs a) = some (v xs)) ∧
      ∀ c, (∀ xs, InTags es ts xs → c ≠ targetOf (extsOf aw) xs a) → σ' c = σ c := by
  obtain ⟨w', σ', h1, h2, h3, h4⟩ := loop_run (l := Loop.mk x ts [a]) R hx hl (fun xs h b hb => by
      rw [List.mem_singleton.1 hb]; exact ok xs h)
    (by
      intro xs ys p q ne c hc hu
      have hc : c = targetOf (extsOf aw) ys a := by simpa [writesAt] using hc
      subst hc
      have := ind xs ys p q ne
      simp only [usesAt, List.flatMap_cons, List.flatMap_nil, List.append_nil, List.mem_cons] at hu
      exact hu.elim this.1 this.2)
    (fun xs => setCell σ (targetOf (extsOf aw) xs a) (v xs)) (fun xs h => by simp only [bodyAt, hv xs h])
  refine ⟨w', σ', h1, h2, fun xs h => ?_, fun c h => h4 c fun xs hx hw => ?_⟩
  · rw [h3 xs h _ (by simp [writesAt])]; simp [setCell]
  · exact h xs hx (by simpa [writesAt] using hw)

theorem runLoops_cons {l : Loop V} {ls : List (Loop V)} {w w' : World V} (h : l.exec chk w = .ok () w') :
    runLoops chk (l :: ls) w = runLoops chk ls w' := by
  simp only [runLoops]; rw [M.bind_ok h]

theorem runLoops_append (ls ls' : List (Loop V)) : runLoops chk (ls ++ ls') = (runLoops chk ls >>= fun _ => runLoops chk ls') := by
  induction ls with
  | nil => rfl
  | cons l ls ih => simp only [List.cons_append, runLoops, ih, bind_assoc]

end Verif
