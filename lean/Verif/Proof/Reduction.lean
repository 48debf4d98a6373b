import Verif.Proof.Client1
import Verif.Proof.Reduce
import Verif.Model.Reduction
/-!
# Reductions in user programs: proofs
-/
set_option linter.unusedSimpArgs false
namespace Verif
open Spec
variable {V : Type} {mem : Nat → Nat → Bool} {chk : Bool} {w : World V} {aw : AWorld V}

theorem foldAll_flatMap {σ α β T : Type} (g : α → List β) (fn : T → β → M σ T) (t : T) (l : List α) :
    foldAll fn t (l.flatMap g) = foldAll (fun t a => foldAll fn t (g a)) t l := by
  induction l generalizing t with
  | nil => rfl
  | cons a l ih => simp only [List.flatMap_cons, foldAll_append, foldAll_cons, ih]

theorem foldAll_one {σ α T : Type} (fn : T → α → M σ T) (t : T) (a : α) : foldAll fn t [a] = fn t a := by
  rw [foldAll_cons]; exact bind_pure _

/-- the points of the zones are listed in lexicographic order -/
theorem sorted_zonePts (es : List Ext) (ts : List RA) : (zonePts es ts).Pairwise (List.Lex intLt) := by
  induction es generalizing ts with
  | nil => simp [zonePts]
  | cons e es ih =>
    cases ts with
    | nil => simp [zonePts]
    | cons t ts =>
      simp only [zonePts]
      have hs := ints_sorted (tagBegin e.n e.i t) (tagEnd e.i e.p t - tagBegin e.n e.i t).toNat
      revert hs
      generalize ints (tagBegin e.n e.i t) (tagEnd e.i e.p t - tagBegin e.n e.i t).toNat = l
      intro hs
      induction l with
      | nil => simp
      | cons a l ihl =>
        rw [List.pairwise_cons] at hs
        rw [List.flatMap_cons, List.pairwise_append]
        refine ⟨?_, ihl hs.2, ?_⟩
        · refine List.Pairwise.map _ ?_ (ih ts)
          intro x y hxy; exact .cons hxy
        · intro p hp q hq
          simp only [List.mem_map, List.mem_flatMap] at hp hq
          obtain ⟨x, -, rfl⟩ := hp
          obtain ⟨b, hb, y, -, rfl⟩ := hq
          exact .rel (hs.1 b hb)

theorem enum_zonePts {es : List Ext} {ts : List RA} (hl : ts.length = es.length) :
    Enumerates (zonePts es ts) (InTags es ts) (List.Lex intLt) :=
  ⟨fun _ => mem_zonePts hl, sorted_zonePts es ts⟩

/-- the reduction goes over the points of the zones -/
theorem Obj.reduceTags_eq {σ T : Type} (chk : Bool) {k : Kind} {es : List Ext} {o : Obj} {h : Heap V} {B : Nat} {c : Nat → Option V}
    (r : ObjReady k es o h B c) (hf : ∀ e ∈ es, e.Fits) {ts : List RA} (hl : ts.length = es.length) (ans : Ref σ T)
    (reduce : T → T → M σ T) (body : List Int → M σ T) :
    o.reduceTags chk ts ans reduce body = reduceSpec (zonePts es ts) ans reduce body := by
  have n0 : ∀ (e : Ext) (t : RA), 0 ≤ tagEnd e.i e.p t - tagBegin e.n e.i t := fun e t => by
    have := tag_le e.n e.i e.p t; omega
  have f0 : ∀ (e : Ext) (t : RA), e.Fits → InI32 (tagBegin e.n e.i t + (tagEnd e.i e.p t - tagBegin e.n e.i t)) := fun e t h => by
    have := tag_end_fits e.n e.i e.p t h
    rwa [show tagBegin e.n e.i t + (tagEnd e.i e.p t - tagBegin e.n e.i t) = tagEnd e.i e.p t by omega]
  unfold reduceSpec
  cases r with
  | @d1 N L0 e0 o h B cell r =>
    match ts, hl with
    | [t0], _ =>
      have q0 := hf e0 (by simp)
      unfold Obj.reduceTags
      simp only [r.size, D1.sz_range chk e0 q0, M.monadLift_eq, M.liftM_eq, M.lift_ok, pure_bind, D1.PD_Reduce_1D, D1.RangeT.begin_0,
        D1.RangeT.end_0, i32_ok (f0 e0 t0 q0), forIAcc_eq _ _ (n0 e0 t0), zonePts, foldAll_flatMap, List.map_cons, List.map_nil, foldAll_one]
  | @d2 N L0 L1 e0 e1 o h B P cell r =>
    match ts, hl with
    | [t0, t1], _ =>
      have q0 := hf e0 (by simp)
      have q1 := hf e1 (by simp)
      unfold Obj.reduceTags
      simp only [r.size, D2.sz_range chk e0 e1 q0 q1, M.monadLift_eq, M.liftM_eq, M.lift_ok, pure_bind, D2.PD_Reduce_2D, D2.RangeT.begin_0,
        D2.RangeT.end_0, D2.RangeT.begin_1, D2.RangeT.end_1, i32_ok (f0 e0 t0 q0), i32_ok (f0 e1 t1 q1), forIAcc_eq _ _ (n0 e0 t0),
        forIAcc_eq _ _ (n0 e1 t1), zonePts, foldAll_flatMap, foldAll_map, List.map_cons, List.map_nil, foldAll_one]
  | @d3 N L0 L1 L2 e0 e1 e2 o h B P Q cell r =>
    match ts, hl with
    | [t0, t1, t2], _ =>
      have q0 := hf e0 (by simp)
      have q1 := hf e1 (by simp)
      have q2 := hf e2 (by simp)
      unfold Obj.reduceTags
      simp only [r.size, D3.sz_range chk e0 e1 e2 q0 q1 q2, M.monadLift_eq, M.liftM_eq, M.lift_ok, pure_bind, D3.PD_Reduce_3D, D3.RangeT.begin_0,
        D3.RangeT.end_0, D3.RangeT.begin_1, D3.RangeT.end_1, D3.RangeT.begin_2, D3.RangeT.end_2, i32_ok (f0 e0 t0 q0), i32_ok (f0 e1 t1 q1),
        i32_ok (f0 e2 t2 q2), forIAcc_eq _ _ (n0 e0 t0),
        forIAcc_eq _ _ (n0 e1 t1), forIAcc_eq _ _ (n0 e2 t2), zonePts, foldAll_flatMap, foldAll_map, List.map_cons, List.map_nil, foldAll_one]

/-- the accumulator goes through the values -/
theorem foldAll_reads {σ α T : Type} {s : σ} (fn : α → M σ T) (red : T → T → T) (value : α → T) (l : List α)
    (h : ∀ p ∈ l, fn p s = .ok (value p) s) (t : T) :
    foldAll (fun t p => do let x ← fn p; pure (red x t)) t l s = .ok (l.foldl (fun t p => red (value p) t) t) s := by
  induction l generalizing t with
  | nil => rfl
  | cons p l ih =>
    have h1 : (do let x ← fn p; pure (red x t) : M σ T) s = .ok (red (value p) t) s := by rw [M.bind_ok (h p (by simp))]; rfl
    rw [foldAll_cons, M.bind_ok h1, ih fun q hq => h q (by simp [hq])]; rfl

/-- the first point where the function is undefined -/
theorem foldAll_undef {σ α T : Type} {s : σ} (fn : α → M σ T) (red : T → T → T) (u : UB) (l : List α)
    (h : ∀ p ∈ l, (∃ v, fn p s = .ok v s) ∨ fn p s = .ub u) (hu : ∃ p ∈ l, fn p s = .ub u) (t : T) :
    foldAll (fun t p => do let x ← fn p; pure (red x t)) t l s = .ub u := by
  induction l generalizing t with
  | nil => obtain ⟨p, hp, -⟩ := hu; cases hp
  | cons p l ih =>
    rw [foldAll_cons]
    rcases h p (by simp) with ⟨v, hv⟩ | hv
    · have h1 : (do let x ← fn p; pure (red x t) : M σ T) s = .ok (red v t) s := by rw [M.bind_ok hv]; rfl
      rw [M.bind_ok h1]
      refine ih (fun q hq => h q (by simp [hq])) ?_ _
      obtain ⟨q, hq, hq'⟩ := hu
      rcases List.mem_cons.1 hq with rfl | hq
      · rw [hv] at hq'; cases hq'
      · exact ⟨q, hq, hq'⟩
    · have h1 : (do let x ← fn p; pure (red x t) : M σ T) s = .ub u := M.bind_ub hv
      rw [M.bind_ub h1]

theorem onArrays_ok {S α : Type} {m : M (World V) α} {a : α} {w' : World V} {s : S} (h : m w = .ok a w') :
    onArrays m (w, s) = .ok a (w', s) := by
  unfold onArrays; simp only [h]

theorem onArrays_ub {S α : Type} {m : M (World V) α} {u : UB} {s : S} (h : m w = .ub u) : onArrays m (w, s) = .ub u := by
  unfold onArrays; simp only [h]

theorem reduceExpr_eq {S : Type} (R : Reach mem chk w aw) {x : Nat} {ts : List RA} {k : Kind} {es : List Ext}
    {val : Nat → List Int → Option V} (hx : aw.arr x = some (k, .ready es val)) (hl : ts.length = es.length) (ans : Ref S V)
    (red : V → V → V) (e : Expr V) (s : S) :
    reduceExpr chk x ts ans red e (w, s) =
      reduceSpec (zonePts es ts) ⟨fun s => ans.get s.2, fun v s => (s.1, ans.set v s.2)⟩ (fun a b => pure (red a b))
        (fun xs => onArrays (e.eval chk xs)) (w, s) := by
  obtain ⟨L, R'⟩ := R.rel
  obtain ⟨o, hb, hk, h0, r⟩ := R'.arr_some hx
  cases r with
  | @ready _ _ B cell r fits pos vals =>
    have df : ∀ e ∈ es, e.Fits := fun e he => by
      have := dimsFit_of (k := k) ⟨r.len, fits⟩ e he
      unfold Ext.Fits; omega
    unfold reduceExpr
    rw [hb]
    simp only
    rw [Obj.reduceTags_eq chk r df hl]

theorem reduceExpr_ok {S : Type} {σ : Vals V} (R : Reach mem chk w (withVals aw σ)) {x : Nat} {ts : List RA} {k : Kind} {es : List Ext}
    {val : Nat → List Int → Option V} (hx : aw.arr x = some (k, .ready es val)) (hl : ts.length = es.length) (ans : Ref S V)
    (red : V → V → V) {e : Expr V} (ok : ∀ xs, InTags es ts xs → ExprOk aw (extsOf aw) xs e) (value : List Int → V)
    (hv : ∀ xs, InTags es ts xs → valueOf (extsOf aw) xs σ e = some (value xs)) (s : S) :
    reduceExpr chk x ts ans red e (w, s) =
      .ok () (w, ans.set (red ((zonePts es ts).foldl (fun t xs => red (value xs) t) (ans.get s)) (ans.get s)) s) := by
  rw [reduceExpr_eq R (withVals_arr hx) hl]
  unfold reduceSpec
  have h1 : ∀ xs ∈ zonePts es ts, onArrays (S := S) (e.eval chk xs) (w, s) = .ok (value xs) (w, s) := by
    intro xs h
    have h := (mem_zonePts hl).1 h
    exact onArrays_ok (expr_eval R (ok xs h) (hv xs h))
  rw [M.bind_ok (show Ref.read _ (w, s) = .ok (ans.get s) (w, s) from rfl), M.bind_ok (foldAll_reads _ red value _ h1 _)]
  rfl

theorem reduceExpr_uninit {S : Type} {σ : Vals V} (R : Reach mem chk w (withVals aw σ)) {x : Nat} {ts : List RA} {k : Kind} {es : List Ext}
    {val : Nat → List Int → Option V} (hx : aw.arr x = some (k, .ready es val)) (hl : ts.length = es.length) (ans : Ref S V)
    (red : V → V → V) {e : Expr V} (ok : ∀ xs, InTags es ts xs → ExprOk aw (extsOf aw) xs e) {zs : List Int} (hz : InTags es ts zs)
    (hv : valueOf (extsOf aw) zs σ e = none) (s : S) :
    reduceExpr chk x ts ans red e (w, s) = .ub .uninit := by
  rw [reduceExpr_eq R (withVals_arr hx) hl]
  unfold reduceSpec
  rw [M.bind_ok (show Ref.read _ (w, s) = .ok (ans.get s) (w, s) from rfl)]
  refine M.bind_ub (foldAll_undef _ red .uninit _ ?_ ⟨zs, (mem_zonePts hl).2 hz, onArrays_ub (expr_uninit R (ok zs hz) hv)⟩ _)
  intro xs h
  have h := (mem_zonePts hl).1 h
  rcases h1 : valueOf (extsOf aw) xs σ e with _ | v
  · exact .inr (onArrays_ub (expr_uninit R (ok xs h) h1))
  · exact .inl ⟨v, onArrays_ok (expr_eval R (ok xs h) h1)⟩

end Verif
