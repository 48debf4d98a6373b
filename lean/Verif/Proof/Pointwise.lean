import Verif.Proof.Client1
import Verif.Spec.Pointwise
/-!
# Loop bodies that work point by point
-/
set_option linter.unusedSimpArgs false
namespace Verif
open Spec
variable {V : Type} {mem : Nat → Nat → Bool} {chk : Bool} {w : World V} {aw : AWorld V}

theorem here_val (E : Exts) (xs : List Int) : (here xs.length).map (idxVal E xs) = xs := by
  unfold here
  rw [List.map_map]
  apply List.ext_getElem
  · simp
  · intro i h1 h2
    simp only [List.getElem_map, List.getElem_range, Function.comp_apply, idxVal, Int.add_zero]
    rw [List.getD_eq_getElem?_getD, List.getElem?_eq_getElem h2]
    rfl

theorem point_center (xs : List Int) : point xs (List.replicate xs.length .C) = xs := by
  induction xs with
  | nil => rfl
  | cons x xs ih =>
    simp only [List.length_cons, List.replicate_succ, point, ih]
    congr 1
    exact Int.add_zero x

theorem cell_here (E : Exts) {D : Nat} {xs : List Int} (h : xs.length = D) (y n : Nat) :
    cellAt E xs y n (here D) (List.replicate D .C) = (y, n, xs) := by
  subst h
  unfold cellAt
  rw [here_val, point_center]

theorem value_here (E : Exts) {D : Nat} {xs : List Int} (h : xs.length = D) (σ : Vals V) (e : PExpr V) :
    valueOf E xs σ (e.toExpr D) = PExpr.val xs (fun y n => σ (y, n, xs)) e := by
  induction e with
  | num v => rfl
  | conv d f => rfl
  | elem y n => simp only [PExpr.toExpr, valueOf, PExpr.val, cell_here E h]
  | un f a ih => simp only [PExpr.toExpr, valueOf, PExpr.val, ih]
  | bin f a b iha ihb => simp only [PExpr.toExpr, valueOf, PExpr.val, iha, ihb]; rfl

theorem reads_here (E : Exts) {D : Nat} {xs : List Int} (h : xs.length = D) (e : PExpr V) :
    readsOf E xs (e.toExpr D) = (PExpr.comps e).map fun c => (c.1, c.2, xs) := by
  induction e with
  | num v => rfl
  | conv d f => rfl
  | elem y n => simp only [PExpr.toExpr, readsOf, PExpr.comps, cell_here E h]; rfl
  | un f a ih => simp only [PExpr.toExpr, readsOf, PExpr.comps, ih]
  | bin f a b iha ihb => simp only [PExpr.toExpr, readsOf, PExpr.comps, iha, ihb, List.map_append]

theorem body_here (E : Exts) {D : Nat} {xs : List Int} (h : xs.length = D) (body : List (PAssign V)) :
    ∀ (σ : Vals V) (env : Env1 V), (∀ y n, σ (y, n, xs) = env y n) → ∀ {env' : Env1 V}, pointRun xs body env = some env' →
    ∃ σ', bodyAt E xs (body.map (PAssign.toAssign D)) σ = some σ' ∧ ∀ y n, σ' (y, n, xs) = env' y n := by
  induction body with
  | nil =>
    intro σ env he env' hr
    cases hr
    exact ⟨σ, rfl, he⟩
  | cons a rest ih =>
    intro σ env he env' hr
    simp only [pointRun] at hr
    have hval : valueOf E xs σ (a.toAssign D).rhs = PExpr.val xs env a.rhs := by
      show valueOf E xs σ (a.rhs.toExpr D) = _
      rw [value_here E h]
      congr 1
      funext y n; exact he y n
    cases hv : PExpr.val xs env a.rhs with
    | none => rw [hv] at hr; cases hr
    | some v =>
      rw [hv] at hr hval
      simp only at hr
      simp only [List.map_cons, bodyAt, hval]
      refine ih _ (env.set a.x a.n v) ?_ hr
      intro y n
      have : targetOf E xs (a.toAssign D) = (a.x, a.n, xs) := cell_here E h a.x a.n
      rw [this]
      unfold setCell Env1.set
      by_cases hc : y = a.x ∧ n = a.n
      · rw [if_pos (by rw [hc.1, hc.2]), if_pos hc]
      · rw [if_neg (fun e => by simp only [Prod.mk.injEq] at e; exact hc ⟨e.1, e.2.1⟩), if_neg hc, he]

theorem body_here_none (E : Exts) {D : Nat} {xs : List Int} (h : xs.length = D) (body : List (PAssign V)) :
    ∀ (σ : Vals V) (env : Env1 V), (∀ y n, σ (y, n, xs) = env y n) → pointRun xs body env = none →
    bodyAt E xs (body.map (PAssign.toAssign D)) σ = none := by
  induction body with
  | nil => intro σ env he hr; cases hr
  | cons a rest ih =>
    intro σ env he hr
    simp only [pointRun] at hr
    have hval : valueOf E xs σ (a.toAssign D).rhs = PExpr.val xs env a.rhs := by
      show valueOf E xs σ (a.rhs.toExpr D) = _
      rw [value_here E h]
      congr 1
      funext y n; exact he y n
    cases hv : PExpr.val xs env a.rhs with
    | none => rw [hv] at hval; simp only [List.map_cons, bodyAt, hval]
    | some v =>
      rw [hv] at hr hval
      simp only at hr
      simp only [List.map_cons, bodyAt, hval]
      refine ih _ (env.set a.x a.n v) ?_ hr
      intro y n
      have : targetOf E xs (a.toAssign D) = (a.x, a.n, xs) := cell_here E h a.x a.n
      rw [this]
      unfold setCell Env1.set
      by_cases hc : y = a.x ∧ n = a.n
      · rw [if_pos (by rw [hc.1, hc.2]), if_pos hc]
      · rw [if_neg (fun e => by simp only [Prod.mk.injEq] at e; exact hc ⟨e.1, e.2.1⟩), if_neg hc, he]

theorem run_frame {xs : List Int} {body : List (PAssign V)} : ∀ {env env' : Env1 V}, pointRun xs body env = some env' →
    ∀ y n, (y, n) ∉ body.map (fun a => (a.x, a.n)) → env' y n = env y n := by
  induction body with
  | nil => intro env env' h y n _; cases h; rfl
  | cons a rest ih =>
    intro env env' h y n hn
    simp only [pointRun] at h
    simp only [List.map_cons, List.mem_cons, not_or] at hn
    cases hv : PExpr.val xs env a.rhs with
    | none => rw [hv] at h; cases h
    | some v =>
      rw [hv] at h
      rw [ih h y n hn.2]
      unfold Env1.set
      rw [if_neg (fun e => hn.1 (by rw [e.1, e.2]))]

theorem inTags_length {es : List Ext} {ts : List RA} {xs : List Int} (h : InTags es ts xs) : xs.length = ts.length := by
  induction es generalizing ts xs with
  | nil =>
    match ts, xs, h with
    | [], [], _ => rfl
  | cons e es ih =>
    match ts, xs, h with
    | t :: ts, x :: xs, h => simp only [List.length_cons, ih h.2]

theorem hasPt_length {sh : Shape} {xs : List Int} (h : HasPt sh xs) : xs.length = sh.length := by
  induction sh generalizing xs with
  | nil => match xs, h with | [], _ => rfl
  | cons d sh ih => match xs, h with | x :: xs, h => simp only [List.length_cons, ih h.2]

theorem flags_center {ls : List Loc} (h : ∀ l ∈ ls, l = .center) : FlagsFit ls (List.replicate ls.length .C) := by
  induction ls with
  | nil => trivial
  | cons l ls ih =>
    have : l = .center := h l List.mem_cons_self
    subst this
    exact ⟨rfl, ih fun l hl => h l (List.mem_cons_of_mem _ hl)⟩

theorem covers_valid {σ : Vals V} (R : Reach mem chk w (withVals aw σ)) {y n : Nat} {P : List Int → Prop} (h : Covers aw P y n) {xs : List Int} (hp : P xs) :
    ∃ k es val, aw.arr y = some (k, .ready es val) ∧ Valid k es n xs (List.replicate xs.length .C) := by
  obtain ⟨k, es, val, h1, h2, h3, h4⟩ := h
  obtain ⟨L, Q⟩ := R.rel
  obtain ⟨o, -, -, -, r⟩ := Q.arr_some (withVals_arr h1)
  have len := r.len
  have hpt := h4 xs hp
  have hl : xs.length = k.locs.length := by rw [hasPt_length hpt, mkShape_len len]
  refine ⟨k, es, val, h1, hl, h3, ?_, by rw [point_center]; exact hpt⟩
  rw [hl]; exact flags_center h2

theorem access_here {σ : Vals V} (R : Reach mem chk w (withVals aw σ)) {y n : Nat} {P : List Int → Prop} (h : Covers aw P y n) {xs : List Int} (hp : P xs)
    {E : Exts} {D : Nat} (hl : xs.length = D) : AccessOk aw E xs y n (here D) (List.replicate D .C) := by
  obtain ⟨k, es, val, h1, h2⟩ := covers_valid R h hp
  subst hl
  refine ⟨⟨k, es, val, h1, by rw [here_val]; exact h2⟩, ?_⟩
  intro i hi
  unfold here at hi
  obtain ⟨d, hd, rfl⟩ := List.mem_map.1 hi
  exact List.mem_range.1 hd

theorem expr_here {σ : Vals V} (R : Reach mem chk w (withVals aw σ)) {P : List Int → Prop} {xs : List Int} (hp : P xs) {E : Exts} {D : Nat} (hl : xs.length = D)
    (e : PExpr V) (hc : ∀ c ∈ PExpr.comps e, Covers aw P c.1 c.2) (hi : PExpr.Idx D e) : ExprOk aw E xs (e.toExpr D) := by
  induction e with
  | num v => trivial
  | conv d f => rw [← hl] at hi; exact hi
  | elem y n => exact access_here R (hc (y, n) (List.mem_singleton.2 rfl)) hp hl
  | un f a ih => exact ih hc hi
  | bin f a b iha ihb =>
    exact ⟨iha (fun c h => hc c (List.mem_append_left _ h)) hi.1, ihb (fun c h => hc c (List.mem_append_right _ h)) hi.2⟩

theorem pointwise_ok {σ : Vals V} (R : Reach mem chk w (withVals aw σ)) {es : List Ext} {ts : List RA} {body : List (PAssign V)}
    (ok : ∀ c ∈ bodyComps body, Covers aw (InTags es ts) c.1 c.2) (idx : ∀ a ∈ body, PExpr.Idx ts.length a.rhs) {xs : List Int} (h : InTags es ts xs) :
    BodyOk aw (extsOf aw) (body.map (PAssign.toAssign ts.length)) xs := by
  intro a ha
  obtain ⟨a, hm, rfl⟩ := List.mem_map.1 ha
  have hl := inTags_length h
  refine ⟨expr_here R h hl a.rhs (fun c hc => ok c ?_) (idx a hm), access_here R (ok (a.x, a.n) ?_) h hl⟩
  · exact List.mem_flatMap.2 ⟨a, hm, List.mem_cons_of_mem _ hc⟩
  · exact List.mem_flatMap.2 ⟨a, hm, List.mem_cons_self⟩

theorem pointwise_ind (E : Exts) {es : List Ext} {ts : List RA} {body : List (PAssign V)} :
    Independent E (body.map (PAssign.toAssign ts.length)) (InTags es ts) := by
  intro xs ys hx hy ne c hc hu
  unfold writesAt at hc
  rw [List.map_map] at hc
  obtain ⟨a, -, rfl⟩ := List.mem_map.1 hc
  have e1 : targetOf E ys (a.toAssign ts.length) = (a.x, a.n, ys) := cell_here E (inTags_length hy) a.x a.n
  simp only [Function.comp_apply, e1] at hu
  unfold usesAt at hu
  obtain ⟨b, hb, hu⟩ := List.mem_flatMap.1 hu
  obtain ⟨b, -, rfl⟩ := List.mem_map.1 hb
  have e2 : targetOf E xs (b.toAssign ts.length) = (b.x, b.n, xs) := cell_here E (inTags_length hx) b.x b.n
  have e3 : readsOf E xs (b.toAssign ts.length).rhs = _ := reads_here E (inTags_length hx) b.rhs
  rw [e2, e3] at hu
  rcases List.mem_cons.1 hu with h | h
  · simp only [Prod.mk.injEq] at h; exact ne h.2.2.symm
  · obtain ⟨d, -, h⟩ := List.mem_map.1 h
    simp only [Prod.mk.injEq] at h; exact ne h.2.2

/-- a loop that works point by point -/
theorem point_loop {σ : Vals V} (R : Reach mem chk w (withVals aw σ)) {x : Nat} {ts : List RA} {body : List (PAssign V)} {k : Kind} {es : List Ext}
    {val : Nat → List Int → Option V} (hx : aw.arr x = some (k, .ready es val)) (hl : ts.length = es.length)
    (ok : ∀ c ∈ bodyComps body, Covers aw (InTags es ts) c.1 c.2) (idx : ∀ a ∈ body, PExpr.Idx ts.length a.rhs)
    (out : List Int → Env1 V) (hb : ∀ xs, InTags es ts xs → pointRun xs body (fun y n => σ (y, n, xs)) = some (out xs)) :
    ∃ w' σ', (pointLoop x ts body).exec chk w = .ok () w' ∧ Reach mem chk w' (withVals aw σ') ∧
      (∀ xs, InTags es ts xs → ∀ y n, σ' (y, n, xs) = out xs y n) ∧
      ∀ y n xs, ¬ InTags es ts xs → σ' (y, n, xs) = σ (y, n, xs) := by
  classical
  have alone : ∀ xs, ∃ τ, InTags es ts xs → bodyAt (extsOf aw) xs (body.map (PAssign.toAssign ts.length)) σ = some τ ∧
      ∀ y n, τ (y, n, xs) = out xs y n := by
    intro xs
    by_cases h : InTags es ts xs
    · obtain ⟨τ, h1, h2⟩ := body_here (extsOf aw) (inTags_length h) body σ _ (fun _ _ => rfl) (hb xs h)
      exact ⟨τ, fun _ => ⟨h1, h2⟩⟩
    · exact ⟨σ, fun h' => absurd h' h⟩
  choose τ hτ using alone
  obtain ⟨w', σ', h1, h2, h3, h4⟩ := loop_run (l := pointLoop x ts body) R hx hl (fun xs h => pointwise_ok R ok idx h) (pointwise_ind _) τ
    (fun xs h => (hτ xs h).1)
  have wr : ∀ xs, InTags es ts xs → writesAt (extsOf aw) (pointLoop x ts body).body xs = body.map fun a => (a.x, a.n, xs) := by
    intro xs h
    unfold writesAt pointLoop
    simp only [List.map_map]
    apply List.map_congr_left
    intro a _
    exact cell_here _ (inTags_length h) a.x a.n
  refine ⟨w', σ', h1, h2, ?_, ?_⟩
  · intro xs h y n
    by_cases hm : (y, n) ∈ body.map fun a => (a.x, a.n)
    · rw [h3 xs h _ (by
        rw [wr xs h]
        obtain ⟨a, ha, e⟩ := List.mem_map.1 hm
        simp only [Prod.mk.injEq] at e
        exact List.mem_map.2 ⟨a, ha, by rw [e.1, e.2]⟩), (hτ xs h).2]
    · rw [run_frame (hb xs h) y n hm]
      apply h4
      intro zs hz hc
      change InTags es ts zs at hz
      rw [wr zs hz] at hc
      obtain ⟨a, ha, e⟩ := List.mem_map.1 hc
      simp only [Prod.mk.injEq] at e
      exact hm (List.mem_map.2 ⟨a, ha, by rw [e.1, e.2.1]⟩)
  · intro y n xs h
    apply h4
    intro zs hz hc
    change InTags es ts zs at hz
    rw [wr zs hz] at hc
    obtain ⟨a, ha, e⟩ := List.mem_map.1 hc
    simp only [Prod.mk.injEq] at e
    exact h (e.2.2 ▸ hz)

theorem point_loop_uninit {σ : Vals V} (R : Reach mem chk w (withVals aw σ)) {x : Nat} {ts : List RA} {body : List (PAssign V)} {k : Kind} {es : List Ext}
    {val : Nat → List Int → Option V} (hx : aw.arr x = some (k, .ready es val)) (hl : ts.length = es.length)
    (ok : ∀ c ∈ bodyComps body, Covers aw (InTags es ts) c.1 c.2) (idx : ∀ a ∈ body, PExpr.Idx ts.length a.rhs)
    {xs : List Int} (h : InTags es ts xs) (hb : pointRun xs body (fun y n => σ (y, n, xs)) = none) :
    (pointLoop x ts body).exec chk w = .ub .uninit :=
  loop_uninit (l := pointLoop x ts body) R hx hl (fun _ h => pointwise_ok R ok idx h) (pointwise_ind _) h
    (body_here_none _ (inTags_length h) body σ _ (fun _ _ => rfl) hb)

end Verif
