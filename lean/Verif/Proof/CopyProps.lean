import Verif.Proof.Valid
import Verif.Proof.CopyFrame
/-!
# Lemmas for the statements about `copy_from`
-/
namespace Verif
open Spec
variable {V : Type} {mem : Nat → Nat → Bool} {chk : Bool} {w : World V} {aw : AWorld V} {L : List Nat}

/-- every stored point can be addressed -/
theorem valid_of_pt {k : Kind} {es : List Ext} (hl : es.length = k.locs.length) {n : Nat} (hn : n < k.N) {ys : List Int}
    (hp : HasPt (mkShape es k.locs) ys) : ∃ xs fs, Valid k es n xs fs ∧ point xs fs = ys := by
  have key : ∀ (ls : List Loc) (ys : List Int), ys.length = ls.length →
      ∃ fs, FlagsFit ls fs ∧ point ys fs = ys := by
    intro ls
    induction ls with
    | nil => intro ys h; cases ys <;> simp_all; exact ⟨[], trivial, rfl⟩
    | cons l ls ih =>
      intro ys h
      cases ys with
      | nil => simp at h
      | cons y ys =>
        obtain ⟨fs, h1, h2⟩ := ih ys (by simpa using h)
        cases l with
        | center => exact ⟨.C :: fs, ⟨rfl, h1⟩, by simp [point, h2, FL.offset]⟩
        | half => exact ⟨.N :: fs, ⟨rfl, h1⟩, by simp [point, h2, FL.offset]⟩
  have len : ys.length = k.locs.length := by rw [HasPt.len hp, mkShape_len hl]
  obtain ⟨fs, h1, h2⟩ := key k.locs ys len
  exact ⟨ys, fs, ⟨len, hn, h1, by rw [h2]; exact hp⟩, h2⟩

theorem Rel.len (R : Rel mem w aw L) {x : Nat} {k : Kind} {es : List Ext} {val : Nat → List Int → Option V}
    (hx : aw.arr x = some (k, .ready es val)) : es.length = k.locs.length := by
  obtain ⟨o, -, -, -, r⟩ := R.arr_some hx
  exact r.len

/-- the lengths of the lists that describe a copy -/
theorem Rel.plan_len (R : Rel mem w aw L) {x y : Nat} {k : Kind} {es es' : List Ext} {val val' : Nat → List Int → Option V}
    (hx : aw.arr x = some (k, .ready es val)) (hy : aw.arr y = some (k, .ready es' val')) {args : Obj.CopyArgs}
    (hl : argsLen k.locs.length args) :
    (copyPlan es es' args).R.length = k.locs.length ∧ (copyPlan es es' args).r.length = k.locs.length ∧
    (copyPlan es es' args).I.length = k.locs.length ∧ (copyPlan es es' args).i.length = k.locs.length :=
  copyPlan_len (R.len hx) (R.len hy) hl

/-- a copy that goes through -/
theorem Rel.copied (R : Rel mem w aw L) (c : Bool) {x y : Nat} {k : Kind} {es es' : List Ext} {val val' : Nat → List Int → Option V}
    (hx : aw.arr x = some (k, .ready es val)) (hy : aw.arr y = some (k, .ready es' val')) {args : Obj.CopyArgs}
    (ok : CopyOk k es es' args) (ho : ∀ d ∈ (copyPlan es es' args).dims k, d.Over)
    (hc : ¬ (x = y ∧ ∀ d ∈ (copyPlan es es' args).dims k, d.Clash)) :
    ∃ w' L', exec c (.copy x y args) w = .ok .unit w' ∧ Rel mem w' (aw.set x (some (k, .ready es
      fun n ys => if Writes ((copyPlan es es' args).dims k) ys then val' n (image ((copyPlan es es' args).dims k) ys) else val n ys))) L' := by
  obtain ⟨w', L', h1, h2⟩ := step_sim c R (.copy x y args) (by
    simp only [astep, hx, hy]
    rw [if_pos ⟨trivial, ok⟩, if_pos ho, if_neg hc])
  exact ⟨w', L', h1, h2⟩

/-- a refused copy -/
theorem Rel.refused (R : Rel mem w aw L) {x y : Nat} {k : Kind} {es es' : List Ext} {val val' : Nat → List Int → Option V}
    (hx : aw.arr x = some (k, .ready es val)) (hy : aw.arr y = some (k, .ready es' val')) {args : Obj.CopyArgs}
    (ok : CopyOk k es es' args) (ho : ¬ (∀ d ∈ (copyPlan es es' args).dims k, d.Over) ∨ (x = y ∧ ∀ d ∈ (copyPlan es es' args).dims k, d.Clash)) :
    ∃ e, exec true (.copy x y args) w = .err e w := by
  obtain ⟨o, hb, hk, h0, r⟩ := R.arr_some hx
  obtain ⟨o', hb', -, -, r'⟩ := R.arr_some hy
  cases r with
  | @ready _ _ B cell r fits pos vals =>
    cases r' with
    | @ready _ _ B' cell' r' fits' pos' vals' =>
      have ap : if (decide (x = y)) = true then o = o' ∧ es = es' else B ∉ o'.own := by
        by_cases e : x = y
        · subst e
          rw [hb] at hb'; rw [hx] at hy; cases hb'; cases hy; simp
        · simp only [e, decide_false, Bool.false_eq_true, if_false]
          intro hm
          exact R.disj x y e B (by rw [hb]; exact r.mem_own) (by rw [hb']; exact hm)
      obtain ⟨k1, k2, -⟩ := Obj.copy_ok true r r' ap fits fits' hk.2 ok
      by_cases hov : ∀ d ∈ (copyPlan es es' args).dims k, d.Over
      · rcases ho with ho | ⟨e, hcl⟩
        · exact (ho hov).elim
        · have := copy_run (ev := .exn .copyOverlap) true hb hb' (k2 hov (by simpa using e) hcl rfl)
          rw [put_same w hb] at this
          exact ⟨_, this⟩
      · have := copy_run (ev := .exn .overlapNotFound) true hb hb' (k1 hov rfl)
        rw [put_same w hb] at this
        exact ⟨_, this⟩

/-- For dimensions below 2^30 points zones that meet keep every number of the copy inside
machine range, whatever the anchors are. -/
theorem CopyDim.anchors {d : CopyDim} {e e' : Ext} (hm : d.Meets) (hR : ZoneIn e d.R) (hr : ZoneIn e' d.r)
    (h : e.n + e.i + e.p < 1073741823) (h' : e'.n + e'.i + e'.p < 1073741823) : d.AnchorsFit := by
  obtain ⟨y, h1, h2⟩ := hm
  unfold Seg CopyDim.image at *
  unfold ZoneIn at *
  unfold CopyDim.AnchorsFit
  simp only [List.forall_mem_cons, List.not_mem_nil, false_imp_iff, implies_true, and_true, InI32]
  omega

/-- two allocated arrays and their storage -/
theorem Rel.two (R : Rel mem w aw L) {x y : Nat} {k : Kind} {es es' : List Ext} {val val' : Nat → List Int → Option V}
    (hx : aw.arr x = some (k, .ready es val)) (hy : aw.arr y = some (k, .ready es' val')) :
    ∃ o o' B B' c c', w.objs x = some (k, o) ∧ w.objs y = some (k, o') ∧ ObjReady k es o w.h B c ∧ ObjReady k es' o' w.h B' c' ∧
      ShapeFits k.N (mkShape es k.locs) ∧ ShapeFits k.N (mkShape es' k.locs) ∧ k.N < 4294967296 ∧
      (x = y → o = o' ∧ es = es') ∧ (x ≠ y → B ∉ o'.own) := by
  obtain ⟨o, hb, hk, h0, r⟩ := R.arr_some hx
  obtain ⟨o', hb', -, -, r'⟩ := R.arr_some hy
  cases r with
  | @ready _ _ B cell r fits pos vals =>
    cases r' with
    | @ready _ _ B' cell' r' fits' pos' vals' =>
      refine ⟨o, o', B, B', cell, cell', hb, hb', r, r', fits, fits', hk.2, ?_, fun e hm => ?_⟩
      · rintro rfl
        rw [hb] at hb'; rw [hx] at hy; cases hb'; cases hy; exact ⟨rfl, rfl⟩
      · exact R.disj x y e B (by rw [hb]; exact r.mem_own) (by rw [hb']; exact hm)

theorem copy_ub {chk : Bool} {x y : Nat} {k : Kind} {o pd : Obj} (hx : w.objs x = some (k, o)) (hy : w.objs y = some (k, pd))
    {args : Obj.CopyArgs} {u : UB} (hu : exec chk (.copy x y args) w = .ub u) :
    Obj.copy chk k o pd (decide (x = y)) args w.h = .ub u := by
  have e : exec chk (.copy x y args) w = (World.copy chk x y args >>= fun _ => pure (Ret.unit : Ret V)) w := rfl
  rw [e, M.bind_run] at hu
  cases hm : World.copy chk x y args w with
  | ok a s => rw [hm] at hu; cases hu
  | err a s => rw [hm] at hu; cases hu
  | ub u' =>
    rw [hm] at hu; cases hu
    unfold World.copy at hm
    rw [hx, hy] at hm
    simp only [if_true] at hm
    cases hc : Obj.copy chk k o pd (decide (x = y)) args w.h with
    | ok a s => rw [hc] at hm; cases hm
    | err a s => rw [hc] at hm; cases hm
    | ub u' => rw [hc] at hm; cases hm; rfl

/-- a checked copy with zones inside the arrays touches nothing outside their storage -/
theorem Rel.copy_inside (R : Rel mem w aw L) {x y : Nat} {k : Kind} {es es' : List Ext} {val val' : Nat → List Int → Option V}
    (hx : aw.arr x = some (k, .ready es val)) (hy : aw.arr y = some (k, .ready es' val')) {args : Obj.CopyArgs}
    (hl : argsLen k.locs.length args) (hR : ZonesIn es (copyPlan es es' args).R) (hr : ZonesIn es' (copyPlan es es' args).r) :
    ∀ u, exec true (.copy x y args) w = .ub u → u = .overflow := by
  intro u hu
  obtain ⟨o, pd, B, B', c, c', hb, hb', r, r', fits, fits', hN, e1, e2⟩ := R.two hx hy
  have hu := copy_ub hb hb' hu
  obtain ⟨l1, l2, l3, l4⟩ := copyPlan_len r.len r'.len hl
  have df := dimsFit_of (k := k) ⟨r.len, fits⟩
  have df' := dimsFit_of (k := k) ⟨r'.len, fits'⟩
  have key : ∀ Q : Res (Heap V) Unit → Prop, Q (.ub .overflow) → (∀ e, Q (.err e w.h)) → (∀ h', Q (.ok () h')) →
      Q (Obj.copy true k o pd (decide (x = y)) args w.h) := by
    intro Q q1 q2 q3
    refine Obj.copy_plan true r.typed r'.typed (r.sized fits) (r'.sized fits') _ hl w.h ?_ (fun _ => q1)
    refine Obj.copy_elim true r.typed r'.typed _ l1 l2 l3 l4 w.h (fun _ => q1) (fun _ _ => q1) (fun _ _ => q2 _) (fun _ _ _ _ => q2 _) ?_
    intro ho hc
    have ho := ho rfl
    have hw : ∀ d ∈ copyDims k.locs (copyPlan es es' args).R (copyPlan es es' args).r (copyPlan es es' args).I (copyPlan es es' args).i, 0 ≤ d.wid :=
      copy_all hR hr _ fun d e e' he he' zR zr hd => CopyDim.wid_nonneg zR zr (ho d hd)
    obtain ⟨h', c1, h1, -⟩ := Obj.copyLoops_run r r' (by
        by_cases e : x = y
        · exact .inl (e1 e).1
        · exact .inr (e2 e)) fits' hN (copyDims_len l1 l2 l3 l4) hw
      (fun ys hy => writes_into r.len l2 l3 l4 hR hy) (fun ys hy => writes_from r'.len l1 l3 l4 hr hy)
      (by
        intro e
        have hxy : x = y := by
          refine Decidable.byContradiction fun h => e2 h (e ▸ r.mem_own)
        exact ⟨(e1 hxy).2, fun ys zs hy hz => writes_apart (hc rfl (by simpa using hxy)) hy hz⟩)
    rw [h1]
    exact q3 _
  exact key (fun x => x = .ub u → u = .overflow) (fun h => by cases h; rfl) (fun e h => by cases h) (fun h h' => by cases h') hu

/-- loops over an empty set of points -/
theorem Rel.copy_nothing (R : Rel mem w aw L) {x y : Nat} {k : Kind} {es es' : List Ext} {val val' : Nat → List Int → Option V}
    (hx : aw.arr x = some (k, .ready es val)) (hy : aw.arr y = some (k, .ready es' val')) {args : Obj.CopyArgs}
    (ok : CopyOk k es es' args) (hw : ∀ d ∈ (copyPlan es es' args).dims k, 0 ≤ d.hi - d.lo)
    (h0 : ∃ d ∈ (copyPlan es es' args).dims k, d.hi - d.lo + d.loc.toNat = 0) :
    exec false (.copy x y args) w = .ok .unit w := by
  obtain ⟨o, pd, B, B', c, c', hb, hb', r, r', fits, fits', hN, e1, e2⟩ := R.two hx hy
  obtain ⟨hl, hR, hr, ha⟩ := ok
  obtain ⟨l1, l2, l3, l4⟩ := copyPlan_len r.len r'.len hl
  have df := dimsFit_of (k := k) ⟨r.len, fits⟩
  have df' := dimsFit_of (k := k) ⟨r'.len, fits'⟩
  unfold CopyPlan.dims at *
  generalize hds : copyDims k.locs (copyPlan es es' args).R (copyPlan es es' args).r (copyPlan es es' args).I (copyPlan es es' args).i = ds at *
  have f1 : ∀ d ∈ ds, d.Fits1 := by
    subst hds
    exact copy_all hR hr _ fun d e e' he he' zR zr hd => CopyDim.fits1 zR (df e he) (ha d hd)
  have f2 : ∀ d ∈ ds, d.Fits2 := by
    subst hds
    refine copy_all hR hr _ fun d e e' he he' zR zr hd => ?_
    have h1 := hw d hd
    have h2 := loc_le d.loc
    have h3 := df e he
    unfold ZoneIn at zR
    unfold CopyDim.Fits2 CopyDim.wid InI32
    unfold CopyDim.hi CopyDim.lo at *
    omega
  have hw' : ∀ d ∈ ds, 0 ≤ d.wid := fun d hd => by
    have := hw d hd
    unfold CopyDim.wid; omega
  have e0 : boxPts ds = [] := by
    rw [List.eq_nil_iff_forall_not_mem]
    intro ys hy
    rw [mem_boxPts hw'] at hy
    obtain ⟨d, hd, h1⟩ := h0
    have : ∀ (ds : List CopyDim) (ys : List Int), Writes ds ys → d ∈ ds → ∃ y, d.Writes y := by
      intro ds
      induction ds with
      | nil => intro ys _ h; simp at h
      | cons a ds ih =>
        intro ys hw hm
        match ys, hw with
        | y :: ys, hw =>
          rcases List.mem_cons.1 hm with rfl | hm
          · exact ⟨y, hw.1⟩
          · exact ih ys hw.2 hm
    obtain ⟨y, h2⟩ := this ds ys hy hd
    unfold CopyDim.Writes at h2
    omega
  have hcopy : Obj.copy false k o pd (decide (x = y)) args w.h = .ok () w.h := by
    refine Obj.copy_plan (Q := fun x => x = _) false r.typed r'.typed (r.sized fits) (r'.sized fits') _ hl w.h ?_
      (fun hn => (hn ⟨zones_edge hR df, zones_edge hr df'⟩).elim)
    refine Obj.copy_elim (Q := fun x => x = _) false r.typed r'.typed _ l1 l2 l3 l4 w.h (fun hn => (hn (hds ▸ f1)).elim)
      (fun _ hn => (hn (hds ▸ f2)).elim) (fun h => by cases h) (fun h => by cases h) ?_
    intro _ _
    rw [hds, Obj.copyLoops_eq r.typed r'.typed (hds ▸ copyDims_len l1 l2 l3 l4) hw' hN, e0]
    rfl
  have := copy_run (ev := .ret .unit) false hb hb' hcopy
  rw [put_same w hb] at this
  exact this

/-! ## side flags -/

theorem edge_meets {l : Loc} {R r : Int × Int} {f : Side} (h1 : 0 < R.2) (h2 : 0 < r.2) :
    (CopyDim.mk l R r (edge R f) (edge r f)).Meets := by
  refine ⟨edge R f, ?_⟩
  cases f <;> simp only [CopyDim.Common, Seg, CopyDim.image, edge] <;> omega

theorem edges_meet {ls : List Loc} {R r : List (Int × Int)} {fl : List Side} (l1 : R.length = ls.length) (l2 : r.length = ls.length)
    (l3 : fl.length = ls.length) (h1 : ∀ z ∈ R, 0 < z.2) (h2 : ∀ z ∈ r, 0 < z.2) :
    ∀ d ∈ copyDims ls R r (edges R fl) (edges r fl), d.Meets := by
  induction ls generalizing R r fl with
  | nil => simp [copyDims]
  | cons l ls ih =>
    match R, r, fl, l1, l2, l3 with
    | z :: R, z' :: r, f :: fl, l1, l2, l3 =>
      simp only [List.length_cons, Nat.add_right_cancel_iff] at l1 l2 l3
      simp only [List.forall_mem_cons] at h1 h2
      simp only [edges, copyDims, List.forall_mem_cons]
      exact ⟨edge_meets h1.1 h2.1, ih l1 l2 l3 h1.2 h2.2⟩

theorem places_iff {l : Loc} {R r : Int × Int} {f : Side} (h1 : 0 < R.2) (h2 : 0 < r.2) (p q : Int) :
    (∃ k, Places l R r f k ∧ p = fromEnd R f k ∧ q = fromEnd r f k) ↔
      (CopyDim.mk l R r (edge R f) (edge r f)).Takes p ∧ q = (CopyDim.mk l R r (edge R f) (edge r f)).image p := by
  rw [CopyDim.takes_iff (edge_meets h1 h2)]
  constructor
  · rintro ⟨k, h, rfl, rfl⟩
    cases f <;> simp only [Places, fromEnd, CopyDim.Writes, CopyDim.lo, CopyDim.hi, CopyDim.image, edge] at * <;> omega
  · rintro ⟨h, rfl⟩
    cases f
    · refine ⟨p - R.1, ?_⟩
      simp only [Places, fromEnd, CopyDim.Writes, CopyDim.lo, CopyDim.hi, CopyDim.image, edge] at *; omega
    · refine ⟨R.1 + R.2 - 1 - p, ?_⟩
      simp only [Places, fromEnd, CopyDim.Writes, CopyDim.lo, CopyDim.hi, CopyDim.image, edge] at *; omega

theorem aligned_iff {ls : List Loc} {R r : List (Int × Int)} {fl : List Side} (l1 : R.length = ls.length) (l2 : r.length = ls.length)
    (l3 : fl.length = ls.length) (h1 : ∀ z ∈ R, 0 < z.2) (h2 : ∀ z ∈ r, 0 < z.2) (ys qs : List Int) :
    Aligned ls R r fl ys qs ↔ Takes (copyDims ls R r (edges R fl) (edges r fl)) ys ∧
      qs = image (copyDims ls R r (edges R fl) (edges r fl)) ys := by
  induction ls generalizing R r fl ys qs with
  | nil =>
    match R, r, fl, l1, l2, l3 with
    | [], [], [], _, _, _ =>
      constructor
      · intro h; cases h; exact ⟨trivial, rfl⟩
      · rintro ⟨h, rfl⟩
        cases ys with
        | nil => exact .nil
        | cons => exact h.elim
  | cons l ls ih =>
    match R, r, fl, l1, l2, l3 with
    | z :: R, z' :: r, f :: fl, l1, l2, l3 =>
      simp only [List.length_cons, Nat.add_right_cancel_iff] at l1 l2 l3
      simp only [List.forall_mem_cons] at h1 h2
      have ih := ih l1 l2 l3 h1.2 h2.2
      constructor
      · intro h
        cases h with
        | @cons _ _ _ _ k _ _ _ _ ps qs hp ha =>
          obtain ⟨i1, i2⟩ := (ih _ _).1 ha
          obtain ⟨j1, j2⟩ := (places_iff h1.1 h2.1 _ _).1 ⟨k, hp, rfl, rfl⟩
          exact ⟨⟨j1, i1⟩, by simp only [edges, copyDims, image]; rw [← j2, ← i2]⟩
      · rintro ⟨h, rfl⟩
        cases ys with
        | nil => exact h.elim
        | cons y ys =>
          obtain ⟨k, hk, e1, e2⟩ := (places_iff h1.1 h2.1 y _).2 ⟨h.1, rfl⟩
          simp only [edges, copyDims, image]
          rw [e2, e1]
          exact .cons hk ((ih _ _).2 ⟨h.2, rfl⟩)

end Verif
