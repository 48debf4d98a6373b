import Verif.Proof.CopyRun
import Verif.Proof.Tags
/-!
# `copy_from` inside the contract
-/
namespace Verif
open Spec
variable {V : Type}

/-! ## zones -/

theorem Spec.loc_le (l : Loc) : l.toNat ≤ 1 := by cases l <;> simp [Loc.toNat]

namespace Spec.CopyDim
variable {d : CopyDim} {e e' : Ext}

theorem fits1 (hR : ZoneIn e d.R) (he : e.n + e.i + e.p + 1 < 2147483648) (ha : d.AnchorsFit) : d.Fits1 := by
  unfold AnchorsFit at ha
  simp only [List.forall_mem_cons, List.not_mem_nil, false_imp_iff, implies_true, and_true] at ha
  have hl := loc_le d.loc
  unfold ZoneIn at hR
  unfold Fits1
  unfold InI32 at *
  omega

theorem fits2 (hR : ZoneIn e d.R) (he : e.n + e.i + e.p + 1 < 2147483648) (hr : ZoneIn e' d.r) (ho : d.Over) : d.Fits2 := by
  have hl := loc_le d.loc
  unfold ZoneIn at hR hr
  unfold Over at ho
  unfold Fits2 wid lo hi
  unfold InI32 at *
  omega

theorem wid_nonneg (hR : ZoneIn e d.R) (hr : ZoneIn e' d.r) (ho : d.Over) : 0 ≤ d.wid := by
  unfold ZoneIn at hR hr
  unfold Over at ho
  unfold wid lo hi
  omega

theorem into (hR : ZoneIn e d.R) {y : Int} (hy : d.Writes y) : (Dim.mk e d.loc).Has y := by
  unfold ZoneIn at hR
  unfold Writes lo hi at hy
  unfold Dim.Has
  simp only
  omega

theorem from_ (hr : ZoneIn e' d.r) {y : Int} (hy : d.Writes y) : (Dim.mk e' d.loc).Has (d.image y) := by
  unfold ZoneIn at hr
  unfold Writes lo hi at hy
  unfold Dim.Has image
  simp only
  omega

theorem apart (h : ¬ d.Clash) {y z : Int} (hy : d.Writes y) (hz : d.Writes z) : d.image y ≠ z := by
  unfold Clash at h
  unfold Writes at hy hz
  unfold image
  have h1 : d.R.1 ≤ d.lo := by unfold lo; omega
  have h2 : d.hi ≤ d.R.1 + d.R.2 := by unfold hi; omega
  omega

/-- zones with a common point overlap -/
theorem Meets.over (h : d.Meets) : d.Over := by
  obtain ⟨y, h⟩ := h
  unfold Common Seg image at h
  unfold Over
  omega

theorem takes_iff (h : d.Meets) (y : Int) : d.Takes y ↔ d.Writes y := by
  obtain ⟨y0, h⟩ := h
  unfold Common Seg image at h
  unfold Takes Writes Common Seg image lo hi
  cases hl : d.loc <;> simp [Loc.toNat] <;> omega

end Spec.CopyDim

theorem copy_all {k : Kind} {es es' : List Ext} {R r : List (Int × Int)} {I i : List Int}
    (hR : ZonesIn es R) (hr : ZonesIn es' r) (P : CopyDim → Prop)
    (step : ∀ d e e', e ∈ es → e' ∈ es' → ZoneIn e d.R → ZoneIn e' d.r → d ∈ copyDims k.locs R r I i → P d) :
    ∀ d ∈ copyDims k.locs R r I i, P d := by
  generalize k.locs = ls at *
  induction ls generalizing es es' R r I i with
  | nil => simp [copyDims]
  | cons l ls ih =>
    match es, R, es', r, I, i, hR, hr with
    | [], [], _, _, _, _, _, _ => simp [copyDims]
    | _, _, [], [], _, _, _, _ => simp [copyDims]
    | _, _, _, _, [], _, _, _ => simp [copyDims]
    | _, _, _, _, _, [], _, _ => simp [copyDims]
    | e :: es, z :: R, e' :: es', z' :: r, a :: I, b :: i, hR, hr =>
      intro d hd
      rcases List.mem_cons.1 hd with rfl | hd
      · exact step _ e e' (by simp) (by simp) hR.1 hr.1 (by simp [copyDims])
      · exact ih hR.2 hr.2 (fun d e e' h1 h2 h3 h4 h5 => step d e e' (by simp [h1]) (by simp [h2]) h3 h4 (by simp [copyDims, h5])) d hd

theorem writes_into {ls : List Loc} {es : List Ext} {R r : List (Int × Int)} {I i : List Int} (hl : es.length = ls.length)
    (h2 : r.length = ls.length) (h3 : I.length = ls.length) (h4 : i.length = ls.length)
    (hR : ZonesIn es R) {ys : List Int} (hw : Writes (copyDims ls R r I i) ys) : HasPt (mkShape es ls) ys := by
  induction ls generalizing es R r I i ys with
  | nil => cases es <;> cases ys <;> simp_all [copyDims, Writes, mkShape, HasPt]
  | cons l ls ih =>
    match es, R, r, I, i, hl, h2, h3, h4, hR, ys, hw with
    | e :: es, z :: R, _ :: r, _ :: I, _ :: i, hl, h2, h3, h4, hR, y :: ys, hw =>
      simp only [List.length_cons, Nat.add_right_cancel_iff] at hl h2 h3 h4
      exact ⟨CopyDim.into hR.1 hw.1, ih hl h2 h3 h4 hR.2 hw.2⟩

theorem writes_from {ls : List Loc} {es' : List Ext} {R r : List (Int × Int)} {I i : List Int} (hl : es'.length = ls.length)
    (h1 : R.length = ls.length) (h3 : I.length = ls.length) (h4 : i.length = ls.length)
    (hr : ZonesIn es' r) {ys : List Int} (hw : Writes (copyDims ls R r I i) ys) :
    HasPt (mkShape es' ls) (image (copyDims ls R r I i) ys) := by
  induction ls generalizing es' R r I i ys with
  | nil => cases es' <;> cases ys <;> simp_all [copyDims, Writes, mkShape, HasPt, image]
  | cons l ls ih =>
    match es', R, r, I, i, hl, h1, h3, h4, hr, ys, hw with
    | e :: es, _ :: R, z :: r, _ :: I, _ :: i, hl, h1, h3, h4, hr, y :: ys, hw =>
      simp only [List.length_cons, Nat.add_right_cancel_iff] at hl h1 h3 h4
      exact ⟨CopyDim.from_ hr.1 hw.1, ih hl h1 h3 h4 hr.2 hw.2⟩

theorem writes_apart {ds : List CopyDim} (h : ¬ ∀ d ∈ ds, d.Clash) {ys zs : List Int} (hy : Writes ds ys) (hz : Writes ds zs) :
    image ds ys ≠ zs := by
  induction ds generalizing ys zs with
  | nil => simp at h
  | cons d ds ih =>
    match ys, zs, hy, hz with
    | y :: ys, z :: zs, hy, hz =>
      intro e
      simp only [image, List.cons.injEq] at e
      by_cases c : d.Clash
      · exact ih (fun h' => h (by simp only [List.forall_mem_cons]; exact ⟨c, h'⟩)) hy.2 hz.2 e.2
      · exact CopyDim.apart c hy.1 hz.1 e.1

theorem takes_iff {ds : List CopyDim} (h : ∀ d ∈ ds, d.Meets) (ys : List Int) : Takes ds ys ↔ Writes ds ys := by
  induction ds generalizing ys with
  | nil => cases ys <;> rfl
  | cons d ds ih =>
    cases ys with
    | nil => rfl
    | cons y ys =>
      simp only [Takes, Writes]
      rw [CopyDim.takes_iff (h d (by simp)), ih (fun d hd => h d (by simp [hd]))]

/-! ## the overloads -/

/-- the last index of a zone and the next one are representable -/
def EdgeFits (z : Int × Int) : Prop := InI32 (z.1 + z.2) ∧ InI32 (z.1 + z.2 - 1)

theorem ZoneIn.edge {e : Ext} {z : Int × Int} (hz : ZoneIn e z) (he : e.n + e.i + e.p + 1 < 2147483648) : EdgeFits z := by
  unfold ZoneIn at hz; unfold EdgeFits; unfold InI32; omega

theorem ZoneIn.tag (e : Ext) (t : RA) : ZoneIn e (tagBegin e.n e.i t, tagEnd e.i e.p t - tagBegin e.n e.i t) := by
  unfold ZoneIn; cases t <;> simp [tagBegin, tagEnd] <;> omega

theorem ZonesIn.tags {es : List Ext} {ts : List RA} (h : ts.length = es.length) : ZonesIn es (tagZones es ts) := by
  induction es generalizing ts with
  | nil => cases ts <;> simp_all [tagZones, ZonesIn]
  | cons e es ih =>
    cases ts with
    | nil => simp at h
    | cons t ts => exact ⟨ZoneIn.tag e t, ih (by simpa using h)⟩

theorem ZonesIn.len {es : List Ext} {zs : List (Int × Int)} (h : ZonesIn es zs) : zs.length = es.length := by
  induction es generalizing zs with
  | nil => cases zs with
    | nil => rfl
    | cons => exact h.elim
  | cons e es ih => cases zs with
    | nil => exact h.elim
    | cons z zs => simp [ih h.2]

theorem edges_len {zs : List (Int × Int)} {fl : List Side} (h : fl.length = zs.length) : (edges zs fl).length = zs.length := by
  induction zs generalizing fl with
  | nil => cases fl <;> simp_all [edges]
  | cons z zs ih => cases fl with
    | nil => simp at h
    | cons f fl => simp [edges, ih (by simpa using h)]

theorem bound_1 {x : Out Int} {z : Int × Int} (fl : Side) {y : Out Int} (hN : x = .ok z.1) (hP : y = i32 (z.1 + z.2) >>= fun e => i32 (e - 1)) :
    ((match fl with | .N => x | .P => y) = .ok (edge z fl)) ∨ ((match fl with | .N => x | .P => y) = .ub .overflow ∧ ¬ EdgeFits z) := by
  cases fl with
  | N => exact .inl hN
  | P =>
    subst hP
    by_cases c : InI32 (z.1 + z.2)
    · by_cases c1 : InI32 (z.1 + z.2 - 1)
      · left; simp only [i32_ok c, Out.ok_bind, i32_ok c1]; rfl
      · right; refine ⟨?_, fun h => c1 h.2⟩
        simp only [i32_ok c, Out.ok_bind, i32_bad c1]
    · right; refine ⟨?_, fun h => c h.1⟩
      simp only [i32_bad c]; rfl

theorem D1.RangeT.bound_step (chk : Bool) (z : Int × Int) (fl : Side) :
    (RangeT.bound chk ⟨z.1, z.2⟩ 0 fl = .ok (edge z fl)) ∨ (RangeT.bound chk ⟨z.1, z.2⟩ 0 fl = .ub .overflow ∧ ¬ EdgeFits z) := by
  have := bound_1 (z := z) fl (begin_0 chk ⟨z.1, z.2⟩) (last_0 chk ⟨z.1, z.2⟩)
  cases fl <;> exact this
theorem D2.RangeT.bound_step0 (chk : Bool) (z z1 : Int × Int) (fl : Side) :
    (RangeT.bound chk ⟨z.1, z.2, z1.1, z1.2⟩ 0 fl = .ok (edge z fl)) ∨ (RangeT.bound chk ⟨z.1, z.2, z1.1, z1.2⟩ 0 fl = .ub .overflow ∧ ¬ EdgeFits z) := by
  have := bound_1 (z := z) fl (begin_0 chk ⟨z.1, z.2, z1.1, z1.2⟩) (last_0 chk ⟨z.1, z.2, z1.1, z1.2⟩)
  cases fl <;> exact this
theorem D2.RangeT.bound_step1 (chk : Bool) (z0 z : Int × Int) (fl : Side) :
    (RangeT.bound chk ⟨z0.1, z0.2, z.1, z.2⟩ 1 fl = .ok (edge z fl)) ∨ (RangeT.bound chk ⟨z0.1, z0.2, z.1, z.2⟩ 1 fl = .ub .overflow ∧ ¬ EdgeFits z) := by
  have := bound_1 (z := z) fl (begin_1 chk ⟨z0.1, z0.2, z.1, z.2⟩) (last_1 chk ⟨z0.1, z0.2, z.1, z.2⟩)
  cases fl <;> exact this
theorem D3.RangeT.bound_step0 (chk : Bool) (z z1 z2 : Int × Int) (fl : Side) :
    (RangeT.bound chk ⟨z.1, z.2, z1.1, z1.2, z2.1, z2.2⟩ 0 fl = .ok (edge z fl)) ∨
    (RangeT.bound chk ⟨z.1, z.2, z1.1, z1.2, z2.1, z2.2⟩ 0 fl = .ub .overflow ∧ ¬ EdgeFits z) := by
  have := bound_1 (z := z) fl (begin_0 chk ⟨z.1, z.2, z1.1, z1.2, z2.1, z2.2⟩) (last_0 chk ⟨z.1, z.2, z1.1, z1.2, z2.1, z2.2⟩)
  cases fl <;> exact this
theorem D3.RangeT.bound_step1 (chk : Bool) (z0 z z2 : Int × Int) (fl : Side) :
    (RangeT.bound chk ⟨z0.1, z0.2, z.1, z.2, z2.1, z2.2⟩ 1 fl = .ok (edge z fl)) ∨
    (RangeT.bound chk ⟨z0.1, z0.2, z.1, z.2, z2.1, z2.2⟩ 1 fl = .ub .overflow ∧ ¬ EdgeFits z) := by
  have := bound_1 (z := z) fl (begin_1 chk ⟨z0.1, z0.2, z.1, z.2, z2.1, z2.2⟩) (last_1 chk ⟨z0.1, z0.2, z.1, z.2, z2.1, z2.2⟩)
  cases fl <;> exact this
theorem D3.RangeT.bound_step2 (chk : Bool) (z0 z1 z : Int × Int) (fl : Side) :
    (RangeT.bound chk ⟨z0.1, z0.2, z1.1, z1.2, z.1, z.2⟩ 2 fl = .ok (edge z fl)) ∨
    (RangeT.bound chk ⟨z0.1, z0.2, z1.1, z1.2, z.1, z.2⟩ 2 fl = .ub .overflow ∧ ¬ EdgeFits z) := by
  have := bound_1 (z := z) fl (begin_2 chk ⟨z0.1, z0.2, z1.1, z1.2, z.1, z.2⟩) (last_2 chk ⟨z0.1, z0.2, z1.1, z1.2, z.1, z.2⟩)
  cases fl <;> exact this

theorem edge_tag (e : Ext) (t : RA) (fl : Side) :
    edge (tagBegin e.n e.i t, tagEnd e.i e.p t - tagBegin e.n e.i t) fl =
      match fl with | .N => tagBegin e.n e.i t | .P => tagEnd e.i e.p t - 1 := by
  cases fl <;> simp [edge]

/-- the sizes of an allocated array -/
inductive Sized : Obj → List Ext → Prop
  | d1 {o e0} (h : o.size = D1.sz e0) (h0 : e0.Fits) : Sized (.d1 o) [e0]
  | d2 {o e0 e1} (h : o.size = D2.sz e0 e1) (h0 : e0.Fits) (h1 : e1.Fits) : Sized (.d2 o) [e0, e1]
  | d3 {o e0 e1 e2} (h : o.size = D3.sz e0 e1 e2) (h0 : e0.Fits) (h1 : e1.Fits) (h2 : e2.Fits) : Sized (.d3 o) [e0, e1, e2]

theorem ObjReady.sized {k : Kind} {es : List Ext} {o : Obj} {h : Heap V} {B : Nat} {c : Nat → Option V}
    (r : ObjReady k es o h B c) (f : ShapeFits k.N (mkShape es k.locs)) : Sized o es := by
  cases r with
  | @d1 _ L0 e0 _ _ _ _ r => exact .d1 r.size (fitsExt f (d := ⟨e0, L0⟩) (by simp [mkShape]))
  | @d2 _ L0 L1 e0 e1 _ _ _ _ _ r =>
    exact .d2 r.size (fitsExt f (d := ⟨e0, L0⟩) (by simp [mkShape])) (fitsExt f (d := ⟨e1, L1⟩) (by simp [mkShape]))
  | @d3 _ L0 L1 L2 e0 e1 e2 _ _ _ _ _ _ r =>
    exact .d3 r.size (fitsExt f (d := ⟨e0, L0⟩) (by simp [mkShape])) (fitsExt f (d := ⟨e1, L1⟩) (by simp [mkShape]))
      (fitsExt f (d := ⟨e2, L2⟩) (by simp [mkShape]))

theorem D1.sz_bound (chk : Bool) (e0 : Ext) (h : e0.Fits) (t : RA) (fl : Side) :
    (sz e0).bound chk 0 t fl = .ok (edge (tagBegin e0.n e0.i t, tagEnd e0.i e0.p t - tagBegin e0.n e0.i t) fl) := by
  obtain ⟨h1, -, -, h2⟩ := sz_acc_0 chk e0 h t
  rw [edge_tag]; cases fl; exacts [h1, h2]
theorem D2.sz_bound0 (chk : Bool) (e0 e1 : Ext) (h : e0.Fits) (t : RA) (fl : Side) :
    (sz e0 e1).bound chk 0 t fl = .ok (edge (tagBegin e0.n e0.i t, tagEnd e0.i e0.p t - tagBegin e0.n e0.i t) fl) := by
  obtain ⟨h1, -, -, h2⟩ := sz_acc_0 chk e0 e1 h t
  rw [edge_tag]; cases fl; exacts [h1, h2]
theorem D2.sz_bound1 (chk : Bool) (e0 e1 : Ext) (h : e1.Fits) (t : RA) (fl : Side) :
    (sz e0 e1).bound chk 1 t fl = .ok (edge (tagBegin e1.n e1.i t, tagEnd e1.i e1.p t - tagBegin e1.n e1.i t) fl) := by
  obtain ⟨h1, -, -, h2⟩ := sz_acc_1 chk e0 e1 h t
  rw [edge_tag]; cases fl; exacts [h1, h2]
theorem D3.sz_bound0 (chk : Bool) (e0 e1 e2 : Ext) (h : e0.Fits) (t : RA) (fl : Side) :
    (sz e0 e1 e2).bound chk 0 t fl = .ok (edge (tagBegin e0.n e0.i t, tagEnd e0.i e0.p t - tagBegin e0.n e0.i t) fl) := by
  obtain ⟨h1, -, -, h2⟩ := sz_acc_0 chk e0 e1 e2 h t
  rw [edge_tag]; cases fl; exacts [h1, h2]
theorem D3.sz_bound1 (chk : Bool) (e0 e1 e2 : Ext) (h : e1.Fits) (t : RA) (fl : Side) :
    (sz e0 e1 e2).bound chk 1 t fl = .ok (edge (tagBegin e1.n e1.i t, tagEnd e1.i e1.p t - tagBegin e1.n e1.i t) fl) := by
  obtain ⟨h1, -, -, h2⟩ := sz_acc_1 chk e0 e1 e2 h t
  rw [edge_tag]; cases fl; exacts [h1, h2]
theorem D3.sz_bound2 (chk : Bool) (e0 e1 e2 : Ext) (h : e2.Fits) (t : RA) (fl : Side) :
    (sz e0 e1 e2).bound chk 2 t fl = .ok (edge (tagBegin e2.n e2.i t, tagEnd e2.i e2.p t - tagBegin e2.n e2.i t) fl) := by
  obtain ⟨h1, -, -, h2⟩ := sz_acc_2 chk e0 e1 e2 h t
  rw [edge_tag]; cases fl; exacts [h1, h2]

theorem step_or {σ α β : Type} {Q : Res σ β → Prop} {x : Out α} {a : α} {u : UB} {B : Prop} {f : α → M σ β} {s : σ}
    (hx : x = .ok a ∨ (x = .ub u ∧ B)) (h1 : Q (f a s)) (h2 : B → Q (.ub u)) : Q ((liftM x >>= f) s) := by
  rcases hx with h | ⟨h, b⟩
  · exact ok_step h h1
  · exact ub_step h (h2 b)

/-- every overload is the first one with the zones and anchors of `copyPlan` -/
theorem Obj.copy_plan (chk : Bool) {k : Kind} {es es' : List Ext} {o pd : Obj} (t : Typed k o) (t' : Typed k pd)
    (z : Sized o es) (z' : Sized pd es') (same : Bool) {args : Obj.CopyArgs} (hl : argsLen k.locs.length args) (h : Heap V)
    {Q : Res (Heap V) Unit → Prop}
    (good : Q (Obj.copy chk k o pd same (.ranges (copyPlan es es' args).R (copyPlan es es' args).r
      (copyPlan es es' args).I (copyPlan es es' args).i) h))
    (bad : ¬ ((∀ z ∈ (copyPlan es es' args).R, EdgeFits z) ∧ ∀ z ∈ (copyPlan es es' args).r, EdgeFits z) → Q (.ub .overflow)) :
    Q (Obj.copy chk k o pd same args h) := by
  cases args with
  | ranges R r I i => exact good
  | tags R r I i =>
    obtain ⟨l1, l2, l3, l4⟩ := hl
    cases z with
    | @d1 o e0 hz h0 =>
      cases t; cases t'; cases z'; rename_i pd e0' h0' hz'
      match R, r, I, i, l1, l2, l3, l4 with
      | [R0], [r0], [I0], [i0], _, _, _, _ =>
        simp only [Obj.copy, D1.PD.copy_from_tag, hz, hz']
        refine ok_step (D1.sz_range chk e0 h0 R0) (ok_step (D1.sz_range chk e0' h0' r0) ?_)
        exact good
    | @d2 o e0 e1 hz h0 h1 =>
      cases t; cases t'; cases z'; rename_i pd e0' e1' h0' h1' hz'
      match R, r, I, i, l1, l2, l3, l4 with
      | [R0, R1], [r0, r1], [I0, I1], [i0, i1], _, _, _, _ =>
        simp only [Obj.copy, D2.PD.copy_from_tag, hz, hz']
        refine ok_step (D2.sz_range chk e0 e1 h0 h1 R0 R1) (ok_step (D2.sz_range chk e0' e1' h0' h1' r0 r1) ?_)
        exact good
    | @d3 o e0 e1 e2 hz h0 h1 h2 =>
      cases t; cases t'; cases z'; rename_i pd e0' e1' e2' h0' h1' h2' hz'
      match R, r, I, i, l1, l2, l3, l4 with
      | [R0, R1, R2], [r0, r1, r2], [I0, I1, I2], [i0, i1, i2], _, _, _, _ =>
        simp only [Obj.copy, D3.PD.copy_from_tag, hz, hz']
        refine ok_step (D3.sz_range chk e0 e1 e2 h0 h1 h2 R0 R1 R2) (ok_step (D3.sz_range chk e0' e1' e2' h0' h1' h2' r0 r1 r2) ?_)
        exact good
  | tagsFl R r fl =>
    obtain ⟨l1, l2, l3⟩ := hl
    cases z with
    | @d1 o e0 hz h0 =>
      cases t; cases t'; cases z'; rename_i pd e0' h0' hz'
      match R, r, fl, l1, l2, l3 with
      | [R0], [r0], [f0], _, _, _ =>
        simp only [Obj.copy, D1.PD.copy_from_tag_fl, hz, hz']
        refine ok_step (D1.sz_range chk e0 h0 R0) (ok_step (D1.sz_range chk e0' h0' r0) ?_)
        refine ok_step (D1.sz_bound chk e0 h0 R0 f0) (ok_step (D1.sz_bound chk e0' h0' r0 f0) ?_)
        exact good
    | @d2 o e0 e1 hz h0 h1 =>
      cases t; cases t'; cases z'; rename_i pd e0' e1' h0' h1' hz'
      match R, r, fl, l1, l2, l3 with
      | [R0, R1], [r0, r1], [f0, f1], _, _, _ =>
        simp only [Obj.copy, D2.PD.copy_from_tag_fl, hz, hz']
        refine ok_step (D2.sz_range chk e0 e1 h0 h1 R0 R1) (ok_step (D2.sz_range chk e0' e1' h0' h1' r0 r1) ?_)
        refine ok_step (D2.sz_bound0 chk e0 e1 h0 R0 f0) (ok_step (D2.sz_bound1 chk e0 e1 h1 R1 f1) ?_)
        refine ok_step (D2.sz_bound0 chk e0' e1' h0' r0 f0) (ok_step (D2.sz_bound1 chk e0' e1' h1' r1 f1) ?_)
        exact good
    | @d3 o e0 e1 e2 hz h0 h1 h2 =>
      cases t; cases t'; cases z'; rename_i pd e0' e1' e2' h0' h1' h2' hz'
      match R, r, fl, l1, l2, l3 with
      | [R0, R1, R2], [r0, r1, r2], [f0, f1, f2], _, _, _ =>
        simp only [Obj.copy, D3.PD.copy_from_tag_fl, hz, hz']
        refine ok_step (D3.sz_range chk e0 e1 e2 h0 h1 h2 R0 R1 R2) (ok_step (D3.sz_range chk e0' e1' e2' h0' h1' h2' r0 r1 r2) ?_)
        refine ok_step (D3.sz_bound0 chk e0 e1 e2 h0 R0 f0) (ok_step (D3.sz_bound1 chk e0 e1 e2 h1 R1 f1)
          (ok_step (D3.sz_bound2 chk e0 e1 e2 h2 R2 f2) ?_))
        refine ok_step (D3.sz_bound0 chk e0' e1' e2' h0' r0 f0) (ok_step (D3.sz_bound1 chk e0' e1' e2' h1' r1 f1)
          (ok_step (D3.sz_bound2 chk e0' e1' e2' h2' r2 f2) ?_))
        exact good
  | rangesFl R r fl =>
    obtain ⟨l1, l2, l3⟩ := hl
    cases z with
    | @d1 o e0 hz h0 =>
      cases t; cases t'; cases z'; rename_i pd e0' h0' hz'
      match R, r, fl, l1, l2, l3 with
      | [R0], [r0], [f0], _, _, _ =>
        simp only [Obj.copy, D1.PD.copy_from_fl]
        simp only [copyPlan, List.forall_mem_cons, List.not_mem_nil, false_imp_iff, implies_true, and_true] at bad
        refine step_or (D1.RangeT.bound_step chk R0 f0) ?_ (fun b => bad fun h => b h.1)
        refine step_or (D1.RangeT.bound_step chk r0 f0) ?_ (fun b => bad fun h => b h.2)
        exact good
    | @d2 o e0 e1 hz h0 h1 =>
      cases t; cases t'; cases z'; rename_i pd e0' e1' h0' h1' hz'
      match R, r, fl, l1, l2, l3 with
      | [R0, R1], [r0, r1], [f0, f1], _, _, _ =>
        simp only [Obj.copy, D2.PD.copy_from_fl]
        simp only [copyPlan, List.forall_mem_cons, List.not_mem_nil, false_imp_iff, implies_true, and_true] at bad
        refine step_or (D2.RangeT.bound_step0 chk R0 R1 f0) ?_ (fun b => bad fun h => b h.1.1)
        refine step_or (D2.RangeT.bound_step1 chk R0 R1 f1) ?_ (fun b => bad fun h => b h.1.2)
        refine step_or (D2.RangeT.bound_step0 chk r0 r1 f0) ?_ (fun b => bad fun h => b h.2.1)
        refine step_or (D2.RangeT.bound_step1 chk r0 r1 f1) ?_ (fun b => bad fun h => b h.2.2)
        exact good
    | @d3 o e0 e1 e2 hz h0 h1 h2 =>
      cases t; cases t'; cases z'; rename_i pd e0' e1' e2' h0' h1' h2' hz'
      match R, r, fl, l1, l2, l3 with
      | [R0, R1, R2], [r0, r1, r2], [f0, f1, f2], _, _, _ =>
        simp only [Obj.copy, D3.PD.copy_from_fl]
        simp only [copyPlan, List.forall_mem_cons, List.not_mem_nil, false_imp_iff, implies_true, and_true] at bad
        refine step_or (D3.RangeT.bound_step0 chk R0 R1 R2 f0) ?_ (fun b => bad fun h => b h.1.1)
        refine step_or (D3.RangeT.bound_step1 chk R0 R1 R2 f1) ?_ (fun b => bad fun h => b h.1.2.1)
        refine step_or (D3.RangeT.bound_step2 chk R0 R1 R2 f2) ?_ (fun b => bad fun h => b h.1.2.2)
        refine step_or (D3.RangeT.bound_step0 chk r0 r1 r2 f0) ?_ (fun b => bad fun h => b h.2.1)
        refine step_or (D3.RangeT.bound_step1 chk r0 r1 r2 f1) ?_ (fun b => bad fun h => b h.2.2.1)
        refine step_or (D3.RangeT.bound_step2 chk r0 r1 r2 f2) ?_ (fun b => bad fun h => b h.2.2.2)
        exact good

theorem tagZones_len {es : List Ext} {ts : List RA} (h : ts.length = es.length) : (tagZones es ts).length = es.length :=
  ZonesIn.len (ZonesIn.tags h)

/-- one zone and one anchor per dimension -/
theorem copyPlan_len {d : Nat} {es es' : List Ext} (h : es.length = d) (h' : es'.length = d) {args : Obj.CopyArgs}
    (hl : argsLen d args) :
    (copyPlan es es' args).R.length = d ∧ (copyPlan es es' args).r.length = d ∧
    (copyPlan es es' args).I.length = d ∧ (copyPlan es es' args).i.length = d := by
  cases args with
  | ranges R r I i => exact hl
  | tags R r I i =>
    obtain ⟨l1, l2, l3, l4⟩ := hl
    exact ⟨by simp only [copyPlan]; rw [tagZones_len (by omega), h], by simp only [copyPlan]; rw [tagZones_len (by omega), h'], l3, l4⟩
  | rangesFl R r fl =>
    obtain ⟨l1, l2, l3⟩ := hl
    exact ⟨l1, l2, by simp only [copyPlan]; rw [edges_len (by omega), l1], by simp only [copyPlan]; rw [edges_len (by omega), l2]⟩
  | tagsFl R r fl =>
    obtain ⟨l1, l2, l3⟩ := hl
    have e1 : (tagZones es R).length = d := by rw [tagZones_len (by omega), h]
    have e2 : (tagZones es' r).length = d := by rw [tagZones_len (by omega), h']
    exact ⟨e1, e2, by simp only [copyPlan]; rw [edges_len (by omega), e1], by simp only [copyPlan]; rw [edges_len (by omega), e2]⟩

theorem zones_edge {es : List Ext} {zs : List (Int × Int)} (h : ZonesIn es zs) (hd : DimsFit es) : ∀ z ∈ zs, EdgeFits z := by
  induction es generalizing zs with
  | nil => cases zs with
    | nil => simp
    | cons => exact h.elim
  | cons e es ih => cases zs with
    | nil => exact h.elim
    | cons z zs =>
      simp only [List.forall_mem_cons]
      exact ⟨ZoneIn.edge h.1 (hd e (by simp)), ih h.2 (fun e he => hd e (by simp [he]))⟩

/-- the outcome of a copy inside the contract -/
theorem Obj.copy_ok (chk : Bool) {k : Kind} {es es' : List Ext} {o pd : Obj} {h : Heap V} {B B' : Nat} {c c' : Nat → Option V}
    (r : ObjReady k es o h B c) (r' : ObjReady k es' pd h B' c') {same : Bool} (ap : if same then o = pd ∧ es = es' else B ∉ pd.own)
    (fits : ShapeFits k.N (mkShape es k.locs)) (fits' : ShapeFits k.N (mkShape es' k.locs)) (hN : k.N < 4294967296)
    {args : Obj.CopyArgs} (ok : CopyOk k es es' args) :
    let ds := (copyPlan es es' args).dims k
    (¬ (∀ d ∈ ds, d.Over) → chk = true → Obj.copy chk k o pd same args h = .err .overlapNotFound h) ∧
    ((∀ d ∈ ds, d.Over) → same = true → (∀ d ∈ ds, d.Clash) → chk = true → Obj.copy chk k o pd same args h = .err .copyOverlap h) ∧
    ((∀ d ∈ ds, d.Over) → (same = true → ¬ ∀ d ∈ ds, d.Clash) →
      ∃ h' c1, Obj.copy chk k o pd same args h = .ok () h' ∧ ObjReady k es o h' B c1 ∧
        h'.next = h.next ∧ h'.mem = h.mem ∧ (∀ b, b ≠ B → h'.blk b = h.blk b) ∧
        ∀ n < k.N, ∀ ys, HasPt (mkShape es k.locs) ys →
          c1 (n * points (mkShape es k.locs) + offset (mkShape es k.locs) ys) =
            if Writes ds ys then c' (n * points (mkShape es' k.locs) + offset (mkShape es' k.locs) (image ds ys))
            else c (n * points (mkShape es k.locs) + offset (mkShape es k.locs) ys)) := by
  intro ds
  obtain ⟨hl, hR, hr, ha⟩ := ok
  obtain ⟨l1, l2, l3, l4⟩ := copyPlan_len r.len r'.len hl
  have df := dimsFit_of (k := k) ⟨r.len, fits⟩
  have df' := dimsFit_of (k := k) ⟨r'.len, fits'⟩
  have f1 : ∀ d ∈ ds, d.Fits1 := copy_all hR hr _ fun d e e' he he' zR zr hd => CopyDim.fits1 zR (df e he) (ha d hd)
  have f2 : (∀ d ∈ ds, d.Over) → ∀ d ∈ ds, d.Fits2 := fun ho =>
    copy_all hR hr _ fun d e e' he he' zR zr hd => CopyDim.fits2 zR (df e he) zr (ho d hd)
  have hw : (∀ d ∈ ds, d.Over) → ∀ d ∈ ds, 0 ≤ d.wid := fun ho =>
    copy_all hR hr _ fun d e e' he he' zR zr hd => CopyDim.wid_nonneg zR zr (ho d hd)
  have key : ∀ Q : Res (Heap V) Unit → Prop,
      ((chk = true → ∀ d ∈ ds, d.Over) → ¬ (∀ d ∈ ds, d.Fits2) → Q (.ub .overflow)) →
      (chk = true → ¬ (∀ d ∈ ds, d.Over) → Q (.err .overlapNotFound h)) →
      (chk = true → (∀ d ∈ ds, d.Over) → same = true → (∀ d ∈ ds, d.Clash) → Q (.err .copyOverlap h)) →
      ((chk = true → ∀ d ∈ ds, d.Over) → (chk = true → same = true → ¬ (∀ d ∈ ds, d.Clash)) → Q (Obj.copyLoops k o pd ds h)) →
      Q (Obj.copy chk k o pd same args h) := by
    intro Q b2 e1 e2 run
    refine Obj.copy_plan chk r.typed r'.typed (r.sized fits) (r'.sized fits') same hl h ?_
      (fun hn => (hn ⟨zones_edge hR df, zones_edge hr df'⟩).elim)
    exact Obj.copy_elim chk r.typed r'.typed same l1 l2 l3 l4 h (fun hn => (hn f1).elim) b2 e1 e2 run
  refine ⟨?_, ?_, ?_⟩
  · intro ho hc
    refine key (fun x => x = _) ?_ ?_ ?_ ?_
    · intro h; exact (ho (h hc)).elim
    · intros; rfl
    · intro _ h; exact (ho h).elim
    · intro h; exact (ho (h hc)).elim
  · intro ho hs hcl hc
    refine key (fun x => x = _) ?_ ?_ ?_ ?_
    · intro _ h; exact (h (f2 ho)).elim
    · intro _ h; exact (h ho).elim
    · intros; rfl
    · intro _ h; exact (h hc hs hcl).elim
  · intro ho hcl
    have eq : Obj.copy chk k o pd same args h = Obj.copyLoops k o pd ds h := by
      refine key (fun x => x = _) ?_ ?_ ?_ ?_
      · intro _ h; exact (h (f2 ho)).elim
      · intro _ h; exact (h ho).elim
      · intro _ _ hs h; exact (hcl hs h).elim
      · intros; rfl
    rw [eq]
    clear eq
    have hsame : o = pd → same = true ∧ es = es' := by
      intro e
      cases same with
      | true => simp only [if_true] at ap; exact ⟨rfl, ap.2⟩
      | false =>
        simp only [Bool.false_eq_true, if_false] at ap
        exact (ap (e ▸ r.mem_own)).elim
    refine Obj.copyLoops_run r r' ?_ fits' hN (copyDims_len l1 l2 l3 l4) (hw ho)
      (fun ys hy => writes_into r.len l2 l3 l4 hR hy) (fun ys hy => writes_from r'.len l1 l3 l4 hr hy) ?_
    · cases same with
      | true => simp only [if_true] at ap; exact .inl ap.1
      | false => simp only [Bool.false_eq_true, if_false] at ap; exact .inr ap
    · intro e
      exact ⟨(hsame e).2, fun ys zs hy hz => writes_apart (hcl (hsame e).1) hy hz⟩

end Verif
