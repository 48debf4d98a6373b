import Verif.Spec.CopyAll
import Verif.Proof.CopyProps
import Verif.Proof.Quiet
/-!
# `copy_from` without checks, zones that need not meet; copies inside one array
-/
namespace Verif
open Spec
variable {V : Type} {mem : Nat → Nat → Bool} {w : World V} {aw : AWorld V} {L : List Nat}

theorem Quiet.padd (p : Ptr) (i : Int) : Quiet (Heap.padd p i : M (Heap V) _) := by
  intro s e s' h
  unfold Heap.padd at h
  repeat' split at h
  all_goals exact nomatch h

theorem Quiet.lval (p : Ptr) : Quiet (Heap.lval p : M (Heap V) _) := by
  intro s e s' h
  unfold Heap.lval at h
  repeat' split at h
  all_goals exact nomatch h

theorem Quiet.idx (p : Ptr) (i : Int) : Quiet (Heap.idx p i : M (Heap V) Ptr) :=
  (Quiet.padd p i).bind fun _ => Quiet.lval _

theorem Quiet.loadV (p : Ptr) : Quiet (Heap.loadV p : M (Heap V) _) := by
  intro s e s' h
  unfold Heap.loadV at h
  repeat' split at h
  all_goals exact nomatch h

theorem Quiet.loadP (p : Ptr) : Quiet (Heap.loadP p : M (Heap V) _) := by
  intro s e s' h
  unfold Heap.loadP at h
  repeat' split at h
  all_goals exact nomatch h

theorem Quiet.storeV (p : Ptr) (v : Option V) : Quiet (Heap.storeV p v : M (Heap V) _) := by
  intro s e s' h
  unfold Heap.storeV at h
  repeat' split at h
  all_goals exact nomatch h

theorem D1.PD.elem_quiet (N : Nat) (o : D1.PD) (n : Nat) (i : Int) : Quiet (D1.PD.elem N o n i : M (Heap V) _) := by
  unfold D1.PD.elem D1.PD.pt0At
  split
  · exact (Quiet.pure _).bind fun _ => Quiet.idx _ _
  · exact (Quiet.undef _).bind fun _ => Quiet.idx _ _

theorem D2.PD.elem_quiet (N : Nat) (o : D2.PD) (n : Nat) (i j : Int) : Quiet (D2.PD.elem N o n i j : M (Heap V) _) := by
  unfold D2.PD.elem D2.PD.pt0At
  split
  · exact (Quiet.pure _).bind fun _ => (Quiet.idx _ _).bind fun _ => (Quiet.loadP _).bind fun _ => Quiet.idx _ _
  · exact (Quiet.undef _).bind fun _ => (Quiet.idx _ _).bind fun _ => (Quiet.loadP _).bind fun _ => Quiet.idx _ _

theorem D3.PD.elem_quiet (N : Nat) (o : D3.PD) (n : Nat) (i j k : Int) : Quiet (D3.PD.elem N o n i j k : M (Heap V) _) := by
  unfold D3.PD.elem D3.PD.pt0At
  split
  · exact (Quiet.pure _).bind fun _ => (Quiet.idx _ _).bind fun _ => (Quiet.loadP _).bind fun _ => (Quiet.idx _ _).bind fun _ =>
      (Quiet.loadP _).bind fun _ => Quiet.idx _ _
  · exact (Quiet.undef _).bind fun _ => (Quiet.idx _ _).bind fun _ => (Quiet.loadP _).bind fun _ => (Quiet.idx _ _).bind fun _ =>
      (Quiet.loadP _).bind fun _ => Quiet.idx _ _

theorem D1.PD.copyElem_quiet (N : Nat) (o pd : D1.PD) (n : Nat) (x a : Int) : Quiet (D1.PD.copyElem N o pd n x a : M (Heap V) _) :=
  (Quiet.i32 _).bind fun _ => (D1.PD.elem_quiet _ _ _ _).bind fun _ => (Quiet.loadV _).bind fun _ => (D1.PD.elem_quiet _ _ _ _).bind fun _ => Quiet.storeV _ _

theorem D2.PD.copyElem_quiet (N : Nat) (o pd : D2.PD) (n : Nat) (x y a b : Int) : Quiet (D2.PD.copyElem N o pd n x y a b : M (Heap V) _) :=
  (Quiet.i32 _).bind fun _ => (Quiet.i32 _).bind fun _ => (D2.PD.elem_quiet _ _ _ _ _).bind fun _ => (Quiet.loadV _).bind fun _ =>
    (D2.PD.elem_quiet _ _ _ _ _).bind fun _ => Quiet.storeV _ _

theorem D3.PD.copyElem_quiet (N : Nat) (o pd : D3.PD) (n : Nat) (x y z a b g : Int) : Quiet (D3.PD.copyElem N o pd n x y z a b g : M (Heap V) _) :=
  (Quiet.i32 _).bind fun _ => (Quiet.i32 _).bind fun _ => (Quiet.i32 _).bind fun _ => (D3.PD.elem_quiet _ _ _ _ _ _).bind fun _ => (Quiet.loadV _).bind fun _ =>
    (D3.PD.elem_quiet _ _ _ _ _ _).bind fun _ => Quiet.storeV _ _

/-! ## the first dimension without common points decides -/

theorem Spec.CopyDim.span_eq (d : CopyDim) : d.wid = d.span := by unfold CopyDim.wid CopyDim.span; omega

theorem gap_cons (d : CopyDim) (ds : List CopyDim) : Gap (d :: ds) ↔ d.span < 0 ∨ (0 < d.span ∧ Gap ds) := by
  constructor
  · rintro ⟨pre, a, post, h, hp, ha⟩
    cases pre with
    | nil => cases h; exact .inl ha
    | cons b pre =>
      cases h
      exact .inr ⟨hp _ (by simp), pre, a, post, rfl, fun a ha => hp a (by simp [ha]), ha⟩
  · rintro (h | ⟨h, pre, a, post, rfl, hp, ha⟩)
    · exact ⟨[], d, ds, rfl, by simp, h⟩
    · exact ⟨d :: pre, a, post, rfl, by simpa [h] using hp, ha⟩

theorem touch_cons (d : CopyDim) (ds : List CopyDim) : Touch (d :: ds) ↔ d.span = 0 ∨ (0 < d.span ∧ Touch ds) := by
  constructor
  · rintro ⟨pre, a, post, h, hp, ha⟩
    cases pre with
    | nil => cases h; exact .inl ha
    | cons b pre =>
      cases h
      exact .inr ⟨hp _ (by simp), pre, a, post, rfl, fun a ha => hp a (by simp [ha]), ha⟩
  · rintro (h | ⟨h, pre, a, post, rfl, hp, ha⟩)
    · exact ⟨[], d, ds, rfl, by simp, h⟩
    · exact ⟨d :: pre, a, post, rfl, by simpa [h] using hp, ha⟩

theorem not_gap_nil : ¬ Gap [] := by rintro ⟨pre, a, post, h, -⟩; cases pre <;> cases h
theorem not_touch_nil : ¬ Touch [] := by rintro ⟨pre, a, post, h, -⟩; cases pre <;> cases h

theorem span_pos {ds : List CopyDim} (h1 : ¬ Gap ds) (h2 : ¬ Touch ds) : ∀ d ∈ ds, 0 < d.span := by
  induction ds with
  | nil => simp
  | cons d ds ih =>
    rw [gap_cons] at h1
    rw [touch_cons] at h2
    have hd : 0 < d.span := by
      rcases Int.lt_trichotomy d.span 0 with h | h | h
      · exact (h1 (.inl h)).elim
      · exact (h2 (.inl h)).elim
      · exact h
    simp only [List.forall_mem_cons]
    exact ⟨hd, ih (fun h => h1 (.inr ⟨hd, h⟩)) (fun h => h2 (.inr ⟨hd, h⟩))⟩

theorem Obj.copyLoops_gap {k : Kind} {o pd : Obj} (t : Typed k o) (t' : Typed k pd) {ds : List CopyDim} (hl : ds.length = k.locs.length)
    (g : Gap ds) (h : Heap V) : ∃ u, Obj.copyLoops k o pd ds h = .ub u := by
  cases t with
  | @d1 N L0 o =>
    cases t'; rename_i pd
    match ds, hl with
    | [a], _ =>
      simp only [gap_cons, not_gap_nil, and_false, or_false] at g
      simp only [Obj.copyLoops, CopyDim.span_eq]
      exact forI_ub (by omega) (fun _ => Quiet.forU (fun _ => D1.PD.copyElem_quiet _ _ _ _ _ _) _ _) _
  | @d2 N L0 L1 o =>
    cases t'; rename_i pd
    match ds, hl with
    | [a, b], _ =>
      simp only [gap_cons, not_gap_nil, and_false, or_false] at g
      simp only [Obj.copyLoops, CopyDim.span_eq]
      have q := fun (x y : Int) => Quiet.forU (fun n => D2.PD.copyElem_quiet (V := V) N o pd n x y (a.i - a.I) (b.i - b.I)) 0 N
      rcases g with g | ⟨g0, g⟩
      · exact forI_ub (by omega) (fun x => Quiet.forI (q x) _ _) _
      · exact forI_first (by omega) (forI_ub (by omega) (q _) _)
  | @d3 N L0 L1 L2 o =>
    cases t'; rename_i pd
    match ds, hl with
    | [a, b, c], _ =>
      simp only [gap_cons, not_gap_nil, and_false, or_false] at g
      simp only [Obj.copyLoops, CopyDim.span_eq]
      have q := fun (x y z : Int) => Quiet.forU (fun n => D3.PD.copyElem_quiet (V := V) N o pd n x y z (a.i - a.I) (b.i - b.I) (c.i - c.I)) 0 N
      rcases g with g | ⟨g0, g | ⟨g1, g⟩⟩
      · exact forI_ub (by omega) (fun x => Quiet.forI (fun y => Quiet.forI (q x y) _ _) _ _) _
      · exact forI_first (by omega) (forI_ub (by omega) (fun y => Quiet.forI (q _ y) _ _) _)
      · exact forI_first (by omega) (forI_first (by omega) (forI_ub (by omega) (q _ _) _))

theorem Obj.copyLoops_touch {k : Kind} {o pd : Obj} (t : Typed k o) (t' : Typed k pd) {ds : List CopyDim} (hl : ds.length = k.locs.length)
    (g : Touch ds) (h : Heap V) : Obj.copyLoops k o pd ds h = .ok () h := by
  cases t with
  | @d1 N L0 o =>
    cases t'; rename_i pd
    match ds, hl with
    | [a], _ =>
      simp only [touch_cons, not_touch_nil, and_false, or_false] at g
      simp only [Obj.copyLoops, CopyDim.span_eq]
      exact forI_none (by omega) _ _
  | @d2 N L0 L1 o =>
    cases t'; rename_i pd
    match ds, hl with
    | [a, b], _ =>
      simp only [touch_cons, not_touch_nil, and_false, or_false] at g
      simp only [Obj.copyLoops, CopyDim.span_eq]
      rcases g with g | ⟨g0, g⟩
      · exact forI_none (by omega) _ _
      · exact forI_still (by omega) fun _ => forI_none (by omega) _ _
  | @d3 N L0 L1 L2 o =>
    cases t'; rename_i pd
    match ds, hl with
    | [a, b, c], _ =>
      simp only [touch_cons, not_touch_nil, and_false, or_false] at g
      simp only [Obj.copyLoops, CopyDim.span_eq]
      rcases g with g | ⟨g0, g | ⟨g1, g⟩⟩
      · exact forI_none (by omega) _ _
      · exact forI_still (by omega) fun _ => forI_none (by omega) _ _
      · exact forI_still (by omega) fun _ => forI_still (by omega) fun _ => forI_none (by omega) _ _

/-! ## copies inside one array -/

/-- one assignment, on the values of all components -/
def copyStep (ds : List CopyDim) (f : Nat → List Int → Option V) (p : List Int × Nat) : Nat → List Int → Option V :=
  fun n ys => if n = p.2 ∧ ys = p.1 then f n (image ds p.1) else f n ys

theorem self_all {k : Kind} {es : List Ext} {o : Obj} {B : Nat} (fits : ShapeFits k.N (mkShape es k.locs)) {ds : List CopyDim}
    (hl : ds.length = k.locs.length) (l : List (List Int × Nat))
    (into : ∀ p ∈ l, HasPt (mkShape es k.locs) p.1 ∧ HasPt (mkShape es k.locs) (image ds p.1) ∧ p.2 < k.N)
    {h : Heap V} {c : Nat → Option V} (r : ObjReady k es o h B c) {f : Nat → List Int → Option V}
    (vals : ∀ n < k.N, ∀ ys, HasPt (mkShape es k.locs) ys → c (n * points (mkShape es k.locs) + offset (mkShape es k.locs) ys) = f n ys) :
    ∃ h' c', runAll (fun p => Obj.copyElem k o o ds p.2 p.1) l h = .ok () h' ∧ ObjReady k es o h' B c' ∧
      h'.next = h.next ∧ h'.mem = h.mem ∧ (∀ b, b ≠ B → h'.blk b = h.blk b) ∧
      ∀ n < k.N, ∀ ys, HasPt (mkShape es k.locs) ys → c' (n * points (mkShape es k.locs) + offset (mkShape es k.locs) ys) = l.foldl (copyStep ds) f n ys := by
  induction l generalizing h c f with
  | nil => exact ⟨h, c, rfl, r, rfl, rfl, fun _ _ => rfl, vals⟩
  | cons p l ih =>
    obtain ⟨p1, p2, hn⟩ := into p (by simp)
    have h1 : Obj.copyElem k o o ds p.2 p.1 h = .ok () (h.poke B (p.2 * points (mkShape es k.locs) + offset (mkShape es k.locs) p.1)
        (f p.2 (image ds p.1))) := by
      rw [Obj.copyElem_eq r.typed r.typed hl (by rw [HasPt.len p1, mkShape_len r.len]), if_pos (hasPt_int fits p2)]
      unfold Obj.move
      rw [M.bind_ok (Obj.elem_eq r hn p2), M.bind_ok (Heap.loadV_at r.blk (addr_lt hn p2)),
        M.bind_ok (Obj.elem_eq r hn p1), Heap.storeV_at r.blk (addr_lt hn p1), Heap.poke_vals r.blk, vals _ hn _ p2]
    obtain ⟨c1, r1⟩ := r.poke (p.2 * points (mkShape es k.locs) + offset (mkShape es k.locs) p.1) (f p.2 (image ds p.1))
    obtain ⟨f1, f2, f3⟩ := Heap.poke_frame h B (p.2 * points (mkShape es k.locs) + offset (mkShape es k.locs) p.1) (f p.2 (image ds p.1))
    obtain ⟨h', c', g1, g2, g3, g4, g5, g6⟩ := ih (fun q hq => into q (by simp [hq])) r1 (f := copyStep ds f p) (by
      intro n hn' ys hy
      rw [← Heap.cellAt_vals r1.blk, Heap.cellAt_poke r.blk, Heap.cellAt_vals r.blk]
      unfold copyStep
      by_cases e : n = p.2 ∧ ys = p.1
      · obtain ⟨rfl, rfl⟩ := e
        rw [if_pos ⟨rfl, rfl⟩, if_pos ⟨rfl, rfl⟩]
      · rw [if_neg e, if_neg, vals n hn' ys hy]
        rintro ⟨-, e'⟩
        exact e (addr_inj hy p1 e'))
    exact ⟨h', c', by rw [runAll_cons, M.bind_ok h1]; exact g1, g2, g3.trans f1, g4.trans f2, fun b hb => (g5 b hb).trans (f3 b hb), g6⟩

theorem copyStep_nats (ds : List CopyDim) (f : Nat → List Int → Option V) (p : List Int) {l : List Nat} (nd : l.Nodup) (n : Nat) (ys : List Int) :
    (l.map fun m => (p, m)).foldl (copyStep ds) f n ys =
      if n ∈ l then (if ys = p then f n (image ds p) else f n ys) else f n ys := by
  induction l generalizing f with
  | nil => simp
  | cons m l ih =>
    rw [List.nodup_cons] at nd
    rw [List.map_cons, List.foldl_cons, ih _ nd.2]
    unfold copyStep
    by_cases e : n = m
    · subst e
      simp [nd.1]
    · simp [e]

theorem copyStep_pairs (ds : List CopyDim) (f : Nat → List Int → Option V) (l : List (List Int)) {N n : Nat} (hn : n < N) (ys : List Int) :
    (pairs l (nats 0 N)).foldl (copyStep ds) f n ys = inTurn ds (f n) l ys := by
  induction l generalizing f with
  | nil => rfl
  | cons p l ih =>
    rw [pairs_cons, List.foldl_append, ih]
    unfold inTurn
    rw [List.foldl_cons]
    refine congrArg (fun g : List Int → Option V => l.foldl (fun f p ys => if ys = p then f (image ds p) else f ys) g ys) ?_
    funext zs
    rw [copyStep_nats ds f p (nats_nodup 0 N), if_pos (mem_nats.2 (by omega))]

theorem before_boxPts (ds : List CopyDim) : (boxPts ds).Pairwise Before := by
  induction ds with
  | nil => simp [boxPts]
  | cons d ds ih =>
    simp only [boxPts]
    have hs := ints_sorted d.lo d.wid.toNat
    revert hs
    generalize ints d.lo d.wid.toNat = l
    intro hs
    induction l with
    | nil => simp
    | cons a l ihl =>
      rw [List.pairwise_cons] at hs
      rw [List.flatMap_cons, List.pairwise_append]
      refine ⟨?_, ihl hs.2, ?_⟩
      · refine List.Pairwise.map _ ?_ ih
        intro x y hxy
        exact .inr ⟨rfl, hxy⟩
      · intro p hp q hq
        simp only [List.mem_map, List.mem_flatMap] at hp hq
        obtain ⟨x, -, rfl⟩ := hp
        obtain ⟨b, hb, y, -, rfl⟩ := hq
        exact .inl (hs.1 b hb)

/-! ## zones too far apart -/

theorem D1.PD.copy_from_far (N : Nat) (o pd : D1.PD) (same : Bool) (a : CopyDim) (h : Heap V) (hf : ¬ InI32 (a.hi - a.lo)) :
    ∃ u, D1.PD.copy_from false N a.loc o pd same ⟨a.R.1, a.R.2⟩ ⟨a.r.1, a.r.2⟩ a.I a.i h = .ub u := by
  unfold D1.PD.copy_from
  have bad : ∃ u, (Res.ub .overflow : Res (Heap V) Unit) = .ub u := ⟨_, rfl⟩
  refine i32_step (Q := fun r => ∃ u, r = .ub u) (fun _ => ?_) (fun _ => bad)
  refine arith_step (Q := fun r => ∃ u, r = .ub u) (D1.RangeT.tran_arith _ _) (fun q hq => ?_) (fun _ => bad)
  obtain ⟨-, rfl⟩ := (D1.RangeT.tran_eq_ok _ _ _).1 hq; clear hq
  refine D1.RangeT.overlap_step (Q := fun r => ∃ u, r = .ub u) (fun ov ho m => ?_) (fun hc m => (Bool.false_ne_true hc).elim) (fun _ => bad) (fun _ _ => bad)
  obtain ⟨-, -, hw, -⟩ := (D1.RangeT.overlap_rest_eq_ok false _ _ _).1 ho
  exact (hf hw).elim

theorem D2.PD.copy_from_far (N : Nat) (o pd : D2.PD) (same : Bool) (a b : CopyDim) (h : Heap V)
    (hf : ¬ (InI32 (a.hi - a.lo) ∧ InI32 (b.hi - b.lo))) :
    ∃ u, D2.PD.copy_from false N a.loc b.loc o pd same ⟨a.R.1, a.R.2, b.R.1, b.R.2⟩ ⟨a.r.1, a.r.2, b.r.1, b.r.2⟩ a.I b.I a.i b.i h = .ub u := by
  unfold D2.PD.copy_from
  have bad : ∃ u, (Res.ub .overflow : Res (Heap V) Unit) = .ub u := ⟨_, rfl⟩
  refine i32_step (Q := fun r => ∃ u, r = .ub u) (fun _ => ?_) (fun _ => bad)
  refine i32_step (Q := fun r => ∃ u, r = .ub u) (fun _ => ?_) (fun _ => bad)
  refine arith_step (Q := fun r => ∃ u, r = .ub u) (D2.RangeT.tran_arith _ _ _) (fun q hq => ?_) (fun _ => bad)
  obtain ⟨-, rfl⟩ := (D2.RangeT.tran_eq_ok _ _ _ _).1 hq; clear hq
  refine D2.RangeT.overlap_step (Q := fun r => ∃ u, r = .ub u) (fun ov ho m => ?_) (fun hc m => (Bool.false_ne_true hc).elim) (fun _ => bad) (fun _ _ => bad)
  obtain ⟨-, -, hw, -⟩ := (D2.RangeT.overlap_rest_eq_ok false _ _ _).1 ho
  exact (hf hw).elim

theorem D3.PD.copy_from_far (N : Nat) (o pd : D3.PD) (same : Bool) (a b g : CopyDim) (h : Heap V)
    (hf : ¬ (InI32 (a.hi - a.lo) ∧ InI32 (b.hi - b.lo) ∧ InI32 (g.hi - g.lo))) :
    ∃ u, D3.PD.copy_from false N a.loc b.loc g.loc o pd same ⟨a.R.1, a.R.2, b.R.1, b.R.2, g.R.1, g.R.2⟩
      ⟨a.r.1, a.r.2, b.r.1, b.r.2, g.r.1, g.r.2⟩ a.I b.I g.I a.i b.i g.i h = .ub u := by
  unfold D3.PD.copy_from
  have bad : ∃ u, (Res.ub .overflow : Res (Heap V) Unit) = .ub u := ⟨_, rfl⟩
  refine i32_step (Q := fun r => ∃ u, r = .ub u) (fun _ => ?_) (fun _ => bad)
  refine i32_step (Q := fun r => ∃ u, r = .ub u) (fun _ => ?_) (fun _ => bad)
  refine i32_step (Q := fun r => ∃ u, r = .ub u) (fun _ => ?_) (fun _ => bad)
  refine arith_step (Q := fun r => ∃ u, r = .ub u) (D3.RangeT.tran_arith _ _ _ _) (fun q hq => ?_) (fun _ => bad)
  obtain ⟨-, rfl⟩ := (D3.RangeT.tran_eq_ok _ _ _ _ _).1 hq; clear hq
  refine D3.RangeT.overlap_step (Q := fun r => ∃ u, r = .ub u) (fun ov ho m => ?_) (fun hc m => (Bool.false_ne_true hc).elim) (fun _ => bad) (fun _ _ => bad)
  obtain ⟨-, -, hw, -⟩ := (D3.RangeT.overlap_rest_eq_ok false _ _ _).1 ho
  exact (hf hw).elim

theorem Obj.copy_far {k : Kind} {o pd : Obj} (t : Typed k o) (t' : Typed k pd) (same : Bool)
    {R r : List (Int × Int)} {I i : List Int} (h1 : R.length = k.locs.length)
    (h2 : r.length = k.locs.length) (h3 : I.length = k.locs.length) (h4 : i.length = k.locs.length) (h : Heap V)
    (hf : Far (copyDims k.locs R r I i)) : ∃ u, Obj.copy false k o pd same (.ranges R r I i) h = .ub u := by
  have hf : ¬ ∀ d ∈ copyDims k.locs R r I i, InI32 (d.hi - d.lo) := by
    obtain ⟨d, hd, hlt⟩ := hf
    intro ha
    have := ha d hd
    unfold InI32 at this
    omega
  cases t with
  | @d1 N L0 o =>
    cases t'; rename_i pd
    match R, r, I, i, h1, h2, h3, h4 with
    | [R0], [r0], [I0], [i0], _, _, _, _ =>
      simp only [copyDims, List.forall_mem_cons, List.not_mem_nil, false_imp_iff, implies_true, and_true] at hf
      exact D1.PD.copy_from_far N o pd same ⟨L0, R0, r0, I0, i0⟩ h hf
  | @d2 N L0 L1 o =>
    cases t'; rename_i pd
    match R, r, I, i, h1, h2, h3, h4 with
    | [R0, R1], [r0, r1], [I0, I1], [i0, i1], _, _, _, _ =>
      simp only [copyDims, List.forall_mem_cons, List.not_mem_nil, false_imp_iff, implies_true, and_true] at hf
      exact D2.PD.copy_from_far N o pd same ⟨L0, R0, r0, I0, i0⟩ ⟨L1, R1, r1, I1, i1⟩ h hf
  | @d3 N L0 L1 L2 o =>
    cases t'; rename_i pd
    match R, r, I, i, h1, h2, h3, h4 with
    | [R0, R1, R2], [r0, r1, r2], [I0, I1, I2], [i0, i1, i2], _, _, _, _ =>
      simp only [copyDims, List.forall_mem_cons, List.not_mem_nil, false_imp_iff, implies_true, and_true] at hf
      exact D3.PD.copy_from_far N o pd same ⟨L0, R0, r0, I0, i0⟩ ⟨L1, R1, r1, I1, i1⟩ ⟨L2, R2, r2, I2, i2⟩ h hf

/-! ## calls -/

theorem copy_world_ub {chk : Bool} {x y : Nat} {k : Kind} {o pd : Obj} (hx : w.objs x = some (k, o)) (hy : w.objs y = some (k, pd))
    {args : Obj.CopyArgs} {u : UB} (hu : Obj.copy chk k o pd (decide (x = y)) args w.h = .ub u) :
    exec chk (.copy x y args) w = .ub u := by
  have : World.copy chk x y args w = .ub u := by
    unfold World.copy; rw [hx, hy]; simp only [if_true]; rw [hu]
  show (World.copy chk x y args >>= _) w = _
  rw [M.bind_run, this]

/-- a call without checks, up to its loops -/
theorem Rel.copy_loops (R : Rel mem w aw L) {x y : Nat} {k : Kind} {es es' : List Ext} {val val' : Nat → List Int → Option V}
    {o pd : Obj} {B B' : Nat} {c c' : Nat → Option V}
    (r : ObjReady k es o w.h B c) (r' : ObjReady k es' pd w.h B' c') (fits : ShapeFits k.N (mkShape es k.locs)) (fits' : ShapeFits k.N (mkShape es' k.locs))
    {args : Obj.CopyArgs} (ok : CopyOk k es es' args) (hf : ¬ Far ((copyPlan es es' args).dims k)) :
    Obj.copy false k o pd (decide (x = y)) args w.h = Obj.copyLoops k o pd ((copyPlan es es' args).dims k) w.h := by
  obtain ⟨hl, hR, hr, ha⟩ := ok
  obtain ⟨l1, l2, l3, l4⟩ := copyPlan_len r.len r'.len hl
  have df := dimsFit_of (k := k) ⟨r.len, fits⟩
  have df' := dimsFit_of (k := k) ⟨r'.len, fits'⟩
  unfold CopyPlan.dims at *
  have f1 : ∀ d ∈ copyDims k.locs (copyPlan es es' args).R (copyPlan es es' args).r (copyPlan es es' args).I (copyPlan es es' args).i, d.Fits1 :=
    copy_all hR hr _ fun d e e' he he' zR zr hd => CopyDim.fits1 zR (df e he) (ha d hd)
  have f2 : ∀ d ∈ copyDims k.locs (copyPlan es es' args).R (copyPlan es es' args).r (copyPlan es es' args).I (copyPlan es es' args).i, d.Fits2 := by
    refine copy_all hR hr _ fun d e e' he he' zR zr hd => ?_
    have h1 : ¬ d.hi - d.lo < -2147483648 := fun h => hf ⟨d, hd, h⟩
    have h2 := loc_le d.loc
    have h3 := df e he
    have h4 := f1 d hd
    unfold CopyDim.Fits1 InI32 at h4
    unfold ZoneIn at zR
    unfold CopyDim.Fits2 CopyDim.wid InI32
    unfold CopyDim.hi CopyDim.lo at *
    omega
  refine Obj.copy_plan (Q := fun x => x = _) false r.typed r'.typed (r.sized fits) (r'.sized fits') _ hl w.h ?_
    (fun hn => (hn ⟨zones_edge hR df, zones_edge hr df'⟩).elim)
  exact Obj.copy_elim (Q := fun x => x = _) false r.typed r'.typed _ l1 l2 l3 l4 w.h (fun hn => (hn f1).elim)
    (fun _ hn => (hn f2).elim) (fun h => by cases h) (fun h => by cases h) (fun _ _ => rfl)

/-- zones with a gap, or too far apart -/
theorem Rel.copy_gap (R : Rel mem w aw L) {x y : Nat} {k : Kind} {es es' : List Ext} {val val' : Nat → List Int → Option V}
    (hx : aw.arr x = some (k, .ready es val)) (hy : aw.arr y = some (k, .ready es' val')) {args : Obj.CopyArgs}
    (ok : CopyOk k es es' args) (hg : Far ((copyPlan es es' args).dims k) ∨ Gap ((copyPlan es es' args).dims k)) :
    ∃ u, exec false (.copy x y args) w = .ub u := by
  obtain ⟨o, pd, B, B', c, c', hb, hb', r, r', fits, fits', hN, e1, e2⟩ := R.two hx hy
  obtain ⟨l1, l2, l3, l4⟩ := copyPlan_len r.len r'.len ok.1
  have df := dimsFit_of (k := k) ⟨r.len, fits⟩
  have df' := dimsFit_of (k := k) ⟨r'.len, fits'⟩
  suffices ∃ u, Obj.copy false k o pd (decide (x = y)) args w.h = .ub u by
    obtain ⟨u, hu⟩ := this
    exact ⟨u, copy_world_ub hb hb' hu⟩
  by_cases hf : Far ((copyPlan es es' args).dims k)
  · exact Obj.copy_plan (Q := fun r => ∃ u, r = .ub u) false r.typed r'.typed (r.sized fits) (r'.sized fits') _ ok.1 w.h
      (Obj.copy_far r.typed r'.typed _ l1 l2 l3 l4 w.h hf) (fun _ => ⟨_, rfl⟩)
  · rw [R.copy_loops (val := val) (val' := val') r r' fits fits' ok hf]
    exact Obj.copyLoops_gap r.typed r'.typed (copyDims_len l1 l2 l3 l4) (hg.resolve_left hf) _

/-- zones that touch -/
theorem Rel.copy_touch (R : Rel mem w aw L) {x y : Nat} {k : Kind} {es es' : List Ext} {val val' : Nat → List Int → Option V}
    (hx : aw.arr x = some (k, .ready es val)) (hy : aw.arr y = some (k, .ready es' val')) {args : Obj.CopyArgs}
    (ok : CopyOk k es es' args) (hf : ¬ Far ((copyPlan es es' args).dims k)) (hg : Touch ((copyPlan es es' args).dims k)) :
    exec false (.copy x y args) w = .ok .unit w := by
  obtain ⟨o, pd, B, B', c, c', hb, hb', r, r', fits, fits', hN, e1, e2⟩ := R.two hx hy
  obtain ⟨l1, l2, l3, l4⟩ := copyPlan_len r.len r'.len ok.1
  have hcopy : Obj.copy false k o pd (decide (x = y)) args w.h = .ok () w.h := by
    rw [R.copy_loops (val := val) (val' := val') r r' fits fits' ok hf]
    exact Obj.copyLoops_touch r.typed r'.typed (copyDims_len l1 l2 l3 l4) hg _
  have := copy_run (ev := .ret .unit) false hb hb' hcopy
  rwa [put_same w hb] at this

theorem not_far {ds : List CopyDim} (h : ∀ d ∈ ds, 0 < d.span) : ¬ Far ds := by
  rintro ⟨d, hd, h1⟩
  have h2 := h d hd
  have := loc_le d.loc
  unfold CopyDim.span at h2
  omega

/-- zones that meet, two arrays -/
theorem Rel.copy_meet (R : Rel mem w aw L) {x y : Nat} (hne : x ≠ y) {k : Kind} {es es' : List Ext} {val val' : Nat → List Int → Option V}
    (hx : aw.arr x = some (k, .ready es val)) (hy : aw.arr y = some (k, .ready es' val')) {args : Obj.CopyArgs}
    (ok : CopyOk k es es' args) (hp : ∀ d ∈ (copyPlan es es' args).dims k, 0 < d.span) :
    ∃ w', exec false (.copy x y args) w = .ok .unit w' ∧ Rel mem w' (aw.set x (some (k, .ready es
      fun n ys => if Writes ((copyPlan es es' args).dims k) ys then val' n (image ((copyPlan es es' args).dims k) ys) else val n ys))) L := by
  obtain ⟨o, hb, hk, h0, r⟩ := R.arr_some hx
  obtain ⟨pd, hb', -, -, r'⟩ := R.arr_some hy
  cases r with | @ready _ _ B c r fits pos vals =>
  cases r' with | @ready _ _ B' c' r' fits' pos' vals' =>
  have ap : B ∉ pd.own := by
    have := R.disj x y hne B (by rw [hb]; exact r.mem_own)
    rwa [hb'] at this
  obtain ⟨l1, l2, l3, l4⟩ := copyPlan_len r.len r'.len ok.1
  have lp := R.copy_loops (x := x) (y := y) (val := val) (val' := val') r r' fits fits' ok (not_far hp)
  obtain ⟨h', c4, g1, g2, g3, g4, g5, g6⟩ := Obj.copyLoops_run r r' (.inr ap) fits' hk.2 (copyDims_len l1 l2 l3 l4)
    (fun d hd => by rw [CopyDim.span_eq]; exact (hp d hd).le)
    (fun ys hy => writes_into r.len l2 l3 l4 ok.2.1 hy) (fun ys hy => writes_from r'.len l1 l3 l4 ok.2.2.1 hy)
    (fun e => (ap (e ▸ r.mem_own)).elim)
  refine ⟨_, copy_run false hb hb' (ev := .ret .unit) (lp.trans g1), ?_⟩
  have := R.update' x (h' := h') (a' := some (k, .ready es
      fun n ys => if Writes ((copyPlan es es' args).dims k) ys then val' n (image ((copyPlan es es' args).dims k) ys) else val n ys))
    (n' := aw.next) (by
      rw [hb]
      exact ⟨g4, by omega, fun b h4 _ => g5 b (by rintro rfl; exact h4 r.mem_own), fun b h4 h5 => (h5 h4).elim, fun b h4 => .inl h4⟩)
    (.some hk h0 (.ready g2 fits pos (by
      intro n hn ys hys
      refine (g6 n hn ys hys).trans ?_
      split
      · rename_i hw
        exact (vals' n hn _ (writes_from r'.len l1 l3 l4 ok.2.2.1 hw)).trans (if_pos hw).symm
      · rename_i hw
        exact (vals n hn ys hys).trans (if_neg hw).symm))) (by rw [g3, R.next]) (by rw [hb]; exact .inl rfl)
  exact this

/-- zones that meet, one array -/
theorem Rel.copy_self (R : Rel mem w aw L) {x : Nat} {k : Kind} {es : List Ext} {val : Nat → List Int → Option V}
    (hx : aw.arr x = some (k, .ready es val)) {args : Obj.CopyArgs}
    (ok : CopyOk k es es args) (hp : ∀ d ∈ (copyPlan es es args).dims k, 0 < d.span) :
    ∃ w', exec false (.copy x x args) w = .ok .unit w' ∧ Rel mem w' (aw.set x (some (k, .ready es
      fun n => inTurn ((copyPlan es es args).dims k) (val n) (boxPts ((copyPlan es es args).dims k))))) L := by
  obtain ⟨o, hb, hk, h0, r⟩ := R.arr_some hx
  cases r with | @ready _ _ B c r fits pos vals =>
  obtain ⟨l1, l2, l3, l4⟩ := copyPlan_len r.len r.len ok.1
  have lp := R.copy_loops (x := x) (y := x) (val := val) (val' := val) r r fits fits ok (not_far hp)
  have hw : ∀ d ∈ (copyPlan es es args).dims k, 0 ≤ d.wid := fun d hd => by rw [CopyDim.span_eq]; exact (hp d hd).le
  have hl : ((copyPlan es es args).dims k).length = k.locs.length := copyDims_len l1 l2 l3 l4
  obtain ⟨h', c4, g1, g2, g3, g4, g5, g6⟩ := self_all fits hl (pairs (boxPts ((copyPlan es es args).dims k)) (nats 0 k.N))
    (fun p hp => by
      rw [mem_pairs, mem_boxPts hw, mem_nats] at hp
      exact ⟨writes_into r.len l2 l3 l4 ok.2.1 hp.1, writes_from r.len l1 l3 l4 ok.2.2.1 hp.1, by omega⟩) r vals
  rw [← Obj.copyLoops_eq r.typed r.typed hl hw hk.2] at g1
  refine ⟨_, copy_run false hb hb (ev := .ret .unit) (lp.trans g1), ?_⟩
  exact R.update' x (h' := h') (a' := some (k, .ready es
      fun n => inTurn ((copyPlan es es args).dims k) (val n) (boxPts ((copyPlan es es args).dims k))))
    (n' := aw.next) (by
      rw [hb]
      exact ⟨g4, by omega, fun b h4 _ => g5 b (by rintro rfl; exact h4 r.mem_own), fun b h4 h5 => (h5 h4).elim, fun b h4 => .inl h4⟩)
    (.some hk h0 (.ready g2 fits pos (by
      intro n hn ys hys
      rw [g6 n hn ys hys, copyStep_pairs _ _ _ hn]))) (by rw [g3, R.next]) (by rw [hb]; exact .inl rfl)

end Verif
