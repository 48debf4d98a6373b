import Verif.Spec.Fill
import Verif.Proof.Mirror
import Verif.Proof.CopyProps
/-!
# Filling virtual points: proofs
-/
set_option linter.unusedSimpArgs false
namespace Verif
open Spec
variable {V : Type} {mem : Nat → Nat → Bool} {chk : Bool} {w : World V} {aw : AWorld V}

/-- as `assign_all`, inside one block, with a function applied to the value -/
theorem assign_map {α : Type} (fn : α → M (Heap V) Unit) (Inv : Heap V → Prop) (B : Nat) (dst src : α → Nat) (g : Option V → Option V)
    (l : List α) (blk : ∀ h, Inv h → ∃ len c, h.blk B = some (.vals len c))
    (step : ∀ p ∈ l, ∀ h, Inv h → fn p h = .ok () (h.poke B (dst p) (g (h.cellAt B (src p)))) ∧
      ∀ v, Inv (h.poke B (dst p) v))
    (nd : (l.map dst).Nodup) (sep : ∀ p ∈ l, ∀ q ∈ l, src p ≠ dst q) (h : Heap V) (hi : Inv h) :
    ∃ h', runAll fn l h = .ok () h' ∧ Inv h' ∧ h'.next = h.next ∧ h'.mem = h.mem ∧ (∀ c, c ≠ B → h'.blk c = h.blk c) ∧
      (∀ p ∈ l, h'.cellAt B (dst p) = g (h.cellAt B (src p))) ∧
      ∀ a, (∀ p ∈ l, dst p ≠ a) → h'.cellAt B a = h.cellAt B a := by
  induction l generalizing h with
  | nil => exact ⟨h, rfl, hi, rfl, rfl, fun _ _ => rfl, by simp, fun _ _ => rfl⟩
  | cons p l ih =>
    obtain ⟨h1, h2⟩ := step p (by simp) h hi
    obtain ⟨len, c, hb⟩ := blk h hi
    have cp := Heap.cellAt_poke hb (dst p) (g (h.cellAt B (src p)))
    obtain ⟨f1, f2, f3⟩ := Heap.poke_frame h B (dst p) (g (h.cellAt B (src p)))
    rw [List.map_cons, List.nodup_cons] at nd
    obtain ⟨h', g1, g2, g3, g4, g5, g6, g7⟩ := ih (fun q hq => step q (by simp [hq])) nd.2
      (fun q hq q' hq' => sep q (by simp [hq]) q' (by simp [hq'])) _ (h2 (g (h.cellAt B (src p))))
    refine ⟨h', by rw [runAll_cons, M.bind_ok h1]; exact g1, g2, g3.trans f1, g4.trans f2,
      fun c hc => (g5 c hc).trans (f3 c hc), ?_, ?_⟩
    · intro q hq
      rcases List.mem_cons.1 hq with rfl | hq'
      · rw [g7 _ (fun q' hq' e => nd.1 (by rw [← e]; exact List.mem_map.2 ⟨q', hq', rfl⟩)), cp, if_pos ⟨rfl, rfl⟩]
      · rw [g6 q hq', cp, if_neg]
        rintro ⟨-, e2⟩
        exact sep q hq p (by simp) e2
    · intro a ha
      rw [g7 a (fun q hq => ha q (by simp [hq])), cp, if_neg]
      rintro ⟨-, e⟩
      exact ha p (by simp) e.symm

/-- the points of the zones of the tags, in the order of the loops -/
def zonePts : List Ext → List RA → List (List Int)
  | e :: es, t :: ts => (ints (tagBegin e.n e.i t) (tagEnd e.i e.p t - tagBegin e.n e.i t).toNat).flatMap fun x =>
      (zonePts es ts).map fun xs => x :: xs
  | _, _ => [[]]

theorem mem_tag {n i p : Nat} {t : RA} {x : Int} :
    x ∈ ints (tagBegin n i t) (tagEnd i p t - tagBegin n i t).toNat ↔ InTag n i p t x := by
  have := tag_le n i p t
  rw [mem_ints]
  cases t <;> simp only [tagBegin, tagEnd, InTag] at * <;> omega

theorem mem_zonePts {es : List Ext} {ts : List RA} (hl : ts.length = es.length) {xs : List Int} :
    xs ∈ zonePts es ts ↔ InTags es ts xs := by
  induction es generalizing ts xs with
  | nil =>
    cases ts with
    | nil => cases xs <;> simp [zonePts, InTags]
    | cons => simp at hl
  | cons e es ih =>
    cases ts with
    | nil => simp at hl
    | cons t ts =>
      have ih := @ih ts (by simpa using hl)
      cases xs with
      | nil => simp [zonePts, InTags]
      | cons x xs =>
        simp only [zonePts, InTags, List.mem_flatMap, List.mem_map, List.cons.injEq, mem_tag, ← ih]
        constructor
        · rintro ⟨a, ha, b, hb, rfl, rfl⟩; exact ⟨ha, hb⟩
        · rintro ⟨h1, h2⟩; exact ⟨x, h1, xs, h2, rfl, rfl⟩

theorem nodup_zonePts (es : List Ext) (ts : List RA) : (zonePts es ts).Nodup := by
  induction es generalizing ts with
  | nil => simp [zonePts]
  | cons e es ih =>
    cases ts with
    | nil => simp [zonePts]
    | cons t ts =>
      simp only [zonePts]
      have hs := ints_sorted (tagBegin e.n e.i t) (tagEnd e.i e.p t - tagBegin e.n e.i t).toNat
      revert hs
      generalize ints (tagBegin e.n e.i t) (tagEnd e.i e.p t - tagBegin e.n e.i t).toNat = l
      intro hs
      induction l with
      | nil => simp
      | cons a l ihl =>
        rw [List.pairwise_cons] at hs
        rw [List.flatMap_cons, List.nodup_append]
        refine ⟨?_, ihl hs.2, ?_⟩
        · refine List.Pairwise.map _ ?_ (ih ts)
          intro x y hxy h; exact hxy (List.cons.inj h).2
        · intro p hp q hq
          simp only [List.mem_map, List.mem_flatMap] at hp hq
          obtain ⟨x, -, rfl⟩ := hp
          obtain ⟨b, hb, y, -, rfl⟩ := hq
          intro h
          have h1 := hs.1 b hb
          have h2 := (List.cons.inj h).1
          unfold intLt at h1; omega

/-- the loop visits the points of the zones -/
theorem Obj.loopTags_eq {σ : Type} (chk : Bool) {k : Kind} {es : List Ext} {o : Obj} {h : Heap V} {B : Nat} {c : Nat → Option V}
    (r : ObjReady k es o h B c) (hf : ∀ e ∈ es, e.Fits) {ts : List RA} (hl : ts.length = es.length)
    (body : List Int → M σ Unit) : o.loopTags chk ts body = runAll body (zonePts es ts) := by
  have n0 : ∀ (e : Ext) (t : RA), 0 ≤ tagEnd e.i e.p t - tagBegin e.n e.i t := fun e t => by
    have := tag_le e.n e.i e.p t; omega
  have f0 : ∀ (e : Ext) (t : RA), e.Fits → InI32 (tagBegin e.n e.i t + (tagEnd e.i e.p t - tagBegin e.n e.i t)) := fun e t h => by
    have := tag_end_fits e.n e.i e.p t h
    rwa [show tagBegin e.n e.i t + (tagEnd e.i e.p t - tagBegin e.n e.i t) = tagEnd e.i e.p t by omega]
  cases r with
  | @d1 N L0 e0 o h B cell r =>
    match ts, hl with
    | [t0], _ =>
      have q0 := hf e0 (by simp)
      unfold Obj.loopTags
      simp only [r.size, D1.sz_range chk e0 q0, M.monadLift_eq, M.liftM_eq, M.lift_ok, pure_bind, D1.PD_For_1D, D1.RangeT.begin_0,
        D1.RangeT.end_0, i32_ok (f0 e0 t0 q0), forI_eq _ _ (n0 e0 t0), zonePts, runAll_flatMap, List.map_cons, List.map_nil]
      congr 1; funext x
      rw [runAll_cons]; exact bind_pure_unit.symm
  | @d2 N L0 L1 e0 e1 o h B P cell r =>
    match ts, hl with
    | [t0, t1], _ =>
      have q0 := hf e0 (by simp)
      have q1 := hf e1 (by simp)
      unfold Obj.loopTags
      simp only [r.size, D2.sz_range chk e0 e1 q0 q1, M.monadLift_eq, M.liftM_eq, M.lift_ok, pure_bind, D2.PD_For_2D, D2.RangeT.begin_0,
        D2.RangeT.end_0, D2.RangeT.begin_1, D2.RangeT.end_1, i32_ok (f0 e0 t0 q0), i32_ok (f0 e1 t1 q1), forI_eq _ _ (n0 e0 t0),
        forI_eq _ _ (n0 e1 t1), zonePts, runAll_flatMap, runAll_map, List.map_cons, List.map_nil]
      congr 1; funext x
      congr 1; funext y
      rw [runAll_cons]; exact bind_pure_unit.symm
  | @d3 N L0 L1 L2 e0 e1 e2 o h B P Q cell r =>
    match ts, hl with
    | [t0, t1, t2], _ =>
      have q0 := hf e0 (by simp)
      have q1 := hf e1 (by simp)
      have q2 := hf e2 (by simp)
      unfold Obj.loopTags
      simp only [r.size, D3.sz_range chk e0 e1 e2 q0 q1 q2, M.monadLift_eq, M.liftM_eq, M.lift_ok, pure_bind, D3.PD_For_3D, D3.RangeT.begin_0,
        D3.RangeT.end_0, D3.RangeT.begin_1, D3.RangeT.end_1, D3.RangeT.begin_2, D3.RangeT.end_2, i32_ok (f0 e0 t0 q0), i32_ok (f0 e1 t1 q1),
        i32_ok (f0 e2 t2 q2), forI_eq _ _ (n0 e0 t0),
        forI_eq _ _ (n0 e1 t1), forI_eq _ _ (n0 e2 t2), zonePts, runAll_flatMap, runAll_map, List.map_cons, List.map_nil]
      congr 1; funext x
      congr 1; funext y
      congr 1; funext z
      rw [runAll_cons]; exact bind_pure_unit.symm

/-- the source index, as the code computes it -/
theorem Obj.source_eq (chk : Bool) {k : Kind} {es : List Ext} {o : Obj} {h : Heap V} {B : Nat} {c : Nat → Option V}
    (r : ObjReady k es o h B c) (hf : ∀ e ∈ es, e.Fits) (how : From) {d : Nat} {e : Ext} (he : es[d]? = some e) (fl : Side)
    (hm : how = .mirror → 2 * (e.n + e.i + e.p) < 2147483648) (hs : sideCount e fl < e.i) {x : Int}
    (hx : InTag e.n e.i e.p (sideTag fl) x) :
    o.source chk how d fl x = .ok (srcIdx how e fl x) ∧ Interior e (srcIdx how e fl x) := by
  have hfe : e.Fits := hf e (List.mem_of_getElem? he)
  have hfe' := hfe
  unfold Ext.Fits at hfe'
  have mir : how = .mirror → (i32 (2 * sideBound e fl) >>= fun t => i32 (t - x)) = .ok (srcIdx .mirror e fl x) := by
    intro hh
    have hm := hm hh
    have hb : InI32 (2 * sideBound e fl) := by cases fl <;> simp [sideBound, InI32]; omega
    rw [i32_ok hb, Out.ok_bind, i32_eq_ok]
    cases fl <;> simp only [srcIdx, sideBound, sideTag, sideCount, InTag, InI32] at * <;> omega
  have per : i32 (-fl.fl.sign * ((e.i : Int) - 1) + x) = .ok (srcIdx .periodic e fl x) := by
    rw [i32_eq_ok]
    cases fl <;> simp only [srcIdx, sideBound, sideTag, sideCount, InTag, InI32, Side.fl, FL.sign] at * <;> omega
  refine ⟨?_, by cases how <;> cases fl <;> simp only [srcIdx, sideBound, sideTag, sideCount, InTag, Interior] at * <;> omega⟩
  cases r with
  | @d1 N L0 e0 o h B cell r =>
    match d, he with
    | 0, he =>
      cases he
      cases how
      · simp only [Obj.source, r.size, D1.sz_mirror_0 chk _ hfe]; exact mir rfl
      · simp only [Obj.source, r.size, D1.sz_periodic_0 chk _ hfe]; exact per
  | @d2 N L0 L1 e0 e1 o h B P cell r =>
    match d, he with
    | 0, he =>
      cases he
      cases how
      · simp only [Obj.source, r.size, D2.sz_mirror_0 chk _ _ hfe]; exact mir rfl
      · simp only [Obj.source, r.size, D2.sz_periodic_0 chk _ _ hfe]; exact per
    | 1, he =>
      cases he
      cases how
      · simp only [Obj.source, r.size, D2.sz_mirror_1 chk _ _ hfe]; exact mir rfl
      · simp only [Obj.source, r.size, D2.sz_periodic_1 chk _ _ hfe]; exact per
  | @d3 N L0 L1 L2 e0 e1 e2 o h B P Q cell r =>
    match d, he with
    | 0, he =>
      cases he
      cases how
      · simp only [Obj.source, r.size, D3.sz_mirror_0 chk _ _ _ hfe]; exact mir rfl
      · simp only [Obj.source, r.size, D3.sz_periodic_0 chk _ _ _ hfe]; exact per
    | 1, he =>
      cases he
      cases how
      · simp only [Obj.source, r.size, D3.sz_mirror_1 chk _ _ _ hfe]; exact mir rfl
      · simp only [Obj.source, r.size, D3.sz_periodic_1 chk _ _ _ hfe]; exact per
    | 2, he =>
      cases he
      cases how
      · simp only [Obj.source, r.size, D3.sz_mirror_2 chk _ _ _ hfe]; exact mir rfl
      · simp only [Obj.source, r.size, D3.sz_periodic_2 chk _ _ _ hfe]; exact per

theorem Spec.InTags.len {es : List Ext} {ts : List RA} {xs : List Int} (h : InTags es ts xs) : xs.length = es.length := by
  induction es generalizing ts xs with
  | nil => cases ts <;> cases xs <;> simp_all [InTags]
  | cons e es ih =>
    cases ts with
    | nil => exact h.elim
    | cons t ts =>
      cases xs with
      | nil => exact h.elim
      | cons x xs => simpa using ih h.2

/-- a point of the array: the indices lie in their dimensions -/
theorem Spec.InTags.valid {k : Kind} {es : List Ext} (hl : es.length = k.locs.length) {ts : List RA} {xs : List Int}
    (h : InTags es ts xs) {n : Nat} (hn : n < k.N) {fs : List FL} (hf : FlagsFit k.locs fs) : Valid k es n xs fs := by
  refine ⟨by rw [h.len, hl], hn, hf, ?_⟩
  revert hl hf
  generalize k.locs = ls
  intro hl hf
  induction es generalizing ts xs ls fs with
  | nil =>
    cases ls with
    | nil => cases ts <;> cases xs <;> cases fs <;> simp_all [InTags, FlagsFit, mkShape, point, HasPt]
    | cons => simp at hl
  | cons e es ih =>
    match ls, ts, xs, fs, h, hf with
    | l :: ls, t :: ts, x :: xs, f :: fs, h, hf =>
      refine ⟨?_, ih h.2 ls (by simpa using hl) hf.2⟩
      have h1 := h.1
      have h2 := hf.1
      unfold Dim.Has
      cases t <;> cases l <;> cases f <;> simp only [InTag, flagFits, Loc.toNat, FL.offset, Bool.false_eq_true] at * <;> omega

theorem Spec.InTags.at {es : List Ext} {ts : List RA} {xs : List Int} (h : InTags es ts xs) {d : Nat} {e : Ext} {t : RA}
    (he : es[d]? = some e) (ht : ts[d]? = some t) : InTag e.n e.i e.p t (xs.getD d 0) := by
  induction es generalizing ts xs d with
  | nil => simp at he
  | cons e' es ih =>
    match ts, xs, h with
    | t' :: ts, x :: xs, h =>
      cases d with
      | zero => simp at he ht; subst he; subst ht; exact h.1
      | succ d => simpa using ih h.2 (by simpa using he) (by simpa using ht)

/-- moving one index inside its dimension -/
theorem Spec.InTags.set {es : List Ext} {ts : List RA} {xs : List Int} (h : InTags es ts xs) {d : Nat} {e : Ext} {t : RA}
    (he : es[d]? = some e) {j : Int} (hj : InTag e.n e.i e.p t j) : InTags es (ts.set d t) (xs.set d j) := by
  induction es generalizing ts xs d with
  | nil => simp at he
  | cons e' es ih =>
    match ts, xs, h with
    | t' :: ts, x :: xs, h =>
      cases d with
      | zero => simp at he; subst he; exact ⟨hj, h.2⟩
      | succ d => exact ⟨h.1, ih h.2 (by simpa using he)⟩

theorem point_inj {xs ys : List Int} {fs : List FL} (hx : xs.length = fs.length) (hy : ys.length = fs.length)
    (h : point xs fs = point ys fs) : xs = ys := by
  induction fs generalizing xs ys with
  | nil => cases xs <;> cases ys <;> simp_all
  | cons f fs ih =>
    match xs, ys, hx, hy with
    | x :: xs, y :: ys, hx, hy =>
      simp only [point, List.cons.injEq] at h
      rw [ih (by simpa using hx) (by simpa using hy) h.2, show x = y by omega]

/-- the values after filling -/
noncomputable def fillVal (how : From) (d : Nat) (e : Ext) (fl : Side) (es : List Ext) (ts : List RA) (n : Nat) (fs : List FL) (f : V → V)
    (val : Nat → List Int → Option V) : Nat → List Int → Option V := by
  classical exact fun m ys =>
    if h : m = n ∧ ∃ xs, InTags es ts xs ∧ point xs fs = ys then
      (val n (point (h.2.choose.set d (srcIdx how e fl (h.2.choose.getD d 0))) fs)).map f
    else val m ys

theorem Rel.fill {L : List Nat} (R : Rel mem w aw L) (c : Bool) {x : Nat} {k : Kind} {es : List Ext} {val : Nat → List Int → Option V}
    (hx : aw.arr x = some (k, .ready es val)) (how : From) {d : Nat} {e : Ext} (he : es[d]? = some e) (fl : Side)
    (hm : how = .mirror → 2 * (e.n + e.i + e.p) < 2147483648) (hs : sideCount e fl < e.i)
    {ts : List RA} (hl : ts.length = es.length) (ht : ts[d]? = some (sideTag fl)) {n : Nat} (hn : n < k.N) {fs : List FL}
    (hf : FlagsFit k.locs fs) (f : V → V) :
    ∃ w', World.fill c x how d fl ts n fs f w = .ok () w' ∧
      Rel mem w' (aw.set x (some (k, .ready es (fillVal how d e fl es ts n fs f val)))) L := by
  obtain ⟨o, hb, hk, h0, r⟩ := R.arr_some hx
  cases r with
  | @ready _ _ B cell r fits pos vals =>
    have hle := r.len
    have df : ∀ e ∈ es, e.Fits := fun e he => by
      have := dimsFit_of (k := k) ⟨r.len, fits⟩ e he
      unfold Ext.Fits; omega
    have V1 : ∀ xs, InTags es ts xs → Valid k es n xs fs := fun xs h => h.valid hle hn hf
    have V2 : ∀ xs, InTags es ts xs → Valid k es n (xs.set d (srcIdx how e fl (xs.getD d 0))) fs := fun xs h => by
      have hi := (Obj.source_eq c r df how he fl hm hs (h.at he ht)).2
      exact (h.set he (t := .IN) hi).valid hle hn hf
    have ne : ∀ xs ys, InTags es ts xs → InTags es ts ys → point (xs.set d (srcIdx how e fl (xs.getD d 0))) fs ≠ point ys fs := by
      intro xs ys h1 h2 heq
      have hi := (Obj.source_eq c r df how he fl hm hs (h1.at he ht)).2
      have l1 := (V2 xs h1).lenx
      have l2 := (V1 ys h2).lenx
      have l3 := (V1 ys h2).lenf
      have := point_inj (by rw [l1, l3]) (by rw [l2, l3]) heq
      have hy := h2.at he ht
      rw [← this] at hy
      have hd : d < xs.length := by rw [h1.len]; exact (List.getElem?_eq_some_iff.1 he).1
      rw [List.getD_eq_getElem?_getD, List.getElem?_set_self hd] at hy
      simp only [Option.getD_some] at hy
      unfold Interior at hi
      cases fl <;> simp only [sideTag, InTag] at hy <;> omega
    obtain ⟨h', g1, g2, g3, g4, g5, g6, g7⟩ := assign_map (fun xs => o.fillPt c k how d fl n fs f xs)
      (fun h => ∃ c, ObjReady k es o h B c) B
      (fun xs => n * points (mkShape es k.locs) + offset (mkShape es k.locs) (point xs fs))
      (fun xs => n * points (mkShape es k.locs) + offset (mkShape es k.locs) (point (xs.set d (srcIdx how e fl (xs.getD d 0))) fs))
      (Option.map f) (zonePts es ts)
      (fun h hi => by obtain ⟨c, r⟩ := hi; exact ⟨_, _, r.blk⟩)
      (by
        rintro xs hp h ⟨cl, r⟩
        have hz := (mem_zonePts hl).1 hp
        have v1 := V1 xs hz
        have v2 := V2 xs hz
        refine ⟨?_, fun v => r.poke _ _⟩
        unfold Obj.fillPt
        rw [(Obj.source_eq c r df how he fl hm hs (hz.at he ht)).1]
        simp only [M.monadLift_eq, M.liftM_eq, M.lift_ok, pure_bind]
        rw [M.bind_ok (Obj.at_ok c r fits v2.lenx v2.lenf (v2.err r.len)).1, M.bind_ok (Heap.loadV_at r.blk (addr_lt hn v2.pt)),
          M.bind_ok (Obj.at_ok c r fits v1.lenx v1.lenf (v1.err r.len)).1, Heap.storeV_at r.blk (addr_lt hn v1.pt),
          Heap.poke_vals r.blk, Heap.cellAt_vals r.blk])
      (by
        refine List.pairwise_map.2 ?_
        refine (nodup_zonePts es ts).imp_of_mem ?_
        intro xs ys hp hq hne heq
        have v1 := V1 xs ((mem_zonePts hl).1 hp)
        have v2 := V1 ys ((mem_zonePts hl).1 hq)
        exact hne (point_inj (by rw [v1.lenx, v1.lenf]) (by rw [v2.lenx, v2.lenf]) (addr_inj v1.pt v2.pt heq).2))
      (by
        intro xs hp ys hq heq
        have z1 := (mem_zonePts hl).1 hp
        have z2 := (mem_zonePts hl).1 hq
        exact ne xs ys z1 z2 (addr_inj (V2 xs z1).pt (V1 ys z2).pt heq).2)
      w.h ⟨_, r⟩
    obtain ⟨c1, r1⟩ := g2
    have e1 : w.put x h' (some (k, o)) = { w with h := h' } := by
      simp only [World.put, World.mk.injEq, true_and]
      funext y; split
      · rename_i hy; subst hy; exact hb.symm
      · rfl
    refine ⟨w.put x h' (some (k, o)), ?_, ?_⟩
    · unfold World.fill World.access
      rw [hb]
      simp only
      unfold Obj.fill
      rw [Obj.loopTags_eq c r df hl, g1, e1]
    · refine R.update' x (h' := h') ?_ (.some hk h0 (.ready r1 fits pos ?_)) (by rw [g3, R.next]) (by rw [hb]; exact .inl rfl)
      · rw [hb]
        refine ⟨g4, by omega, ?_, fun b h4 h5 => (h5 h4).elim, fun b h4 => .inl h4⟩
        intro b h4 _
        exact g5 b (by rintro rfl; exact h4 r.mem_own)
      · intro m hm' ys hys
        rw [← Heap.cellAt_vals r1.blk]
        unfold fillVal
        split
        · rename_i hc
          obtain ⟨q1, q2⟩ := hc.2.choose_spec
          have := g6 _ ((mem_zonePts hl).2 q1)
          rw [q2] at this
          have hmn := hc.1
          rw [show h'.cellAt B (m * points (mkShape es k.locs) + offset (mkShape es k.locs) ys) =
            h'.cellAt B (n * points (mkShape es k.locs) + offset (mkShape es k.locs) ys) by rw [hmn],
            this, Heap.cellAt_vals r.blk, vals n hn _ (V2 _ q1).pt]
        · rename_i hc
          rw [g7, Heap.cellAt_vals r.blk, vals m hm' ys hys]
          intro xs hp heq
          have z := (mem_zonePts hl).1 hp
          obtain ⟨q1, q2⟩ := addr_inj (V1 xs z).pt hys heq
          exact hc ⟨q1.symm, xs, z, q2⟩

/-- the value of a filled point -/
theorem fillVal_at {how : From} {d : Nat} {e : Ext} {fl : Side} {es : List Ext} {ts : List RA} {n : Nat} {fs : List FL} {f : V → V}
    {val : Nat → List Int → Option V} {xs : List Int} (h : InTags es ts xs) (hf : fs.length = es.length) :
    fillVal how d e fl es ts n fs f val n (point xs fs) = (val n (point (xs.set d (srcIdx how e fl (xs.getD d 0))) fs)).map f := by
  have hc : n = n ∧ ∃ zs, InTags es ts zs ∧ point zs fs = point xs fs := ⟨rfl, xs, h, rfl⟩
  unfold fillVal
  rw [dif_pos hc]
  obtain ⟨q1, q2⟩ := hc.2.choose_spec
  rw [point_inj (by rw [q1.len, hf]) (by rw [h.len, hf]) q2]

theorem fillVal_else {how : From} {d : Nat} {e : Ext} {fl : Side} {es : List Ext} {ts : List RA} {n : Nat} {fs : List FL} {f : V → V}
    {val : Nat → List Int → Option V} {m : Nat} {ys : List Int} (h : ¬ (m = n ∧ ∃ xs, InTags es ts xs ∧ point xs fs = ys)) :
    fillVal how d e fl es ts n fs f val m ys = val m ys := by
  unfold fillVal
  rw [dif_neg h]

end Verif
