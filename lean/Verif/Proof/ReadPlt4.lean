import Verif.Proof.ReadPlt3
import Verif.Proof.CopyProps
/-!
# The effect of `read_plt`
-/
set_option linter.unusedSimpArgs false
namespace Verif
open Spec Tec
variable {V : Type} {mem : Nat → Nat → Bool} {w : World V} {aw : AWorld V}

theorem interior_fits {k : Kind} {o : Obj} {h : Heap V} {a : AArr V} (r : Reps k o h a) (h0 : k.N ≠ 0) :
    o.sizes.map (fun s => s.2.1) = interior k a ∧ (∀ i ∈ interior k a, 0 ≤ i ∧ i < 2147483648) ∧ prod (interior k a) < 4294967296 := by
  refine ⟨by rw [r.sizes]; rfl, ?_⟩
  have F : ∀ es : List Ext, es.length = k.locs.length → ShapeFits k.N (mkShape es k.locs) →
      (∀ i ∈ es.map (fun e => (e.i : Int)), 0 ≤ i ∧ i < 2147483648) ∧ prod (es.map (fun e => (e.i : Int))) < 4294967296 := by
    intro es hl hf
    constructor
    · intro i hi
      obtain ⟨e, he, rfl⟩ := List.mem_map.1 hi
      have := dimsFit_of (k := k) ⟨hl, hf⟩ e he
      omega
    · refine Nat.lt_of_le_of_lt (prod_points hl) (Nat.lt_of_le_of_lt ?_ hf.2)
      exact Nat.le_mul_of_pos_left _ (by omega)
  cases r with
  | empty e =>
    have : ∀ ls : List Loc, (∀ i ∈ ls.map (fun _ => (0 : Int)), 0 ≤ i ∧ i < 2147483648) ∧ prod (ls.map fun _ => (0 : Int)) < 4294967296 := by
      intro ls
      induction ls with
      | nil => simp [prod]
      | cons l ls ih => exact ⟨by simp, by simp [prod]⟩
    have := this k.locs
    unfold interior sizesOf
    rw [List.map_map]
    exact this
  | ready r f =>
    have := F _ r.len f
    unfold interior sizesOf
    rw [List.map_map]
    exact this
  | broken r f =>
    have := F _ r.len f
    unfold interior sizesOf
    rw [List.map_map]
    exact this

theorem readAt_tame (k : Kind) (C : Num V) (nn : Nat) (o : Obj) (buf : Ptr) (dbl : Bool) (rs : List Int) (xs : List Nat) :
    Tame (o.readAt k C nn buf dbl rs xs) := by
  refine (tempVal_tame _ _ _ _).bind fun v => (RSt.arr_tame ?_).bind fun p => RSt.arr_tame (Heap.storeV_noErr _ _)
  unfold Obj.elem
  split
  · exact (NoErr.ite (.pure _) (.undef _)).bind fun _ => Heap.idx_noErr _ _
  · exact (NoErr.ite (.pure _) (.undef _)).bind fun _ => (Heap.idx_noErr _ _).bind fun _ => (Heap.loadP_noErr _).bind fun _ =>
      Heap.idx_noErr _ _
  · exact (NoErr.ite (.pure _) (.undef _)).bind fun _ => (Heap.idx_noErr _ _).bind fun _ => (Heap.loadP_noErr _).bind fun _ =>
      (Heap.idx_noErr _ _).bind fun _ => (Heap.loadP_noErr _).bind fun _ => Heap.idx_noErr _ _
  · exact .undef _

theorem Tame.runAll {α : Type} {f : α → M (RSt V) Unit} (h : ∀ a, Tame (f a)) (l : List α) : Tame (runAll f l) := by
  induction l with
  | nil => exact .pure _
  | cons a l ih => exact (h a).bind fun _ => ih

/-- `read_plt` of an array: the exception, or the loops over the points of the file -/
theorem Rel.read_run {L : List Nat} (R : Rel mem w aw L) (chk : Bool) (C : Num V) {A : ReadArgs} (ok : LogOk A.log) {x : Nat} {k : Kind}
    {a : AArr V} (hx : aw.arr x = some (k, a)) (nn : Nat) {b : Heap Byte} (fr : Fresh b) :
    ∃ o, w.objs x = some (k, o) ∧ k.N ≠ 0 ∧ Reps k o w.h a ∧
    match readErr chk k.N (interior k a) A (fun n => b.mem b.next n) nn with
    | some e => ∃ b', World.read_plt chk C A x nn (w, b) = .err e (w, b') ∧ SameBlocks b b'
    | none => ∃ z v d c pt, A.log.Zones[A.zone]? = some z ∧ Within (fileSizes (interior k a).length z) (interior k a) ∧
        Found A z (prod (fileSizes (interior k a).length z)) b v d c pt ∧
        o.read_plt chk k C A nn ⟨w.h, b⟩ =
          (runAll (o.readAt k C nn (.at b.next 0) (decide (d.type = .double)) (fileSizes (interior k a).length z))
              (grid (fileSizes (interior k a).length z)) >>= fun _ => RSt.bytes (Heap.delArr (.at b.next 0)))
            ⟨w.h, bufHeap b (prod (fileSizes (interior k a).length z) * d.size)
              ((c.drop pt).take (prod (fileSizes (interior k a).length z) * d.size))⟩ := by
  obtain ⟨o, hb, hk, h0, r⟩ := R.arr_some hx
  refine ⟨o, hb, h0, r, ?_⟩
  obtain ⟨i1, i2, i3⟩ := interior_fits r h0
  have W : ∀ e t, o.read_plt chk k C A nn ⟨w.h, b⟩ = .err e t → t.h = w.h → World.read_plt chk C A x nn (w, b) = .err e (w, t.b) := by
    intro e t h1 h2
    unfold World.read_plt
    simp only [hb]
    rw [h1]
    simp only [h2]
  rw [Obj.read_eq i1 i2 i3 ok] at W ⊢
  rw [readErr_eq]
  simp only [M.liftM_eq] at W ⊢
  by_cases hc : chk = true ∧ k.N ≤ nn
  · simp only [if_pos hc] at W ⊢
    exact ⟨b, W _ _ rfl rfl, rfl, rfl, Nat.le_refl _⟩
  simp only [if_neg hc, M.lift_ok, pure_bind] at W ⊢
  cases hz : A.log.Zones[A.zone]? with
  | none =>
    have : A.zoneLog = .err (.text (lit "zone number is too big")) := by
      unfold ReadArgs.zoneLog
      rw [if_pos (List.getElem?_eq_none_iff.1 hz)]
    rw [this] at W
    exact ⟨b, W _ _ rfl rfl, rfl, rfl, Nat.le_refl _⟩
  | some z =>
    have : A.zoneLog = .ok z := by
      unfold ReadArgs.zoneLog
      rw [if_neg (by have := (List.getElem?_eq_some_iff.1 hz).1; omega), hz]
    simp only [this, M.lift_ok, pure_bind] at W ⊢
    by_cases hw : Within (fileSizes (interior k a).length z) (interior k a)
    · simp only [not_not_intro hw, if_false] at W ⊢
      have hp := within_prod hw
      have Q := load_when (A := A) (z := z) (cnt := prod (fileSizes (interior k a).length z))
        (loop := fun buf dbl => runAll (o.readAt k C nn buf dbl (fileSizes (interior k a).length z)) (grid (fileSizes (interior k a).length z)))
        ok (List.mem_of_getElem? hz) (by omega) (s := ⟨w.h, b⟩) fr
      simp only at Q
      cases he : loadErr A z (prod (fileSizes (interior k a).length z)) (fun n => b.mem b.next n) with
      | some e =>
        rw [he] at Q
        obtain ⟨b', q1, q2⟩ := Q
        exact ⟨b', W _ _ q1 rfl, q2⟩
      | none =>
        rw [he] at Q
        obtain ⟨v, d, c, pt, q1, q2⟩ := Q
        exact ⟨z, v, d, c, pt, rfl, hw, q1, q2⟩
    · simp only [hw, not_false_eq_true, if_true] at W ⊢
      exact ⟨b, W _ _ rfl rfl, rfl, rfl, Nat.le_refl _⟩

/-- storing given values at different places of one block -/
theorem store_all {α : Type} (fn : α → M (RSt V) Unit) (Inv : Heap V → Prop) (b : Heap Byte) (B : Nat) (dst : α → Nat) (val : α → Option V)
    (l : List α) (blk : ∀ h, Inv h → ∃ len c, h.blk B = some (.vals len c))
    (step : ∀ p ∈ l, ∀ h, Inv h → fn p ⟨h, b⟩ = .ok () ⟨h.poke B (dst p) (val p), b⟩ ∧ Inv (h.poke B (dst p) (val p)))
    (nd : (l.map dst).Nodup) (h : Heap V) (hi : Inv h) :
    ∃ h', runAll fn l ⟨h, b⟩ = .ok () ⟨h', b⟩ ∧ Inv h' ∧ h'.next = h.next ∧ h'.mem = h.mem ∧ (∀ c, c ≠ B → h'.blk c = h.blk c) ∧
      (∀ p ∈ l, h'.cellAt B (dst p) = val p) ∧ ∀ a, (∀ p ∈ l, dst p ≠ a) → h'.cellAt B a = h.cellAt B a := by
  induction l generalizing h with
  | nil => exact ⟨h, rfl, hi, rfl, rfl, fun _ _ => rfl, by simp, fun _ _ => rfl⟩
  | cons p l ih =>
    obtain ⟨h1, h2⟩ := step p (by simp) h hi
    obtain ⟨len, c, hb⟩ := blk h hi
    have cp := Heap.cellAt_poke hb (dst p) (val p)
    obtain ⟨f1, f2, f3⟩ := Heap.poke_frame h B (dst p) (val p)
    rw [List.map_cons, List.nodup_cons] at nd
    obtain ⟨h', g1, g2, g3, g4, g5, g6, g7⟩ := ih (fun q hq => step q (by simp [hq])) nd.2 _ h2
    refine ⟨h', by rw [runAll_cons, M.bind_ok h1]; exact g1, g2, g3.trans f1, g4.trans f2,
      fun c hc => (g5 c hc).trans (f3 c hc), ?_, ?_⟩
    · intro q hq
      rcases List.mem_cons.1 hq with rfl | hq'
      · rw [g7 _ (fun q' hq' e => nd.1 (by rw [← e]; exact List.mem_map.2 ⟨q', hq', rfl⟩)), cp, if_pos ⟨rfl, rfl⟩]
      · exact g6 q hq'
    · intro a ha
      rw [g7 a (fun q hq => ha q (by simp [hq])), cp, if_neg]
      rintro ⟨-, e⟩
      exact ha p (by simp) e.symm

theorem inBlock_iff {rs : List Int} {ys : List Int} : InBlock rs ys ↔ ∃ xs, InGrid rs xs ∧ xs.map Int.ofNat = ys := by
  induction rs generalizing ys with
  | nil =>
    cases ys with
    | nil => exact ⟨fun _ => ⟨[], trivial, rfl⟩, fun _ => trivial⟩
    | cons y ys =>
      refine ⟨fun h => h.elim, fun ⟨xs, h1, h2⟩ => ?_⟩
      cases xs with
      | nil => simp at h2
      | cons => exact h1.elim
  | cons r rs ih =>
    cases ys with
    | nil =>
      refine ⟨fun h => h.elim, fun ⟨xs, h1, h2⟩ => ?_⟩
      cases xs with
      | nil => exact h1.elim
      | cons => simp at h2
    | cons y ys =>
      constructor
      · rintro ⟨h1, h2, h3⟩
        obtain ⟨xs, h4, h5⟩ := ih.1 h3
        exact ⟨y.toNat :: xs, ⟨by omega, h4⟩, by rw [List.map_cons, h5]; congr 1; show ((y.toNat : Nat) : Int) = y; omega⟩
      · rintro ⟨xs, h1, h2⟩
        cases xs with
        | nil => exact h1.elim
        | cons x xs =>
          rw [List.map_cons, List.cons.injEq] at h2
          obtain ⟨h2, h3⟩ := h2
          have := h1.1
          have hx : ((x : Nat) : Int) = y := h2
          exact ⟨by omega, by omega, ih.2 ⟨xs, h1.2, h3⟩⟩

theorem rowOf_nat (rs : List Int) (xs : List Nat) : rowOf rs (xs.map Int.ofNat) = rowIdx rs xs := by
  induction rs generalizing xs with
  | nil => cases xs <;> rfl
  | cons r rs ih =>
    cases xs with
    | nil => rfl
    | cons x xs => simp only [List.map_cons, rowOf, rowIdx, ih, Int.ofNat_eq_natCast, Int.toNat_natCast]

theorem inBlock_pt {es : List Ext} {ls : List Loc} (hl : es.length = ls.length) {rs : List Int}
    (hw : Within rs (es.map fun e => (e.i : Int))) {ys : List Int} (h : InBlock rs ys) : HasPt (mkShape es ls) ys := by
  induction es generalizing ls rs ys with
  | nil =>
    cases ls with
    | nil =>
      cases rs with
      | nil => cases ys with
        | nil => trivial
        | cons => exact h.elim
      | cons => exact hw.elim
    | cons => simp at hl
  | cons e es ih =>
    match ls, rs, ys, hw, h with
    | l :: ls, r :: rs, y :: ys, hw, h =>
      obtain ⟨w1, w2, w3⟩ := hw
      obtain ⟨h1, h2, h3⟩ := h
      simp only at w2
      refine ⟨?_, ih (by simpa using hl) w3 h3⟩
      unfold Dim.Has
      constructor
      · simp only; omega
      · simp only; omega

/-- one point -/
theorem tempVal_ok {C : Num V} {d : DataLog} (ht : d.type = .float ∨ d.type = .double) (hs : d.size = d.type.bytes) {h : Heap V}
    {b : Heap Byte} {cnt : Nat} {l : Str} (hl : cnt * d.size ≤ l.length) {i : Nat} (hi : i < cnt) {v : V}
    (hv : fileVal C d.type l i = some v) :
    tempVal C (decide (d.type = .double)) (.at b.next 0) i ⟨h, bufHeap b (cnt * d.size) (l.take (cnt * d.size))⟩ =
      .ok v ⟨h, bufHeap b (cnt * d.size) (l.take (cnt * d.size))⟩ := by
  have hlen : (l.take (cnt * d.size)).length = cnt * d.size := by rw [List.length_take]; omega
  have H : Holds (bufHeap b (cnt * d.size) (l.take (cnt * d.size))) (.at b.next 0) ((l.take (cnt * d.size)).map some) := by
    refine ⟨b.next, 0, cnt * d.size, fun k => (l.take (cnt * d.size))[k]?, rfl, by simp [bufHeap], by rw [List.length_map]; omega, ?_⟩
    rw [List.length_map]
    unfold window
    apply List.ext_getElem?
    intro j
    rw [List.getElem?_map, List.getElem?_map]
    by_cases hj : j < (l.take (cnt * d.size)).length
    · rw [List.getElem?_range' hj, List.getElem?_eq_getElem hj]
      simp only [Option.map_some, Nat.zero_add, Nat.one_mul]
      rw [List.getElem?_eq_getElem hj]
    · rw [List.getElem?_eq_none (by rw [List.length_range']; omega), List.getElem?_eq_none (by omega)]; rfl
  have E := loadElem_ok (t := d.type) (i := i) H (by rw [hlen, hs]) hi
  have E' : elem d.type.bytes (l.take (cnt * d.size)) i = elem d.type.bytes l i := by
    unfold elem
    congr 1
    rw [List.drop_take, List.take_take]
    congr 1
    have := mul_lt_of_idx hi (Nat.le_refl (cnt * d.type.bytes))
    rw [hs]; omega
  rw [E'] at E
  unfold tempVal
  unfold fileVal at hv
  rcases ht with ht | ht
  · rw [ht] at E hv ⊢
    simp only [reduceCtorEq, decide_false, Bool.false_eq_true, if_false] at hv ⊢
    have E2 : RSt.bytes (loadElem .float (.at b.next 0) i) (⟨h, bufHeap b (cnt * d.size) (l.take (cnt * d.size))⟩ : RSt V) =
        .ok (elem 4 l i) ⟨h, bufHeap b (cnt * d.size) (l.take (cnt * d.size))⟩ := by
      unfold RSt.bytes; simp only [E]; rfl
    rw [M.bind_ok E2, hv]
    rfl
  · rw [ht] at E hv ⊢
    simp only [decide_true, if_true] at hv ⊢
    have E2 : RSt.bytes (loadElem .double (.at b.next 0) i) (⟨h, bufHeap b (cnt * d.size) (l.take (cnt * d.size))⟩ : RSt V) =
        .ok (elem 8 l i) ⟨h, bufHeap b (cnt * d.size) (l.take (cnt * d.size))⟩ := by
      unfold RSt.bytes; simp only [E]; rfl
    rw [M.bind_ok E2, hv]
    rfl

/-- the values after reading -/
noncomputable def readVal (nn : Nat) (rs : List Int) (vs : Nat → Option V) (val : Nat → List Int → Option V) : Nat → List Int → Option V := by
  classical exact fun m ys => if m = nn ∧ InBlock rs ys then vs (rowOf rs ys) else val m ys

theorem Rel.read_plt {L : List Nat} (R : Rel mem w aw L) (chk : Bool) (C : Num V) {A : ReadArgs} (ok : LogOk A.log) {x : Nat} {k : Kind}
    {es : List Ext} {val : Nat → List Int → Option V}
    (hx : aw.arr x = some (k, .ready es val)) {nn : Nat} (hn : nn < k.N) {b : Heap Byte} (fr : Fresh b)
    (hok : readErr chk k.N (interior k (.ready es val)) A (fun n => b.mem b.next n) nn = none)
    {z : ZoneLog} {v : Nat} {d : DataLog} {c : Str} {pt : Nat} (hz : A.log.Zones[A.zone]? = some z)
    (hv : A.log.Variables.idxOf? A.name = some v) (hd : z.Data[v]? = some d) (hc : A.fs (cstr (pltName A)) = some c)
    (hp : d.file_pt = some (pt : Int)) (hs : d.size = d.type.bytes)
    (conv : ∀ i < prod (fileSizes es.length z), (fileVal C d.type (c.drop pt) i).isSome) :
    ∃ w' b', World.read_plt chk C A x nn (w, b) = .ok () (w', b') ∧ SameBlocks b b' ∧
      Rel mem w' (aw.set x (some (k, .ready es (readVal nn (fileSizes es.length z) (fileVal C d.type (c.drop pt)) val)))) L := by
  obtain ⟨o, hb, h0, r, Q⟩ := R.read_run chk C ok hx nn fr
  rw [hok] at Q
  obtain ⟨z', v', d', c', pt', e1, hw, fd, run⟩ := Q
  have hint : interior k (.ready es val) = es.map fun e => (e.i : Int) := by
    unfold interior sizesOf; rw [List.map_map]; rfl
  rw [hint, List.length_map] at hw fd run
  rw [hz] at e1; cases e1
  have := fd.name; rw [hv] at this; cases this
  have := fd.data; rw [hd] at this; cases this
  have := fd.file; rw [hc] at this; cases this
  have := fd.at_; rw [hp] at this; cases this
  have hk := (R.arr_some hx).choose_spec.2.1
  cases r with
  | @ready _ _ B cell r fits pos vals =>
    have hle := r.len
    have ptOf : ∀ xs, InGrid (fileSizes es.length z) xs → HasPt (mkShape es k.locs) (xs.map Int.ofNat) := fun xs h =>
      inBlock_pt hle hw (inBlock_iff.2 ⟨xs, h, rfl⟩)
    obtain ⟨h', g1, g2, g3, g4, g5, g6, g7⟩ := store_all
      (o.readAt k C nn (.at b.next 0) (decide (d.type = .double)) (fileSizes es.length z))
      (fun h => ∃ c, ObjReady k es o h B c)
      (bufHeap b (prod (fileSizes es.length z) * d.size) ((c.drop pt).take (prod (fileSizes es.length z) * d.size))) B
      (fun xs => nn * points (mkShape es k.locs) + offset (mkShape es k.locs) (xs.map Int.ofNat))
      (fun xs => fileVal C d.type (c.drop pt) (rowIdx (fileSizes es.length z) xs))
      (grid (fileSizes es.length z))
      (fun h hi => by obtain ⟨c, r⟩ := hi; exact ⟨_, _, r.blk⟩)
      (by
        rintro xs hp h ⟨cl, r⟩
        have hg := mem_grid.1 hp
        have hpt := ptOf xs hg
        refine ⟨?_, r.poke _ _⟩
        obtain ⟨u, hu⟩ := Option.isSome_iff_exists.1 (conv _ (rowIdx_lt hg))
        unfold Obj.readAt
        rw [M.bind_ok (tempVal_ok fd.type hs fd.len (rowIdx_lt hg) hu)]
        have q1 : RSt.arr (o.elem k nn (xs.map Int.ofNat)) (⟨h, bufHeap b (prod (fileSizes es.length z) * d.size)
            ((c.drop pt).take (prod (fileSizes es.length z) * d.size))⟩ : RSt V) = .ok (.at B (nn * points (mkShape es k.locs) +
            offset (mkShape es k.locs) (xs.map Int.ofNat))) ⟨h, bufHeap b (prod (fileSizes es.length z) * d.size)
            ((c.drop pt).take (prod (fileSizes es.length z) * d.size))⟩ := by
          unfold RSt.arr; simp only [Obj.elem_eq r hn hpt]
        rw [M.bind_ok q1, hu]
        unfold RSt.arr
        simp only [Heap.storeV_at r.blk (addr_lt hn hpt), Heap.poke_vals r.blk])
      (by
        refine List.pairwise_map.2 ?_
        refine (nodup_grid _).imp_of_mem ?_
        intro xs ys hp hq hne heq
        have := (addr_inj (ptOf xs (mem_grid.1 hp)) (ptOf ys (mem_grid.1 hq)) heq).2
        exact hne (List.map_injective_iff.2 (fun a b h => Int.ofNat.inj h) this))
      w.h ⟨_, r⟩
    obtain ⟨c1, r1⟩ := g2
    obtain ⟨b', d1, d2⟩ := bufHeap_del fr (prod (fileSizes es.length z) * d.size) ((c.drop pt).take (prod (fileSizes es.length z) * d.size))
    have e1 : w.put x h' (some (k, o)) = { w with h := h' } := by
      simp only [World.put, World.mk.injEq, true_and]
      funext y; split
      · rename_i hy; subst hy; exact hb.symm
      · rfl
    refine ⟨w.put x h' (some (k, o)), b', ?_, d2, ?_⟩
    · unfold World.read_plt
      simp only [hb]
      rw [run, M.bind_ok g1]
      unfold RSt.bytes
      simp only [d1, e1]
    · refine R.update' x (h' := h') ?_ (.some hk h0 (.ready r1 fits pos ?_)) (by rw [g3, R.next]) (by rw [hb]; exact .inl rfl)
      · rw [hb]
        refine ⟨g4, by omega, ?_, fun b h4 h5 => (h5 h4).elim, fun b h4 => .inl h4⟩
        intro b h4 _
        exact g5 b (by rintro rfl; exact h4 r.mem_own)
      · intro m hm' ys hys
        rw [← Heap.cellAt_vals r1.blk]
        unfold readVal
        split
        · rename_i hc
          obtain ⟨xs, q1, rfl⟩ := inBlock_iff.1 hc.2
          rw [hc.1, g6 xs (mem_grid.2 q1), rowOf_nat]
        · rename_i hc
          rw [g7, Heap.cellAt_vals r.blk, vals m hm' ys hys]
          intro xs hp heq
          have hg := mem_grid.1 hp
          obtain ⟨q1, q2⟩ := addr_inj (ptOf xs hg) hys heq
          exact hc ⟨q1.symm, inBlock_iff.2 ⟨xs, hg, q2⟩⟩

end Verif
