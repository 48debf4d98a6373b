import Verif.Proof.Copy
/-!
# The effect of the loops of `copy_from`
-/
namespace Verif
open Spec
variable {V : Type}

/-- the lvalue of an element -/
def Obj.elem (k : Kind) (o : Obj) (n : Nat) (ys : List Int) : M (Heap V) Ptr :=
  match o, ys with
  | .d1 o, [x] => D1.PD.elem k.N o n x
  | .d2 o, [x, y] => D2.PD.elem k.N o n x y
  | .d3 o, [x, y, z] => D3.PD.elem k.N o n x y z
  | _, _ => M.undef .oob

theorem Obj.elem_eq {k : Kind} {es : List Ext} {o : Obj} {h : Heap V} {B : Nat} {c : Nat → Option V}
    (r : ObjReady k es o h B c) {n : Nat} {ys : List Int} (hn : n < k.N) (hp : HasPt (mkShape es k.locs) ys) :
    Obj.elem k o n ys h = .ok (.at B (n * points (mkShape es k.locs) + offset (mkShape es k.locs) ys)) h := by
  cases r with
  | d1 r =>
    match ys, hp with
    | [x], hp =>
      simp only [Obj.elem]
      rw [D1.PD.elem_eq r hn hp.1]
      simp [mkShape, points, offset]
  | d2 r =>
    match ys, hp with
    | [x, y], hp =>
      simp only [Obj.elem]
      rw [D2.PD.elem_eq r hn hp.1 hp.2.1]
      simp only [mkShape, points, offset, Nat.mul_one, Nat.add_zero]
      congr 2; ring
  | d3 r =>
    match ys, hp with
    | [x, y, z], hp =>
      simp only [Obj.elem]
      rw [D3.PD.elem_eq r hn hp.1 hp.2.1 hp.2.2.1]
      simp only [mkShape, points, offset, Nat.mul_one, Nat.add_zero]
      congr 2; ring

theorem Obj.elem_cases {k : Kind} {es : List Ext} {o : Obj} {h : Heap V} {B : Nat} {c : Nat → Option V}
    (r : ObjReady k es o h B c) (n : Nat) (ys : List Int) :
    (∃ a, a < k.N * points (mkShape es k.locs) ∧ Obj.elem k o n ys h = .ok (.at B a) h) ∨ ∃ u, Obj.elem k o n ys h = .ub u := by
  cases r with
  | d1 r =>
    match ys with
    | [x] =>
      rcases D1.PD.elem_cases r n x with ⟨a, h1, h2⟩ | h1
      · exact .inl ⟨a, by simpa [mkShape, points] using h1, h2⟩
      · exact .inr h1
    | [] => exact .inr ⟨_, rfl⟩
    | _ :: _ :: _ => exact .inr ⟨_, rfl⟩
  | d2 r =>
    match ys with
    | [x, y] =>
      rcases D2.PD.elem_cases r n x y with ⟨a, h1, h2⟩ | h1
      · exact .inl ⟨a, by simpa [mkShape, points] using h1, h2⟩
      · exact .inr h1
    | [] => exact .inr ⟨_, rfl⟩
    | [_] => exact .inr ⟨_, rfl⟩
    | _ :: _ :: _ :: _ => exact .inr ⟨_, rfl⟩
  | d3 r =>
    match ys with
    | [x, y, z] =>
      rcases D3.PD.elem_cases r n x y z with ⟨a, h1, h2⟩ | h1
      · exact .inl ⟨a, by simpa [mkShape, points] using h1, h2⟩
      · exact .inr h1
    | [] => exact .inr ⟨_, rfl⟩
    | [_] => exact .inr ⟨_, rfl⟩
    | [_, _] => exact .inr ⟨_, rfl⟩
    | _ :: _ :: _ :: _ :: _ => exact .inr ⟨_, rfl⟩

/-- load, then store -/
def Obj.move (k : Kind) (o pd : Obj) (n : Nat) (ys zs : List Int) : M (Heap V) Unit := do
  let src ← Obj.elem k pd n zs
  let v ← Heap.loadV src
  let dst ← Obj.elem k o n ys
  Heap.storeV dst v

theorem Obj.copyElem_eq {k : Kind} {o pd : Obj} (t : Typed k o) (t' : Typed k pd) {ds : List CopyDim} {n : Nat} {ys : List Int}
    (hd : ds.length = k.locs.length) (hy : ys.length = k.locs.length) (h : Heap V) :
    Obj.copyElem k o pd ds n ys h =
      if ∀ z ∈ image ds ys, InI32 z then Obj.move k o pd n ys (image ds ys) h else .ub .overflow := by
  cases t with
  | @d1 N L0 o =>
    cases t'; rename_i pd
    match ds, ys, hd, hy with
    | [a], [x], _, _ =>
      simp only [Obj.copyElem, D1.PD.copyElem, image, List.forall_mem_cons, List.not_mem_nil, false_imp_iff, implies_true, and_true, CopyDim.image]
      by_cases c : InI32 (x + (a.i - a.I))
      · rw [if_pos c, i32_ok c]; rfl
      · rw [if_neg c, i32_bad c]; rfl
  | @d2 N L0 L1 o =>
    cases t'; rename_i pd
    match ds, ys, hd, hy with
    | [a, b], [x, y], _, _ =>
      simp only [Obj.copyElem, D2.PD.copyElem, image, List.forall_mem_cons, List.not_mem_nil, false_imp_iff, implies_true, and_true, CopyDim.image]
      by_cases c : InI32 (x + (a.i - a.I))
      · by_cases c1 : InI32 (y + (b.i - b.I))
        · rw [if_pos ⟨c, c1⟩, i32_ok c, i32_ok c1]; rfl
        · rw [if_neg (fun h => c1 h.2), i32_ok c, i32_bad c1]; rfl
      · rw [if_neg (fun h => c h.1), i32_bad c]; rfl
  | @d3 N L0 L1 L2 o =>
    cases t'; rename_i pd
    match ds, ys, hd, hy with
    | [a, b, g], [x, y, z], _, _ =>
      simp only [Obj.copyElem, D3.PD.copyElem, image, List.forall_mem_cons, List.not_mem_nil, false_imp_iff, implies_true, and_true, CopyDim.image]
      by_cases c : InI32 (x + (a.i - a.I))
      · by_cases c1 : InI32 (y + (b.i - b.I))
        · by_cases c2 : InI32 (z + (g.i - g.I))
          · rw [if_pos ⟨c, c1, c2⟩, i32_ok c, i32_ok c1, i32_ok c2]; rfl
          · rw [if_neg (fun h => c2 h.2.2), i32_ok c, i32_ok c1, i32_bad c2]; rfl
        · rw [if_neg (fun h => c1 h.2.1), i32_ok c, i32_bad c1]; rfl
      · rw [if_neg (fun h => c h.1), i32_bad c]; rfl

theorem hasPt_int {N : Nat} {sh : Shape} (f : ShapeFits N sh) {ys : List Int} (hp : HasPt sh ys) : ∀ y ∈ ys, InI32 y := by
  obtain ⟨f, -⟩ := f
  induction sh generalizing ys with
  | nil =>
    cases ys with
    | nil => simp
    | cons y ys => exact hp.elim
  | cons d sh ih =>
    cases ys with
    | nil => simp
    | cons y ys =>
      have h1 := f d (by simp)
      have h2 := hp.1
      have h3 : d.loc.toNat ≤ 1 := by cases d.loc <;> simp [Loc.toNat]
      unfold Dim.Has at h2
      intro z hz
      rcases List.mem_cons.1 hz with rfl | hz
      · unfold InI32; omega
      · exact ih hp.2 (fun d hd => f d (by simp [hd])) z hz

/-! ## memory as a table of cells -/

/-- content of a cell -/
def Heap.cellAt (h : Heap V) (b a : Nat) : Option V :=
  match h.blk b with
  | some (.vals _ c) => c a
  | _ => none

/-- change a cell -/
def Heap.poke (h : Heap V) (b a : Nat) (v : Option V) : Heap V :=
  match h.blk b with
  | some (.vals len c) => h.upd b (some (.vals len fun k => if k = a then v else c k))
  | _ => h

theorem Heap.cellAt_vals {h : Heap V} {b len : Nat} {c : Nat → Option V} (hb : h.blk b = some (.vals len c)) (a : Nat) :
    h.cellAt b a = c a := by unfold cellAt; rw [hb]

theorem Heap.poke_vals {h : Heap V} {b len : Nat} {c : Nat → Option V} (hb : h.blk b = some (.vals len c)) (a : Nat) (v : Option V) :
    h.poke b a v = h.upd b (some (.vals len fun k => if k = a then v else c k)) := by unfold poke; rw [hb]

theorem Heap.cellAt_poke {h : Heap V} {b len : Nat} {c : Nat → Option V} (hb : h.blk b = some (.vals len c)) (a : Nat) (v : Option V)
    (b' a' : Nat) : (h.poke b a v).cellAt b' a' = if b' = b ∧ a' = a then v else h.cellAt b' a' := by
  rw [Heap.poke_vals hb]
  by_cases e : b' = b
  · subst e
    rw [Heap.cellAt_vals (Heap.upd_blk_same _ _ _), Heap.cellAt_vals hb]
    simp
  · unfold cellAt
    rw [Heap.upd_blk_ne _ _ e, if_neg (fun h => e h.1)]

theorem Heap.poke_frame (h : Heap V) (b a : Nat) (v : Option V) :
    (h.poke b a v).next = h.next ∧ (h.poke b a v).mem = h.mem ∧ ∀ c, c ≠ b → (h.poke b a v).blk c = h.blk c := by
  unfold poke
  split
  · exact ⟨rfl, rfl, fun c hc => Heap.upd_blk_ne _ _ hc⟩
  · exact ⟨rfl, rfl, fun _ _ => rfl⟩

/-- A run of assignments whose targets are pairwise different and are not read: every
target takes the old value of its source. -/
theorem assign_all {α : Type} (fn : α → M (Heap V) Unit) (Inv : Heap V → Prop) (B B' : Nat) (dst src : α → Nat) (l : List α)
    (blk : ∀ h, Inv h → ∃ len c, h.blk B = some (.vals len c))
    (step : ∀ p ∈ l, ∀ h, Inv h → fn p h = .ok () (h.poke B (dst p) (h.cellAt B' (src p))) ∧
      ∀ v, Inv (h.poke B (dst p) v))
    (nd : (l.map dst).Nodup) (sep : B' = B → ∀ p ∈ l, ∀ q ∈ l, src p ≠ dst q) (h : Heap V) (hi : Inv h) :
    ∃ h', runAll fn l h = .ok () h' ∧ Inv h' ∧ h'.next = h.next ∧ h'.mem = h.mem ∧ (∀ c, c ≠ B → h'.blk c = h.blk c) ∧
      (∀ p ∈ l, h'.cellAt B (dst p) = h.cellAt B' (src p)) ∧
      ∀ a, (∀ p ∈ l, dst p ≠ a) → h'.cellAt B a = h.cellAt B a := by
  induction l generalizing h with
  | nil => exact ⟨h, rfl, hi, rfl, rfl, fun _ _ => rfl, by simp, fun _ _ => rfl⟩
  | cons p l ih =>
    obtain ⟨h1, h2⟩ := step p (by simp) h hi
    obtain ⟨len, c, hb⟩ := blk h hi
    have cp := Heap.cellAt_poke hb (dst p) (h.cellAt B' (src p))
    obtain ⟨f1, f2, f3⟩ := Heap.poke_frame h B (dst p) (h.cellAt B' (src p))
    rw [List.map_cons, List.nodup_cons] at nd
    obtain ⟨h', g1, g2, g3, g4, g5, g6, g7⟩ := ih (fun q hq => step q (by simp [hq])) nd.2
      (fun e q hq q' hq' => sep e q (by simp [hq]) q' (by simp [hq'])) _ (h2 (h.cellAt B' (src p)))
    refine ⟨h', by rw [runAll_cons, M.bind_ok h1]; exact g1, g2, g3.trans f1, g4.trans f2,
      fun c hc => (g5 c hc).trans (f3 c hc), ?_, ?_⟩
    · intro q hq
      rcases List.mem_cons.1 hq with rfl | hq'
      · rw [g7 _ (fun q' hq' e => nd.1 (by rw [← e]; exact List.mem_map.2 ⟨q', hq', rfl⟩)), cp, if_pos ⟨rfl, rfl⟩]
      · rw [g6 q hq', cp, if_neg]
        rintro ⟨e1, e2⟩
        exact sep e1 q hq p (by simp) e2
    · intro a ha
      rw [g7 a (fun q hq => ha q (by simp [hq])), cp, if_neg]
      rintro ⟨-, e⟩
      exact ha p (by simp) e.symm

/-- `o` and `pd` are one object, or their blocks are separate -/
def Apart (o pd : Obj) (B : Nat) : Prop := o = pd ∨ B ∉ pd.own

theorem ObjReady.det {k : Kind} {es es' : List Ext} {o : Obj} {h : Heap V} {B B' : Nat} {c c' : Nat → Option V}
    (r : ObjReady k es o h B c) (r' : ObjReady k es' o h B' c') : B' = B := by
  cases r with
  | d1 r => cases r' with | d1 r' => have := r.data.symm.trans r'.data; cases this; rfl
  | d2 r => cases r' with | d2 r' => have := r.data.symm.trans r'.data; cases this; rfl
  | d3 r => cases r' with | d3 r' => have := r.data.symm.trans r'.data; cases this; rfl

theorem ObjReady.typed {k : Kind} {es : List Ext} {o : Obj} {h : Heap V} {B : Nat} {c : Nat → Option V}
    (r : ObjReady k es o h B c) : Typed k o := by cases r <;> constructor

theorem ObjReady.poke {k : Kind} {es : List Ext} {o : Obj} {h : Heap V} {B : Nat} {c : Nat → Option V}
    (r : ObjReady k es o h B c) (a : Nat) (v : Option V) : ∃ c', ObjReady k es o (h.poke B a v) B c' := by
  rw [Heap.poke_vals r.blk]; exact ⟨_, r.write _⟩

theorem ObjReady.poke_other {k : Kind} {es : List Ext} {o : Obj} {h : Heap V} {B' : Nat} {c : Nat → Option V}
    (r : ObjReady k es o h B' c) {B : Nat} (hB : B ∉ o.own) (a : Nat) (v : Option V) : ObjReady k es o (h.poke B a v) B' c :=
  r.congr fun b hb => (Heap.poke_frame h B a v).2.2 b (by rintro rfl; exact hB hb)

theorem HasPt.len {sh : Shape} {ys : List Int} (h : HasPt sh ys) : ys.length = sh.length := by
  induction sh generalizing ys with
  | nil => cases ys with
    | nil => rfl
    | cons => exact h.elim
  | cons d sh ih => cases ys with
    | nil => exact h.elim
    | cons y ys => simp [ih h.2]

theorem mkShape_len {es : List Ext} {ls : List Loc} (h : es.length = ls.length) : (mkShape es ls).length = ls.length := by
  induction ls generalizing es with
  | nil => cases es <;> simp_all [mkShape]
  | cons l ls ih => cases es with
    | nil => simp at h
    | cons e es => simp [mkShape, ih (by simpa using h)]

/-- the loops, zones inside the arrays -/
theorem Obj.copyLoops_run {k : Kind} {es es' : List Ext} {o pd : Obj} {h : Heap V} {B B' : Nat} {c c' : Nat → Option V}
    (r : ObjReady k es o h B c) (r' : ObjReady k es' pd h B' c') (ap : Apart o pd B)
    (fits' : ShapeFits k.N (mkShape es' k.locs)) (hN : k.N < 4294967296)
    {ds : List CopyDim} (hl : ds.length = k.locs.length) (hw : ∀ d ∈ ds, 0 ≤ d.wid)
    (into : ∀ ys, Writes ds ys → HasPt (mkShape es k.locs) ys)
    (from_ : ∀ ys, Writes ds ys → HasPt (mkShape es' k.locs) (image ds ys))
    (sep : o = pd → es = es' ∧ ∀ ys zs, Writes ds ys → Writes ds zs → image ds ys ≠ zs) :
    ∃ h' c1, Obj.copyLoops k o pd ds h = .ok () h' ∧ ObjReady k es o h' B c1 ∧
      h'.next = h.next ∧ h'.mem = h.mem ∧ (∀ b, b ≠ B → h'.blk b = h.blk b) ∧
      ∀ n < k.N, ∀ ys, HasPt (mkShape es k.locs) ys →
        c1 (n * points (mkShape es k.locs) + offset (mkShape es k.locs) ys) =
          if Writes ds ys then c' (n * points (mkShape es' k.locs) + offset (mkShape es' k.locs) (image ds ys))
          else c (n * points (mkShape es k.locs) + offset (mkShape es k.locs) ys) := by
  have mem : ∀ p, p ∈ pairs (boxPts ds) (nats 0 k.N) ↔ Writes ds p.1 ∧ p.2 < k.N := by
    intro p; rw [mem_pairs, mem_boxPts hw, mem_nats]; simp
  rw [Obj.copyLoops_eq r.typed r'.typed hl hw hN]
  obtain ⟨h', g1, g2, g3, g4, g5, g6, g7⟩ := assign_all (fun p => Obj.copyElem k o pd ds p.2 p.1)
    (fun h => (∃ c, ObjReady k es o h B c) ∧ ∃ c', ObjReady k es' pd h B' c') B B'
    (fun p => p.2 * points (mkShape es k.locs) + offset (mkShape es k.locs) p.1)
    (fun p => p.2 * points (mkShape es' k.locs) + offset (mkShape es' k.locs) (image ds p.1))
    (pairs (boxPts ds) (nats 0 k.N))
    (fun h hi => by obtain ⟨⟨c, r⟩, -⟩ := hi; exact ⟨_, _, r.blk⟩)
    (by
      rintro ⟨ys, n⟩ hp h ⟨⟨c, r⟩, c', r'⟩
      obtain ⟨hw', hn⟩ := (mem _).1 hp
      have p1 := into _ hw'
      have p2 := from_ _ hw'
      refine ⟨?_, ?_⟩
      · rw [Obj.copyElem_eq r.typed r'.typed hl (by rw [HasPt.len p1, mkShape_len r.len]), if_pos (hasPt_int fits' p2)]
        unfold Obj.move
        rw [M.bind_ok (Obj.elem_eq r' hn p2), M.bind_ok (Heap.loadV_at r'.blk (addr_lt hn p2)),
          M.bind_ok (Obj.elem_eq r hn p1), Heap.storeV_at r.blk (addr_lt hn p1), Heap.poke_vals r.blk,
          Heap.cellAt_vals r'.blk]
      · intro v
        refine ⟨r.poke _ _, ?_⟩
        rcases ap with e | e
        · have h1 := (sep e).1
          subst e; subst h1
          rw [r.det r']; exact r.poke _ _
        · exact ⟨_, r'.poke_other e _ _⟩)
    (by
      refine List.pairwise_map.2 ?_
      refine (nodup_pairs (nodup_boxPts ds) (nats_nodup 0 k.N)).imp_of_mem ?_
      rintro ⟨ys, n⟩ ⟨zs, m⟩ hp hq hne e
      obtain ⟨e1, e2⟩ := addr_inj (into _ ((mem _).1 hp).1) (into _ ((mem _).1 hq).1) e
      subst e1; subst e2; exact hne rfl)
    (by
      rintro e ⟨ys, n⟩ hp ⟨zs, m⟩ hq e'
      rcases ap with ea | ea
      · obtain ⟨h1, h2⟩ := sep ea
        subst h1
        obtain ⟨-, e2⟩ := addr_inj (from_ _ ((mem _).1 hp).1) (into _ ((mem _).1 hq).1) e'
        exact h2 _ _ ((mem _).1 hp).1 ((mem _).1 hq).1 e2
      · exact ea (e ▸ r'.mem_own))
    h ⟨⟨c, r⟩, c', r'⟩
  obtain ⟨⟨c1, q⟩, -⟩ := g2
  refine ⟨h', c1, g1, q, g3, g4, g5, ?_⟩
  intro n hn ys hp
  rw [← Heap.cellAt_vals q.blk]
  split
  · rename_i hw'
    rw [g6 (ys, n) ((mem _).2 ⟨hw', hn⟩), Heap.cellAt_vals r'.blk]
  · rename_i hw'
    rw [g7, Heap.cellAt_vals r.blk]
    rintro ⟨zs, m⟩ hq e
    obtain ⟨e1, e2⟩ := addr_inj (into _ ((mem _).1 hq).1) hp e
    subst e2; exact hw' ((mem _).1 hq).1

end Verif
