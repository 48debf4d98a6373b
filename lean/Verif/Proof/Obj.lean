import Verif.Spec.Machine
import Verif.Proof.Rep1
import Verif.Proof.Rep2
import Verif.Proof.Rep3
/-!
# Arrays of any dimension in memory

The descriptions of `Rep1.lean`, `Rep2.lean`, `Rep3.lean` joined, and what the member
functions do in terms of the abstract machine.
-/
namespace Verif
open Spec
variable {V : Type}

/-- blocks a pointer member refers to -/
def Ptr.blocks : Ptr → List Nat
  | .null => []
  | .at b _ => [b]

/-- the blocks held by an object -/
def Obj.own : Obj → List Nat
  | .d1 o => o.data.blocks
  | .d2 o => o.data.blocks ++ o.pt1.blocks
  | .d3 o => o.data.blocks ++ o.pt1.blocks ++ o.pt2.blocks

/-- an allocated array of any dimension with its data block -/
inductive ObjReady : Kind → List Ext → Obj → Heap V → Nat → (Nat → Option V) → Prop
  | d1 {N L0 e0 o h B cell} (r : D1.PD.Ready N L0 e0 o h B cell) : ObjReady ⟨N, [L0]⟩ [e0] (.d1 o) h B cell
  | d2 {N L0 L1 e0 e1 o h B P cell} (r : D2.PD.Ready N L0 L1 e0 e1 o h B P cell) :
      ObjReady ⟨N, [L0, L1]⟩ [e0, e1] (.d2 o) h B cell
  | d3 {N L0 L1 L2 e0 e1 e2 o h B P Q cell} (r : D3.PD.Ready N L0 L1 L2 e0 e1 e2 o h B P Q cell) :
      ObjReady ⟨N, [L0, L1, L2]⟩ [e0, e1, e2] (.d3 o) h B cell

/-- an empty array of any dimension -/
inductive ObjEmpty : Kind → Obj → Prop
  | d1 {N L0 o} (r : D1.PD.Empty o) : ObjEmpty ⟨N, [L0]⟩ (.d1 o)
  | d2 {N L0 L1 o} (r : D2.PD.Empty o) : ObjEmpty ⟨N, [L0, L1]⟩ (.d2 o)
  | d3 {N L0 L1 L2 o} (r : D3.PD.Empty o) : ObjEmpty ⟨N, [L0, L1, L2]⟩ (.d3 o)

/-- an array whose `alloc` failed half way -/
inductive ObjBroken : Kind → List Ext → Nat → Obj → Heap V → Prop
  | d2 {N L0 L1 e0 e1 o h B} (r : D2.PD.Broken e0 e1 o h B) : ObjBroken ⟨N, [L0, L1]⟩ [e0, e1] 1 (.d2 o) h
  | d3 {N L0 L1 L2 e0 e1 e2 o h B} (r : D3.PD.Broken e0 e1 e2 o h B none) :
      ObjBroken ⟨N, [L0, L1, L2]⟩ [e0, e1, e2] 1 (.d3 o) h
  | d3' {N L0 L1 L2 e0 e1 e2 o h B P} (r : D3.PD.Broken e0 e1 e2 o h B (some P)) :
      ObjBroken ⟨N, [L0, L1, L2]⟩ [e0, e1, e2] 2 (.d3 o) h

/-- `o` represents the abstract array `a` -/
inductive Reps (k : Kind) (o : Obj) (h : Heap V) : AArr V → Prop
  | empty (e : ObjEmpty k o) : Reps k o h .empty
  | ready {es val B cell} (r : ObjReady k es o h B cell) (fits : ShapeFits k.N (mkShape es k.locs))
      (pos : points (mkShape es k.locs) ≠ 0)
      (vals : ∀ n < k.N, ∀ xs, HasPt (mkShape es k.locs) xs →
        cell (n * points (mkShape es k.locs) + offset (mkShape es k.locs) xs) = val n xs) : Reps k o h (.ready es val)
  | broken {es g} (r : ObjBroken k es g o h) (fits : ShapeFits k.N (mkShape es k.locs)) : Reps k o h (.broken es g)

/-- A lifecycle step of one object: only its own blocks are touched, new blocks are
fresh, blocks no longer owned are free. -/
structure Step (h : Heap V) (own : List Nat) (h' : Heap V) (own' : List Nat) : Prop where
  mem : h'.mem = h.mem
  next : h.next ≤ h'.next
  frame : ∀ b, b ∉ own → b ∉ own' → h'.blk b = h.blk b
  freed : ∀ b, b ∈ own → b ∉ own' → h'.blk b = none
  fresh : ∀ b, b ∈ own' → b ∈ own ∨ (h.next ≤ b ∧ b < h'.next)

theorem Step.refl (h : Heap V) (own : List Nat) : Step h own h own :=
  ⟨rfl, Nat.le_refl _, fun _ _ _ => rfl, fun _ a b => (b a).elim, fun _ a => .inl a⟩

/-! ## the predicates depend on the owned blocks only -/

theorem ObjReady.len {k es o} {h : Heap V} {B cell} (r : ObjReady k es o h B cell) : es.length = k.locs.length := by
  cases r <;> rfl

theorem ObjReady.blk {k es o} {h : Heap V} {B cell} (r : ObjReady k es o h B cell) :
    h.blk B = some (.vals (k.N * points (mkShape es k.locs)) cell) := by
  cases r with
  | d1 r => simpa [mkShape, points] using r.blk
  | d2 r => simpa [mkShape, points] using r.blk
  | d3 r => simpa [mkShape, points] using r.blk

theorem ObjReady.mem_own {k es o} {h : Heap V} {B cell} (r : ObjReady k es o h B cell) : B ∈ o.own := by
  cases r with
  | d1 r => simp [Obj.own, r.data, Ptr.blocks]
  | d2 r => simp [Obj.own, r.data, Ptr.blocks]
  | d3 r => simp [Obj.own, r.data, Ptr.blocks]

theorem ObjReady.live {k es o} {h : Heap V} {B cell} (r : ObjReady k es o h B cell) : ∀ b ∈ o.own, (h.blk b).isSome := by
  cases r with
  | d1 r => simp [Obj.own, r.data, Ptr.blocks, r.blk]
  | d2 r =>
    obtain ⟨t, ht, -⟩ := r.tab
    simp [Obj.own, r.data, r.pt1, Ptr.blocks, r.blk, ht]
  | d3 r =>
    obtain ⟨t, ht, -⟩ := r.tab
    obtain ⟨u, hu, -⟩ := r.tab2
    simp [Obj.own, r.data, r.pt1, r.pt2, Ptr.blocks, r.blk, ht, hu]

theorem ObjReady.congr {k es o} {h h' : Heap V} {B cell} (r : ObjReady k es o h B cell)
    (hb : ∀ b ∈ o.own, h'.blk b = h.blk b) : ObjReady k es o h' B cell := by
  cases r with
  | d1 r => exact .d1 (r.congr (hb _ (by simp [Obj.own, r.data, Ptr.blocks])))
  | d2 r => exact .d2 (r.congr (hb _ (by simp [Obj.own, r.data, Ptr.blocks])) (hb _ (by simp [Obj.own, r.pt1, Ptr.blocks])))
  | d3 r => exact .d3 (r.congr (hb _ (by simp [Obj.own, r.data, Ptr.blocks])) (hb _ (by simp [Obj.own, r.pt1, Ptr.blocks]))
      (hb _ (by simp [Obj.own, r.pt2, Ptr.blocks])))

/-- a write into the data block -/
theorem ObjReady.write {k es o} {h : Heap V} {B cell} (r : ObjReady k es o h B cell) (cell' : Nat → Option V) :
    ObjReady k es o (h.upd B (some (.vals (k.N * points (mkShape es k.locs)) cell'))) B cell' := by
  cases r with
  | d1 r => exact .d1 (r.write (by simp [mkShape, points]))
  | d2 r => exact .d2 (r.write (by simp [mkShape, points]) (Heap.upd_blk_ne _ _ r.ne.symm))
  | d3 r => exact .d3 (r.write (by simp [mkShape, points]) (Heap.upd_blk_ne _ _ r.ne.symm) (Heap.upd_blk_ne _ _ r.ne2.symm))

theorem ObjEmpty.own {k o} (e : ObjEmpty k o) : o.own = [] := by
  cases e with
  | d1 e => simp [Obj.own, e.data, Ptr.blocks]
  | d2 e => simp [Obj.own, e.data, e.pt1, Ptr.blocks]
  | d3 e => simp [Obj.own, e.data, e.pt1, e.pt2, Ptr.blocks]

theorem ObjBroken.len {k es g o} {h : Heap V} (r : ObjBroken k es g o h) : es.length = k.locs.length := by
  cases r <;> rfl

theorem ObjBroken.live {k es g o} {h : Heap V} (r : ObjBroken k es g o h) : ∀ b ∈ o.own, (h.blk b).isSome := by
  cases r with
  | d2 r => obtain ⟨l, c, hb⟩ := r.blk; simp [Obj.own, r.data, r.pt1, Ptr.blocks, hb]
  | d3 r => obtain ⟨l, c, hb⟩ := r.blk; simp [Obj.own, r.data, r.pt1, r.pt2, Ptr.blocks, hb]
  | d3' r =>
    obtain ⟨l, c, hb⟩ := r.blk
    obtain ⟨l', c', hp⟩ := r.tab _ rfl
    simp [Obj.own, r.data, r.pt1, r.pt2, Ptr.blocks, hb, hp]

theorem ObjBroken.nodup {k es g o} {h : Heap V} (r : ObjBroken k es g o h) : o.own.Nodup ∧ o.own.length = g := by
  cases r with
  | d2 r => simp [Obj.own, r.data, r.pt1, Ptr.blocks]
  | d3 r => simp [Obj.own, r.data, r.pt1, r.pt2, Ptr.blocks]
  | @d3' _ _ _ _ _ _ _ _ _ B P r =>
    obtain ⟨l, c, hb⟩ := r.blk
    obtain ⟨l', c', hp⟩ := r.tab _ rfl
    have : B ≠ P := by rintro rfl; rw [hb] at hp; cases hp
    simp [Obj.own, r.data, r.pt1, r.pt2, Ptr.blocks, this]

theorem ObjBroken.congr {k es g o} {h h' : Heap V} (r : ObjBroken k es g o h)
    (hb : ∀ b ∈ o.own, h'.blk b = h.blk b) : ObjBroken k es g o h' := by
  cases r with
  | d2 r =>
    exact .d2 ⟨r.size, r.data, r.pt1, by rw [hb _ (by simp [Obj.own, r.data, Ptr.blocks])]; exact r.blk⟩
  | d3 r =>
    exact .d3 ⟨r.size, r.data, r.pt1, r.pt2, by rw [hb _ (by simp [Obj.own, r.data, Ptr.blocks])]; exact r.blk, by simp⟩
  | d3' r =>
    refine .d3' ⟨r.size, r.data, r.pt1, r.pt2, by rw [hb _ (by simp [Obj.own, r.data, Ptr.blocks])]; exact r.blk, ?_⟩
    rintro p ⟨⟩
    rw [hb _ (by simp [Obj.own, r.pt1, Ptr.blocks])]; exact r.tab _ rfl

theorem Reps.congr {k o} {h h' : Heap V} {a : AArr V} (r : Reps k o h a) (hb : ∀ b ∈ o.own, h'.blk b = h.blk b) :
    Reps k o h' a := by
  cases r with
  | empty e => exact .empty e
  | ready r f p v => exact .ready (r.congr hb) f p v
  | broken r f => exact .broken (r.congr hb) f

theorem Reps.live {k o} {h : Heap V} {a : AArr V} (r : Reps k o h a) : ∀ b ∈ o.own, (h.blk b).isSome := by
  cases r with
  | empty e => simp [e.own]
  | ready r => exact r.live
  | broken r => exact r.live

/-! ## `size()` -/

theorem fitsExt {N : Nat} {sh : Shape} {d : Dim} (hf : ShapeFits N sh) (hd : d ∈ sh) : d.ext.Fits := by
  have := hf.1 d hd; unfold Ext.Fits; omega

theorem ObjReady.fit_of {N : Nat} {sh : Shape} (hf : ShapeFits N sh) {d : Dim} (hd : d ∈ sh) :
    d.ext.n + d.ext.i + d.ext.p + 1 < 2147483648 := hf.1 d hd

theorem Reps.sizes {k o} {h : Heap V} {a : AArr V} (r : Reps k o h a) : o.sizes = sizesOf k a := by
  cases r with
  | empty e =>
    cases e with
    | d1 e => simp [Obj.sizes, sizesOf, e.size]
    | d2 e => simp [Obj.sizes, sizesOf, e.size]
    | d3 e => simp [Obj.sizes, sizesOf, e.size]
  | ready r f =>
    cases r with
    | @d1 N L0 e0 o h B cell r =>
      obtain ⟨a, b, c⟩ := D1.sz_fields_0 e0 (fitsExt f (d := ⟨e0, L0⟩) (by simp [mkShape]))
      simp [Obj.sizes, sizesOf, r.size, a, b, c]
    | @d2 N L0 L1 e0 e1 o h B P cell r =>
      obtain ⟨a, b, c⟩ := D2.sz_fields_0 e0 e1 (fitsExt f (d := ⟨e0, L0⟩) (by simp [mkShape]))
      obtain ⟨a', b', c'⟩ := D2.sz_fields_1 e0 e1 (fitsExt f (d := ⟨e1, L1⟩) (by simp [mkShape]))
      simp [Obj.sizes, sizesOf, r.size, a, b, c, a', b', c']
    | @d3 N L0 L1 L2 e0 e1 e2 o h B P Q cell r =>
      obtain ⟨a, b, c⟩ := D3.sz_fields_0 e0 e1 e2 (fitsExt f (d := ⟨e0, L0⟩) (by simp [mkShape]))
      obtain ⟨a', b', c'⟩ := D3.sz_fields_1 e0 e1 e2 (fitsExt f (d := ⟨e1, L1⟩) (by simp [mkShape]))
      obtain ⟨a'', b'', c''⟩ := D3.sz_fields_2 e0 e1 e2 (fitsExt f (d := ⟨e2, L2⟩) (by simp [mkShape]))
      simp [Obj.sizes, sizesOf, r.size, a, b, c, a', b', c', a'', b'', c'']
  | broken r f =>
    cases r with
    | @d2 N L0 L1 e0 e1 o h B r =>
      obtain ⟨a, b, c⟩ := D2.sz_fields_0 e0 e1 (fitsExt f (d := ⟨e0, L0⟩) (by simp [mkShape]))
      obtain ⟨a', b', c'⟩ := D2.sz_fields_1 e0 e1 (fitsExt f (d := ⟨e1, L1⟩) (by simp [mkShape]))
      simp [Obj.sizes, sizesOf, r.size, a, b, c, a', b', c']
    | @d3 N L0 L1 L2 e0 e1 e2 o h B r =>
      obtain ⟨a, b, c⟩ := D3.sz_fields_0 e0 e1 e2 (fitsExt f (d := ⟨e0, L0⟩) (by simp [mkShape]))
      obtain ⟨a', b', c'⟩ := D3.sz_fields_1 e0 e1 e2 (fitsExt f (d := ⟨e1, L1⟩) (by simp [mkShape]))
      obtain ⟨a'', b'', c''⟩ := D3.sz_fields_2 e0 e1 e2 (fitsExt f (d := ⟨e2, L2⟩) (by simp [mkShape]))
      simp [Obj.sizes, sizesOf, r.size, a, b, c, a', b', c', a'', b'', c'']
    | @d3' N L0 L1 L2 e0 e1 e2 o h B P r =>
      obtain ⟨a, b, c⟩ := D3.sz_fields_0 e0 e1 e2 (fitsExt f (d := ⟨e0, L0⟩) (by simp [mkShape]))
      obtain ⟨a', b', c'⟩ := D3.sz_fields_1 e0 e1 e2 (fitsExt f (d := ⟨e1, L1⟩) (by simp [mkShape]))
      obtain ⟨a'', b'', c''⟩ := D3.sz_fields_2 e0 e1 e2 (fitsExt f (d := ⟨e2, L2⟩) (by simp [mkShape]))
      simp [Obj.sizes, sizesOf, r.size, a, b, c, a', b', c', a'', b'', c'']

/-! ## element access -/

theorem Obj.at_empty {k o} (e : ObjEmpty k o) (h : Heap V) {n : Nat} {xs : List Int} {fs : List FL}
    (hx : xs.length = k.locs.length) (hf : fs.length = k.locs.length) :
    Obj.at_ true k o n xs fs h = .err .noData h := by
  cases e with
  | d1 e =>
    match xs, fs, hx, hf with
    | [x], [f], _, _ => exact D1.PD.at_empty e h n x f
  | d2 e =>
    match xs, fs, hx, hf with
    | [x, y], [f, g], _, _ => exact D2.PD.at_empty e h n x y f g
  | d3 e =>
    match xs, fs, hx, hf with
    | [x, y, z], [f, g, l], _, _ => exact D3.PD.at_empty e h n x y z f g l

theorem Obj.at_reject {k es o} {h : Heap V} {B cell} (r : ObjReady k es o h B cell) (fits : ShapeFits k.N (mkShape es k.locs))
    {n : Nat} {xs : List Int} {fs : List FL} (hx : xs.length = k.locs.length) (hf : fs.length = k.locs.length) {e : Err}
    (he : accessErr k.N (mkShape es k.locs) n xs fs = some e) : Obj.at_ true k o n xs fs h = .err e h := by
  cases r with
  | @d1 N L0 e0 o h B cell r =>
    match xs, fs, hx, hf with
    | [x], [f], _, _ => exact D1.PD.at_reject r (fits.1 ⟨e0, L0⟩ (by simp [mkShape])) he
  | @d2 N L0 L1 e0 e1 o h B P cell r =>
    match xs, fs, hx, hf with
    | [x, y], [f, g], _, _ =>
      exact D2.PD.at_reject r (fits.1 ⟨e0, L0⟩ (by simp [mkShape])) (fits.1 ⟨e1, L1⟩ (by simp [mkShape])) he
  | @d3 N L0 L1 L2 e0 e1 e2 o h B P Q cell r =>
    match xs, fs, hx, hf with
    | [x, y, z], [f, g, l], _, _ =>
      exact D3.PD.at_reject r (fits.1 ⟨e0, L0⟩ (by simp [mkShape])) (fits.1 ⟨e1, L1⟩ (by simp [mkShape]))
        (fits.1 ⟨e2, L2⟩ (by simp [mkShape])) he

theorem Obj.at_ok (chk : Bool) {k es o} {h : Heap V} {B cell} (r : ObjReady k es o h B cell)
    (fits : ShapeFits k.N (mkShape es k.locs))
    {n : Nat} {xs : List Int} {fs : List FL} (hx : xs.length = k.locs.length) (hf : fs.length = k.locs.length)
    (he : accessErr k.N (mkShape es k.locs) n xs fs = none) :
    Obj.at_ chk k o n xs fs h
      = .ok (.at B (n * points (mkShape es k.locs) + offset (mkShape es k.locs) (point xs fs))) h ∧
    n < k.N ∧ HasPt (mkShape es k.locs) (point xs fs) := by
  cases r with
  | @d1 N L0 e0 o h B cell r =>
    match xs, fs, hx, hf with
    | [x], [f], _, _ => exact D1.PD.at_ok chk r (fits.1 ⟨e0, L0⟩ (by simp [mkShape])) he
  | @d2 N L0 L1 e0 e1 o h B P cell r =>
    match xs, fs, hx, hf with
    | [x, y], [f, g], _, _ =>
      exact D2.PD.at_ok chk r (fits.1 ⟨e0, L0⟩ (by simp [mkShape])) (fits.1 ⟨e1, L1⟩ (by simp [mkShape])) he
  | @d3 N L0 L1 L2 e0 e1 e2 o h B P Q cell r =>
    match xs, fs, hx, hf with
    | [x, y, z], [f, g, l], _, _ =>
      exact D3.PD.at_ok chk r (fits.1 ⟨e0, L0⟩ (by simp [mkShape])) (fits.1 ⟨e1, L1⟩ (by simp [mkShape]))
        (fits.1 ⟨e2, L2⟩ (by simp [mkShape])) he

theorem Obj.data_pt_eq (chk : Bool) {k es o} {h : Heap V} {B cell} (r : ObjReady k es o h B cell)
    (fits : ShapeFits k.N (mkShape es k.locs)) (pos : points (mkShape es k.locs) ≠ 0) {n : Nat} (hn : n < k.N) :
    Obj.data_pt chk k o n h = .ok (.at B (n * points (mkShape es k.locs))) h := by
  cases r with
  | @d1 N L0 e0 o h B cell r => exact D1.PD.data_pt_eq chk r (fits.1 ⟨e0, L0⟩ (by simp [mkShape])) hn
  | @d2 N L0 L1 e0 e1 o h B P cell r =>
    exact D2.PD.data_pt_eq chk r (fits.1 ⟨e0, L0⟩ (by simp [mkShape])) (fits.1 ⟨e1, L1⟩ (by simp [mkShape])) hn pos
  | @d3 N L0 L1 L2 e0 e1 e2 o h B P Q cell r =>
    exact D3.PD.data_pt_eq chk r (fits.1 ⟨e0, L0⟩ (by simp [mkShape])) (fits.1 ⟨e1, L1⟩ (by simp [mkShape]))
      (fits.1 ⟨e2, L2⟩ (by simp [mkShape])) hn pos

/-! ## lifecycle -/

/-- the outcome of a call with result error `e?` -/
def Res.ofErr {σ : Type} (e : Option Err) (s : σ) : Res σ Unit :=
  match e with
  | none => .ok () s
  | some e => .err e s

/-- the row pointer of a component -/
def Obj.row : Obj → Nat → Ptr
  | .d1 o, n => o.pt0 n
  | .d2 o, n => o.pt0 n
  | .d3 o, n => o.pt0 n

/-- a row pointer of the array points into block `b` -/
def Obj.Points (k : Kind) (o : Obj) (b : Nat) : Prop := ∃ n < k.N, ∃ off, o.row n = .at b off

/-- the last pointer member that `alloc` sets before the row pointers is set -/
def Obj.Tied : Obj → Prop
  | .d1 o => o.data ≠ .null
  | .d2 o => o.pt1 ≠ .null
  | .d3 o => o.pt2 ≠ .null

/-- Unless `alloc` succeeds, row pointers stay as they were while new blocks are fresh. -/
def Obj.Moved (k : Kind) (next : Nat) (o o' : Obj) : Prop :=
  o' = o ∨ o'.Tied ∨ (∀ b, o'.Points k b → o.Points k b) ∧ ∀ b ∈ o'.own, next ≤ b

theorem Obj.Moved.refl (k : Kind) (next : Nat) (o : Obj) : Obj.Moved k next o o := .inl rfl

theorem Obj.Moved.same {k : Kind} {next : Nat} {o o' : Obj} (h : ∀ n < k.N, o'.row n = o.row n) (hf : ∀ b ∈ o'.own, next ≤ b) :
    Obj.Moved k next o o' := by
  refine .inr (.inr ⟨?_, hf⟩)
  rintro b ⟨n, hn, off, e⟩
  exact ⟨n, hn, off, by rw [← h n hn]; exact e⟩

theorem Obj.Moved.null {k : Kind} {next : Nat} {o o' : Obj} (h : ∀ n < k.N, o'.row n = .null) (hf : ∀ b ∈ o'.own, next ≤ b) :
    Obj.Moved k next o o' := by
  refine .inr (.inr ⟨?_, hf⟩)
  rintro b ⟨n, hn, off, e⟩
  rw [h n hn] at e; cases e

theorem ObjReady.tied {k es o} {h : Heap V} {B cell} (r : ObjReady k es o h B cell) : o.Tied := by
  cases r with
  | d1 r => simp [Obj.Tied, r.data]
  | d2 r => simp [Obj.Tied, r.pt1]
  | d3 r => simp [Obj.Tied, r.pt2]

theorem ObjEmpty.loose {k o} (e : ObjEmpty k o) : ¬ o.Tied := by
  cases e with
  | d1 e => simp [Obj.Tied, e.data]
  | d2 e => simp [Obj.Tied, e.pt1]
  | d3 e => simp [Obj.Tied, e.pt2]

theorem ObjBroken.loose {k es g o} {h : Heap V} (r : ObjBroken k es g o h) : ¬ o.Tied := by
  cases r with
  | d2 r => simp [Obj.Tied, r.pt1]
  | d3 r => simp [Obj.Tied, r.pt2]
  | d3' r => simp [Obj.Tied, r.pt2]

theorem ObjReady.points {k es o} {h : Heap V} {B cell} (r : ObjReady k es o h B cell) {b : Nat} (p : o.Points k b) : b ∈ o.own := by
  obtain ⟨n, hn, off, e⟩ := p
  cases r with
  | d1 r => simp only [Obj.row, r.pt0 n hn] at e; cases e; simp [Obj.own, r.data, Ptr.blocks]
  | d2 r => simp only [Obj.row, r.pt0 n hn] at e; cases e; simp [Obj.own, r.pt1, Ptr.blocks]
  | d3 r => simp only [Obj.row, r.pt0 n hn] at e; cases e; simp [Obj.own, r.pt1, Ptr.blocks]

theorem ObjReady.moved {k es o o'} {next : Nat} {h : Heap V} {B cell} (r : ObjReady k es o' h B cell) : Obj.Moved k next o o' :=
  .inr (.inl r.tied)

/-- the member function call behaves like the abstract result `r` -/
def Does (m : M (St V Obj) Unit) (k : Kind) (h : Heap V) (o : Obj) (r : LRes V) : Prop :=
  ∃ h' o', m ⟨h, o⟩ = Res.ofErr r.err ⟨h', o'⟩ ∧ Reps k o' h' r.arr ∧ Step h o.own h' o'.own ∧ h'.next = h.next + r.used ∧
    Obj.Moved k h.next o o'

theorem wrap_ok {O α : Type} {mk : O → Obj} {m : M (St V O) α} {h : Heap V} {o : O} {a : α} {s : St V O}
    (e : m ⟨h, o⟩ = .ok a s) : St.wrap mk m h o = .ok a ⟨s.h, mk s.o⟩ := by unfold St.wrap; rw [e]
theorem wrap_err {O α : Type} {mk : O → Obj} {m : M (St V O) α} {h : Heap V} {o : O} {x : Err} {s : St V O}
    (e : m ⟨h, o⟩ = .err x s) : St.wrap mk m h o = .err x ⟨s.h, mk s.o⟩ := by unfold St.wrap; rw [e]

theorem Obj.alloc_notEmpty (chk : Bool) {k o} {h : Heap V} {a : AArr V} (r : Reps k o h a) (ha : a ≠ .empty) {es : List Ext}
    (hl : es.length = k.locs.length) : Obj.alloc chk k es ⟨h, o⟩ = .err .notEmpty ⟨h, o⟩ := by
  cases r with
  | empty => exact (ha rfl).elim
  | ready r =>
    cases r with
    | d1 r =>
      match es, hl with
      | [a], _ => exact wrap_err (D1.PD.alloc_notEmpty chk (by rw [r.data]; simp))
    | d2 r =>
      match es, hl with
      | [a, b], _ => exact wrap_err (D2.PD.alloc_notEmpty chk (by rw [r.data]; simp))
    | d3 r =>
      match es, hl with
      | [a, b, c], _ => exact wrap_err (D3.PD.alloc_notEmpty chk (by rw [r.data]; simp))
  | broken r =>
    cases r with
    | d2 r =>
      match es, hl with
      | [a, b], _ => exact wrap_err (D2.PD.alloc_notEmpty chk (by rw [r.data]; simp))
    | d3 r =>
      match es, hl with
      | [a, b, c], _ => exact wrap_err (D3.PD.alloc_notEmpty chk (by rw [r.data]; simp))
    | d3' r =>
      match es, hl with
      | [a, b, c], _ => exact wrap_err (D3.PD.alloc_notEmpty chk (by rw [r.data]; simp))

theorem D1.PD.alloc_does (chk : Bool) {N L0} {o : D1.PD} (h : Heap V) (e : D1.PD.Empty o) (hN : N < 4294967296) {e0 : Ext}
    (hs : ShapeFits N (mkShape [e0] [L0])) :
    Does (Obj.alloc chk ⟨N, [L0]⟩ [e0]) ⟨N, [L0]⟩ h (.d1 o) (allocEmpty h.mem h.next ⟨N, [L0]⟩ [e0]) := by
  have f0 := hs.1 ⟨e0, L0⟩ (by simp [mkShape])
  have ow : (Obj.d1 o).own = [] := (ObjEmpty.d1 (N := N) (L0 := L0) e).own
  unfold allocEmpty
  cases he : sizeErrs 0 [e0] with
  | some x =>
    exact ⟨h, .d1 o, wrap_err (D1.PD.alloc_bad chk e.data (Nat.lt_of_succ_lt f0) he), .empty (.d1 e), Step.refl _ _, rfl, .refl _ _ _⟩
  | none =>
    simp only
    by_cases hp : points (mkShape [e0] [L0]) = 0
    · rw [if_pos hp]
      exact ⟨h, .d1 o, wrap_ok (D1.PD.alloc_none chk e.data f0 he hp), .empty (.d1 e), Step.refl _ _, rfl, .refl _ _ _⟩
    · rw [if_neg hp]
      have key := D1.PD.alloc_some (h := h) chk e.data hN (Nat.lt_of_succ_lt f0) hs.2 he hp
      generalize hr : D1.PD.alloc chk N L0 e0.n e0.i e0.p ⟨h, o⟩ = r at key
      cases key with
      | nomem hm =>
        have : granted h.mem h.next (requests N (mkShape [e0] [L0])) = 0 := by
          simp only [requests, granted, mkShape, hm]; rfl
        rw [this, if_neg (by simp [requests]), if_pos rfl]
        refine ⟨h.skip, .d1 o, wrap_err hr, .empty (.d1 e), ⟨rfl, by simp, fun _ _ _ => rfl, by simp [ow], by simp [ow]⟩, rfl, .refl _ _ _⟩
      | ok h' o' hm hn hmem hfr hr' =>
        have : granted h.mem h.next (requests N (mkShape [e0] [L0])) = 1 := by
          simp only [requests, granted, mkShape, hm, tables]; rfl
        rw [this, if_pos (by simp [requests, mkShape, tables])]
        have ow' : (Obj.d1 o').own = [h.next] := by simp [Obj.own, hr'.data, Ptr.blocks]
        refine ⟨h', .d1 o', wrap_ok hr, .ready (.d1 hr') hs hp (fun _ _ _ _ => rfl), ⟨hmem, by omega, ?_, by simp [ow], ?_⟩, hn, ObjReady.moved (.d1 hr')⟩
        · intro b _ hb; rw [ow'] at hb; exact hfr b (by simpa using hb)
        · intro b hb; rw [ow'] at hb; simp at hb; right; omega

theorem D2.PD.alloc_does (chk : Bool) {N L0 L1} {o : D2.PD} (h : Heap V) (e : D2.PD.Empty o) (hN : N < 4294967296) (hN0 : N ≠ 0)
    {e0 e1 : Ext} (hs : ShapeFits N (mkShape [e0, e1] [L0, L1])) :
    Does (Obj.alloc chk ⟨N, [L0, L1]⟩ [e0, e1]) ⟨N, [L0, L1]⟩ h (.d2 o) (allocEmpty h.mem h.next ⟨N, [L0, L1]⟩ [e0, e1]) := by
  have f0 := hs.1 ⟨e0, L0⟩ (by simp [mkShape])
  have f1 := hs.1 ⟨e1, L1⟩ (by simp [mkShape])
  have ow : (Obj.d2 o).own = [] := (ObjEmpty.d2 (N := N) (L0 := L0) (L1 := L1) e).own
  unfold allocEmpty
  cases he : sizeErrs 0 [e0, e1] with
  | some x =>
    exact ⟨h, .d2 o, wrap_err (D2.PD.alloc_bad chk e.data (Nat.lt_of_succ_lt f0) (Nat.lt_of_succ_lt f1) he), .empty (.d2 e), Step.refl _ _, rfl, .refl _ _ _⟩
  | none =>
    simp only
    by_cases hp : points (mkShape [e0, e1] [L0, L1]) = 0
    · rw [if_pos hp]
      exact ⟨h, .d2 o, wrap_ok (D2.PD.alloc_none chk e.data f0 f1 he hp), .empty (.d2 e), Step.refl _ _, rfl, .refl _ _ _⟩
    · rw [if_neg hp]
      have key := D2.PD.alloc_some (h := h) chk e.data e.pt1 hN hN0 (Nat.lt_of_succ_lt f0) (Nat.lt_of_succ_lt f1) hs.2 he hp
      generalize hr : D2.PD.alloc chk N L0 L1 e0.n e0.i e0.p e1.n e1.i e1.p ⟨h, o⟩ = r at key
      have hlen : (requests N (mkShape [e0, e1] [L0, L1])).length = 2 := by simp [requests, mkShape, tables]
      cases key with
      | nomem hm =>
        have : granted h.mem h.next (requests N (mkShape [e0, e1] [L0, L1])) = 0 := by
          simp only [requests, granted, mkShape, hm]; rfl
        rw [this, if_neg (by simp [requests]), if_pos rfl]
        refine ⟨h.skip, .d2 o, wrap_err hr, .empty (.d2 e), ⟨rfl, by simp, fun _ _ _ => rfl, by simp [ow], by simp [ow]⟩, rfl, .refl _ _ _⟩
      | broken h' o' hm hm2 hn hmem hfr hr' hpt =>
        have : granted h.mem h.next (requests N (mkShape [e0, e1] [L0, L1])) = 1 := by
          simp only [requests, granted, mkShape, hm, hm2, tables]; rfl
        rw [this, hlen, if_neg (by omega), if_neg (by omega)]
        have ow' : (Obj.d2 o').own = [h.next] := by simp [Obj.own, hr'.data, hr'.pt1, Ptr.blocks]
        refine ⟨h', .d2 o', wrap_err hr, .broken (.d2 hr') hs, ⟨hmem, by omega, ?_, by simp [ow], ?_⟩, hn,
          .same (fun n _ => congrFun hpt n) (by rw [ow']; simp)⟩
        · intro b _ hb; rw [ow'] at hb; exact hfr b (by simpa using hb)
        · intro b hb; rw [ow'] at hb; simp at hb; right; omega
      | ok h' o' hm hm2 hn hmem hfr hr' =>
        have : granted h.mem h.next (requests N (mkShape [e0, e1] [L0, L1])) = 2 := by
          simp only [requests, granted, mkShape, hm, hm2, tables]; rfl
        rw [this, hlen, if_pos rfl]
        have ow' : (Obj.d2 o').own = [h.next, h.next + 1] := by simp [Obj.own, hr'.data, hr'.pt1, Ptr.blocks]
        refine ⟨h', .d2 o', wrap_ok hr, .ready (.d2 hr') hs hp (fun _ _ _ _ => rfl), ⟨hmem, by omega, ?_, by simp [ow], ?_⟩, hn, ObjReady.moved (.d2 hr')⟩
        · intro b _ hb; rw [ow'] at hb; simp at hb; exact hfr b hb.1 hb.2
        · intro b hb; rw [ow'] at hb; simp at hb; right; omega

theorem D3.PD.alloc_does (chk : Bool) {N L0 L1 L2} {o : D3.PD} (h : Heap V) (e : D3.PD.Empty o) (hN : N < 4294967296) (hN0 : N ≠ 0)
    {e0 e1 e2 : Ext} (hs : ShapeFits N (mkShape [e0, e1, e2] [L0, L1, L2])) :
    Does (Obj.alloc chk ⟨N, [L0, L1, L2]⟩ [e0, e1, e2]) ⟨N, [L0, L1, L2]⟩ h (.d3 o)
      (allocEmpty h.mem h.next ⟨N, [L0, L1, L2]⟩ [e0, e1, e2]) := by
  have f0 := hs.1 ⟨e0, L0⟩ (by simp [mkShape])
  have f1 := hs.1 ⟨e1, L1⟩ (by simp [mkShape])
  have f2 := hs.1 ⟨e2, L2⟩ (by simp [mkShape])
  have ow : (Obj.d3 o).own = [] := (ObjEmpty.d3 (N := N) (L0 := L0) (L1 := L1) (L2 := L2) e).own
  unfold allocEmpty
  cases he : sizeErrs 0 [e0, e1, e2] with
  | some x =>
    exact ⟨h, .d3 o, wrap_err (D3.PD.alloc_bad chk e.data (Nat.lt_of_succ_lt f0) (Nat.lt_of_succ_lt f1) (Nat.lt_of_succ_lt f2) he), .empty (.d3 e), Step.refl _ _, rfl, .refl _ _ _⟩
  | none =>
    simp only
    by_cases hp : points (mkShape [e0, e1, e2] [L0, L1, L2]) = 0
    · rw [if_pos hp]
      refine ⟨h, .d3 o, wrap_ok (D3.PD.alloc_none chk e.data f0 f1 f2 ?_ he hp), .empty (.d3 e), Step.refl _ _, rfl, .refl _ _ _⟩
      simp only [mkShape, points, Nat.mul_one, Nat.mul_eq_zero] at hp
      rcases hp with hp | hp | hp
      · rw [hp]; simp
      · rw [hp]; simp
      · exact .inr hp
    · rw [if_neg hp]
      have key := D3.PD.alloc_some (h := h) chk e.data e.pt1 e.pt2 hN hN0 (Nat.lt_of_succ_lt f0) (Nat.lt_of_succ_lt f1) (Nat.lt_of_succ_lt f2) hs.2 he hp
      generalize hr : D3.PD.alloc chk N L0 L1 L2 e0.n e0.i e0.p e1.n e1.i e1.p e2.n e2.i e2.p ⟨h, o⟩ = r at key
      have hlen : (requests N (mkShape [e0, e1, e2] [L0, L1, L2])).length = 3 := by simp [requests, mkShape, tables]
      cases key with
      | nomem hm =>
        have : granted h.mem h.next (requests N (mkShape [e0, e1, e2] [L0, L1, L2])) = 0 := by
          simp only [requests, granted, mkShape, hm]; rfl
        rw [this, if_neg (by simp [requests]), if_pos rfl]
        refine ⟨h.skip, .d3 o, wrap_err hr, .empty (.d3 e), ⟨rfl, by simp, fun _ _ _ => rfl, by simp [ow], by simp [ow]⟩, rfl, .refl _ _ _⟩
      | broken h' o' hm hm2 hn hmem hfr hr' hpt =>
        have : granted h.mem h.next (requests N (mkShape [e0, e1, e2] [L0, L1, L2])) = 1 := by
          simp only [requests, granted, mkShape, hm, hm2, tables]; rfl
        rw [this, hlen, if_neg (by omega), if_neg (by omega)]
        have ow' : (Obj.d3 o').own = [h.next] := by simp [Obj.own, hr'.data, hr'.pt1, hr'.pt2, Ptr.blocks]
        refine ⟨h', .d3 o', wrap_err hr, .broken (.d3 hr') hs, ⟨hmem, by omega, ?_, by simp [ow], ?_⟩, hn,
          .same (fun n _ => congrFun hpt n) (by rw [ow']; simp)⟩
        · intro b _ hb; rw [ow'] at hb; exact hfr b (by simpa using hb)
        · intro b hb; rw [ow'] at hb; simp at hb; right; omega
      | broken2 h' o' hm hm2 hm3 hn hmem hfr hr' hpt =>
        have : granted h.mem h.next (requests N (mkShape [e0, e1, e2] [L0, L1, L2])) = 2 := by
          simp only [requests, granted, mkShape, hm, hm2, hm3, tables]; rfl
        rw [this, hlen, if_neg (by omega), if_neg (by omega)]
        have ow' : (Obj.d3 o').own = [h.next, h.next + 1] := by simp [Obj.own, hr'.data, hr'.pt1, hr'.pt2, Ptr.blocks]
        refine ⟨h', .d3 o', wrap_err hr, .broken (.d3' hr') hs, ⟨hmem, by omega, ?_, by simp [ow], ?_⟩, hn,
          .same (fun n _ => congrFun hpt n) (by rw [ow']; simp)⟩
        · intro b _ hb; rw [ow'] at hb; simp at hb; exact hfr b hb.1 hb.2
        · intro b hb; rw [ow'] at hb; simp at hb; right; omega
      | ok h' o' hm hm2 hm3 hn hmem hfr hr' =>
        have : granted h.mem h.next (requests N (mkShape [e0, e1, e2] [L0, L1, L2])) = 3 := by
          simp only [requests, granted, mkShape, hm, hm2, hm3, tables]; rfl
        rw [this, hlen, if_pos rfl]
        have ow' : (Obj.d3 o').own = [h.next, h.next + 1, h.next + 2] := by
          simp [Obj.own, hr'.data, hr'.pt1, hr'.pt2, Ptr.blocks]
        refine ⟨h', .d3 o', wrap_ok hr, .ready (.d3 hr') hs hp (fun _ _ _ _ => rfl), ⟨hmem, by omega, ?_, by simp [ow], ?_⟩, hn, ObjReady.moved (.d3 hr')⟩
        · intro b _ hb; rw [ow'] at hb; simp at hb; exact hfr b hb.1 hb.2.1 hb.2.2
        · intro b hb; rw [ow'] at hb; simp at hb; right; omega

theorem Obj.alloc_empty (chk : Bool) {k o} (h : Heap V) (e : ObjEmpty k o) (hN : k.N < 4294967296) (hN0 : k.N ≠ 0)
    {es : List Ext} (hs : SizesOk k es) :
    Does (Obj.alloc chk k es) k h o (allocEmpty h.mem h.next k es) := by
  obtain ⟨hl, hs⟩ := hs
  cases e with
  | d1 e =>
    match es, hl with
    | [a], _ => exact D1.PD.alloc_does chk h e hN hs
  | d2 e =>
    match es, hl with
    | [a, b], _ => exact D2.PD.alloc_does chk h e hN hN0 hs
  | d3 e =>
    match es, hl with
    | [a, b, c], _ => exact D3.PD.alloc_does chk h e hN hN0 hs

theorem Obj.alloc_does (chk : Bool) {k o} {h : Heap V} {a : AArr V} (r : Reps k o h a) (hN : k.N < 4294967296) (hN0 : k.N ≠ 0)
    {es : List Ext} (hs : SizesOk k es) :
    Does (Obj.alloc chk k es) k h o (allocStep h.mem h.next k es a) := by
  cases r with
  | empty e => exact Obj.alloc_empty chk h e hN hN0 hs
  | ready r f p v =>
    exact ⟨h, o, Obj.alloc_notEmpty chk (.ready r f p v) (by simp) hs.1, .ready r f p v, Step.refl _ _, rfl, .refl _ _ _⟩
  | broken r f =>
    exact ⟨h, o, Obj.alloc_notEmpty chk (.broken r f) (by simp) hs.1, .broken r f, Step.refl _ _, rfl, .refl _ _ _⟩

theorem Obj.clear_does {k o} {h : Heap V} {a : AArr V} (r : Reps k o h a) (hN : k.N < 4294967296) :
    Does (Obj.clear k) k h o (clearStep a) := by
  cases r with
  | empty e =>
    refine ⟨h, o, ?_, .empty e, Step.refl _ _, rfl, .refl _ _ _⟩
    cases e with
    | d1 e => exact wrap_err (D1.PD.clear_empty e.data)
    | d2 e => exact wrap_err (D2.PD.clear_empty e.data)
    | d3 e => exact wrap_err (D3.PD.clear_empty e.data)
  | @ready _ _ B _ r f p v =>
    cases r with
    | @d1 N L0 e0 o h B cell r =>
      obtain ⟨o', h1, h2, h3p⟩ := D1.PD.clear_ready hN r
      have ow : (Obj.d1 o).own = [B] := by simp [Obj.own, r.data, Ptr.blocks]
      have ow' : (Obj.d1 o').own = [] := (ObjEmpty.d1 (N := N) (L0 := L0) h2).own
      refine ⟨_, .d1 o', wrap_ok h1, .empty (.d1 h2), ⟨rfl, Nat.le_refl _, ?_, ?_, by simp [ow']⟩, rfl, .null h3p (by simp [ow'])⟩
      · intro b hb _; rw [ow] at hb; exact Heap.upd_blk_ne _ _ (by simpa using hb)
      · intro b hb _; rw [ow] at hb; simp at hb; subst hb; simp
    | @d2 N L0 L1 e0 e1 o h B P cell r =>
      obtain ⟨o', h1, h2, h3p⟩ := D2.PD.clear_ready r
      have ow : (Obj.d2 o).own = [B, P] := by simp [Obj.own, r.data, r.pt1, Ptr.blocks]
      have ow' : (Obj.d2 o').own = [] := (ObjEmpty.d2 (N := N) (L0 := L0) (L1 := L1) h2).own
      refine ⟨_, .d2 o', wrap_ok h1, .empty (.d2 h2), ⟨rfl, Nat.le_refl _, ?_, ?_, by simp [ow']⟩, rfl,
        .same (fun n _ => congrFun h3p n) (by simp [ow'])⟩
      · intro b hb _; rw [ow] at hb; simp at hb
        rw [Heap.upd_blk_ne _ _ hb.2, Heap.upd_blk_ne _ _ hb.1]
      · intro b hb _; rw [ow] at hb; simp at hb
        by_cases h3 : b = P
        · subst h3; simp
        · rw [Heap.upd_blk_ne _ _ h3]
          have : b = B := by tauto
          subst this; simp
    | @d3 N L0 L1 L2 e0 e1 e2 o h B P Q cell r =>
      obtain ⟨o', h1, h2, h3p⟩ := D3.PD.clear_ready r
      have ow : (Obj.d3 o).own = [B, P, Q] := by simp [Obj.own, r.data, r.pt1, r.pt2, Ptr.blocks]
      have ow' : (Obj.d3 o').own = [] := (ObjEmpty.d3 (N := N) (L0 := L0) (L1 := L1) (L2 := L2) h2).own
      refine ⟨_, .d3 o', wrap_ok h1, .empty (.d3 h2), ⟨rfl, Nat.le_refl _, ?_, ?_, by simp [ow']⟩, rfl,
        .same (fun n _ => congrFun h3p n) (by simp [ow'])⟩
      · intro b hb _; rw [ow] at hb; simp at hb
        rw [Heap.upd_blk_ne _ _ hb.2.2, Heap.upd_blk_ne _ _ hb.2.1, Heap.upd_blk_ne _ _ hb.1]
      · intro b hb _; rw [ow] at hb; simp at hb
        by_cases h4 : b = Q
        · subst h4; simp
        · rw [Heap.upd_blk_ne _ _ h4]
          by_cases h3 : b = P
          · subst h3; simp
          · rw [Heap.upd_blk_ne _ _ h3]
            have : b = B := by tauto
            subst this; simp
  | broken r f =>
    cases r with
    | @d2 N L0 L1 e0 e1 o h B r =>
      obtain ⟨o', h1, h2, h3p⟩ := D2.PD.clear_broken r
      have ow : (Obj.d2 o).own = [B] := by simp [Obj.own, r.data, r.pt1, Ptr.blocks]
      have ow' : (Obj.d2 o').own = [] := (ObjEmpty.d2 (N := N) (L0 := L0) (L1 := L1) h2).own
      refine ⟨_, .d2 o', wrap_ok h1, .empty (.d2 h2), ⟨rfl, Nat.le_refl _, ?_, ?_, by simp [ow']⟩, rfl,
        .same (fun n _ => congrFun h3p n) (by simp [ow'])⟩
      · intro b hb _; rw [ow] at hb; exact Heap.upd_blk_ne _ _ (by simpa using hb)
      · intro b hb _; rw [ow] at hb; simp at hb; subst hb; simp
    | @d3 N L0 L1 L2 e0 e1 e2 o h B r =>
      obtain ⟨o', h1, h2, h3p⟩ := D3.PD.clear_broken r
      have ow : (Obj.d3 o).own = [B] := by simp [Obj.own, r.data, r.pt1, r.pt2, Ptr.blocks]
      have ow' : (Obj.d3 o').own = [] := (ObjEmpty.d3 (N := N) (L0 := L0) (L1 := L1) (L2 := L2) h2).own
      refine ⟨_, .d3 o', wrap_ok h1, .empty (.d3 h2), ⟨rfl, Nat.le_refl _, ?_, ?_, by simp [ow']⟩, rfl,
        .same (fun n _ => congrFun h3p n) (by simp [ow'])⟩
      · intro b hb _; rw [ow] at hb; exact Heap.upd_blk_ne _ _ (by simpa using hb)
      · intro b hb _; rw [ow] at hb; simp at hb; subst hb; simp
    | @d3' N L0 L1 L2 e0 e1 e2 o h B P r =>
      obtain ⟨o', h1, h2, h3p⟩ := D3.PD.clear_broken2 r
      have ow : (Obj.d3 o).own = [B, P] := by simp [Obj.own, r.data, r.pt1, r.pt2, Ptr.blocks]
      have ow' : (Obj.d3 o').own = [] := (ObjEmpty.d3 (N := N) (L0 := L0) (L1 := L1) (L2 := L2) h2).own
      refine ⟨_, .d3 o', wrap_ok h1, .empty (.d3 h2), ⟨rfl, Nat.le_refl _, ?_, ?_, by simp [ow']⟩, rfl,
        .same (fun n _ => congrFun h3p n) (by simp [ow'])⟩
      · intro b hb _; rw [ow] at hb; simp at hb
        rw [Heap.upd_blk_ne _ _ hb.2, Heap.upd_blk_ne _ _ hb.1]
      · intro b hb _; rw [ow] at hb; simp at hb
        by_cases h3 : b = P
        · subst h3; simp
        · rw [Heap.upd_blk_ne _ _ h3]
          have : b = B := by tauto
          subst this; simp

/-- the object is of the class its kind says -/
inductive Typed : Kind → Obj → Prop
  | d1 {N L0 o} : Typed ⟨N, [L0]⟩ (.d1 o)
  | d2 {N L0 L1 o} : Typed ⟨N, [L0, L1]⟩ (.d2 o)
  | d3 {N L0 L1 L2 o} : Typed ⟨N, [L0, L1, L2]⟩ (.d3 o)

theorem Reps.typed {k o} {h : Heap V} {a : AArr V} (r : Reps k o h a) : Typed k o := by
  cases r with
  | empty e => cases e <;> constructor
  | ready r => cases r <;> constructor
  | broken r => cases r <;> constructor

theorem wrap_bind {O α β : Type} {mk : O → Obj} {m : M (St V O) α} {f : α → M (St V O) β} {G : M (St V Obj) α}
    {F : α → M (St V Obj) β} {h : Heap V} {o : O} (hG : G ⟨h, mk o⟩ = St.wrap mk m h o)
    (hF : ∀ a h o, F a ⟨h, mk o⟩ = St.wrap mk (f a) h o) :
    St.wrap mk (m >>= f) h o = (G >>= F) ⟨h, mk o⟩ := by
  rw [M.bind_run, hG]
  unfold St.wrap
  rw [M.bind_run]
  cases hm : m ⟨h, o⟩ with
  | ok a s => simp only; rw [hF]; rfl
  | err e s => rfl
  | ub u => rfl

theorem dimsFit_of {k : Kind} {es : List Ext} (hs : SizesOk k es) : DimsFit es := by
  obtain ⟨hl, hs, -⟩ := hs
  revert hl hs
  generalize k.locs = ls
  intro hl hs
  induction es generalizing ls with
  | nil => intro e he; cases he
  | cons a es ih =>
    cases ls with
    | nil => simp at hl
    | cons l ls =>
      intro e he
      rcases List.mem_cons.1 he with rfl | he
      · exact hs ⟨e, l⟩ (by simp [mkShape])
      · exact ih ls (by simpa using hl) (fun d hd => hs d (by simp [mkShape, hd])) e he

theorem Obj.realloc_eq (chk : Bool) {k o} (t : Typed k o) (h : Heap V) {es : List Ext} (hl : es.length = k.locs.length)
    (hs : DimsFit es) :
    Obj.realloc chk k es ⟨h, o⟩ = match sizeErrs 0 es with
      | some e => .err e ⟨h, o⟩
      | none => (do Obj.clear k; Obj.alloc chk k es) ⟨h, o⟩ := by
  cases t with
  | @d1 N L0 o =>
    match es, hl with
    | [a], _ =>
      have f0 := hs a (by simp)
      have e : ∀ x : Out Unit, x = Out.ofErr (sizeErrs 0 [a]) → St.wrap (V := V) .d1 (do
          M.lift x; D1.PD.clear N; D1.PD.alloc chk N L0 a.n a.i a.p) h o = match sizeErrs 0 [a] with
          | some e => .err e ⟨h, .d1 o⟩
          | none => (do Obj.clear ⟨N, [L0]⟩; Obj.alloc chk ⟨N, [L0]⟩ [a]) ⟨h, .d1 o⟩ := by
        rintro x rfl
        cases sizeErrs 0 [a] with
        | some e => rfl
        | none =>
          simp only [Out.ofErr, M.lift_ok, pure_bind]
          exact wrap_bind rfl (fun _ _ _ => rfl)
      exact e _ (D1.PD.check_eq a (Nat.lt_of_succ_lt f0))
  | @d2 N L0 L1 o =>
    match es, hl with
    | [a, b], _ =>
      have f0 := hs a (by simp)
      have f1 := hs b (by simp)
      have e : ∀ x : Out Unit, x = Out.ofErr (sizeErrs 0 [a, b]) → St.wrap (V := V) .d2 (do
          M.lift x; D2.PD.clear; D2.PD.alloc chk N L0 L1 a.n a.i a.p b.n b.i b.p) h o = match sizeErrs 0 [a, b] with
          | some e => .err e ⟨h, .d2 o⟩
          | none => (do Obj.clear ⟨N, [L0, L1]⟩; Obj.alloc chk ⟨N, [L0, L1]⟩ [a, b]) ⟨h, .d2 o⟩ := by
        rintro x rfl
        cases sizeErrs 0 [a, b] with
        | some e => rfl
        | none =>
          simp only [Out.ofErr, M.lift_ok, pure_bind]
          exact wrap_bind rfl (fun _ _ _ => rfl)
      exact e _ (D2.PD.check_eq a b (Nat.lt_of_succ_lt f0) (Nat.lt_of_succ_lt f1))
  | @d3 N L0 L1 L2 o =>
    match es, hl with
    | [a, b, c], _ =>
      have f0 := hs a (by simp)
      have f1 := hs b (by simp)
      have f2 := hs c (by simp)
      have e : ∀ x : Out Unit, x = Out.ofErr (sizeErrs 0 [a, b, c]) → St.wrap (V := V) .d3 (do
          M.lift x; D3.PD.clear; D3.PD.alloc chk N L0 L1 L2 a.n a.i a.p b.n b.i b.p c.n c.i c.p) h o = match sizeErrs 0 [a, b, c] with
          | some e => .err e ⟨h, .d3 o⟩
          | none => (do Obj.clear ⟨N, [L0, L1, L2]⟩; Obj.alloc chk ⟨N, [L0, L1, L2]⟩ [a, b, c]) ⟨h, .d3 o⟩ := by
        rintro x rfl
        cases sizeErrs 0 [a, b, c] with
        | some e => rfl
        | none =>
          simp only [Out.ofErr, M.lift_ok, pure_bind]
          exact wrap_bind rfl (fun _ _ _ => rfl)
      exact e _ (D3.PD.check_eq a b c (Nat.lt_of_succ_lt f0) (Nat.lt_of_succ_lt f1) (Nat.lt_of_succ_lt f2))

theorem Step.trans_empty {h h1 h2 : Heap V} {own own' : List Nat} (a : Step h own h1 []) (b : Step h1 [] h2 own') : Step h own h2 own' := by
  refine ⟨b.mem.trans a.mem, Nat.le_trans a.next b.next, ?_, ?_, ?_⟩
  · intro x h3 h4; rw [b.frame x (by simp) h4, a.frame x h3 (by simp)]
  · intro x h3 h4; rw [b.frame x (by simp) h4, a.freed x h3 (by simp)]
  · intro x h3
    rcases b.fresh x h3 with h4 | h4
    · simp at h4
    · right; have := a.next; omega

theorem Reps.own_empty {k o} {h : Heap V} (r : Reps k o h .empty) : o.own = [] := by
  cases r with
  | empty e => exact e.own

theorem Obj.realloc_does (chk : Bool) {k o} {h : Heap V} {a : AArr V} (r : Reps k o h a) (hN : k.N < 4294967296) (hN0 : k.N ≠ 0)
    {es : List Ext} (hs : SizesOk k es) :
    Does (Obj.realloc chk k es) k h o (reallocStep h.mem h.next k es a) := by
  unfold Does
  rw [Obj.realloc_eq chk r.typed h hs.1 (dimsFit_of hs)]
  unfold reallocStep
  cases sizeErrs 0 es with
  | some e => exact ⟨h, o, rfl, r, Step.refl _ _, rfl, .refl _ _ _⟩
  | none =>
    simp only
    obtain ⟨h1, o1, c1, c2, c3, c4, c5⟩ := Obj.clear_does r hN
    have main : clearStep a = ⟨none, .empty, 0⟩ →
        Does (do Obj.clear k; Obj.alloc chk k es) k h o (allocEmpty h.mem h.next k es) := by
      intro e
      rw [e] at c1 c2 c4
      have emp : ObjEmpty k o1 := by cases c2 with | empty e => exact e
      rw [emp.own] at c3
      obtain ⟨h2, o2, d1, d2, d3, d4, d5⟩ := Obj.alloc_empty chk h1 emp hN hN0 hs
      rw [emp.own] at d3
      have hn : h1.next = h.next := by simpa using c4
      rw [c3.mem, hn] at d1 d2 d4
      refine ⟨h2, o2, ?_, d2, c3.trans_empty d3, d4, ?_⟩
      · rw [M.bind_ok c1]; exact d1
      · rcases d5 with rfl | h | ⟨h, h'⟩
        · exact c5
        · exact .inr (.inl h)
        · rw [hn] at h'
          refine .inr (.inr ⟨fun b hb => ?_, h'⟩)
          rcases c5 with rfl | h3 | ⟨h3, -⟩
          · exact h b hb
          · exact (emp.loose h3).elim
          · exact h3 b (h b hb)
    cases a with
    | empty =>
      refine ⟨h1, o1, ?_, c2, c3, c4, c5⟩
      rw [M.bind_err c1]; rfl
    | ready es val => exact main rfl
    | broken es g => exact main rfl

theorem Typed.raw {k : Kind} (hk : KindOk k) (junk : Nat → Ptr) : Typed k (Obj.raw k junk) := by
  obtain ⟨N, locs⟩ := k
  obtain ⟨hl, -⟩ := hk
  match locs, hl with
  | [], h => simp at h
  | [_], _ => exact .d1
  | [_, _], _ => exact .d2
  | [_, _, _], _ => exact .d3
  | _ :: _ :: _ :: _ :: _, h => simp at h

theorem Obj.ctor0_zero {k o} (t : Typed k o) (h : Heap V) (hN0 : k.N = 0) : Obj.ctor0 k ⟨h, o⟩ = .err .nZero ⟨h, o⟩ := by
  cases t <;> cases hN0 <;> rfl

theorem Obj.ctor0_eq {k o} (t : Typed k o) (h : Heap V) (hN : k.N < 4294967296) (hN0 : k.N ≠ 0) :
    ∃ o', Obj.ctor0 k ⟨h, o⟩ = .ok () ⟨h, o'⟩ ∧ ObjEmpty k o' ∧ ∀ n < k.N, o'.row n = .null := by
  cases t with
  | d1 => exact ⟨_, wrap_ok (D1.PD.ctor0_eq _ hN0 hN h _), .d1 ⟨rfl, rfl⟩, fun n hn => if_pos hn⟩
  | d2 => exact ⟨_, wrap_ok (D2.PD.ctor0_eq _ hN0 hN h _), .d2 ⟨rfl, rfl, rfl⟩, fun n hn => if_pos hn⟩
  | d3 => exact ⟨_, wrap_ok (D3.PD.ctor0_eq _ hN0 hN h _), .d3 ⟨rfl, rfl, rfl, rfl⟩, fun n hn => if_pos hn⟩

theorem Obj.ctor_eq (chk : Bool) {k o} (t : Typed k o) (h : Heap V) {es : List Ext} (hl : es.length = k.locs.length) :
    Obj.ctor chk k es ⟨h, o⟩ = (do Obj.ctor0 k; Obj.alloc chk k es) ⟨h, o⟩ := by
  cases t with
  | @d1 N L0 o =>
    match es, hl with
    | [a], _ => exact wrap_bind rfl (fun _ _ _ => rfl)
  | @d2 N L0 L1 o =>
    match es, hl with
    | [a, b], _ => exact wrap_bind rfl (fun _ _ _ => rfl)
  | @d3 N L0 L1 L2 o =>
    match es, hl with
    | [a, b, c], _ => exact wrap_bind rfl (fun _ _ _ => rfl)

theorem Obj.dtor_does {k o} {h : Heap V} {a : AArr V} (r : Reps k o h a) (hN : k.N < 4294967296) :
    Does (Obj.dtor k) k h o ⟨none, .empty, 0⟩ := by
  have w1 : ∀ N (o : D1.PD), o.data ≠ .null → Obj.dtor ⟨N, k.locs⟩ ⟨h, .d1 o⟩ = Obj.clear ⟨N, k.locs⟩ ⟨h, .d1 o⟩ := by
    intro N o hd
    simp only [Obj.dtor, Obj.clear, St.wrap, D1.PD.dtor]
    rw [M.bind_ok (St.obj_run _), if_pos hd]
  have w2 : ∀ N (o : D2.PD), o.data ≠ .null → Obj.dtor ⟨N, k.locs⟩ ⟨h, .d2 o⟩ = Obj.clear ⟨N, k.locs⟩ ⟨h, .d2 o⟩ := by
    intro N o hd
    simp only [Obj.dtor, Obj.clear, St.wrap, D2.PD.dtor]
    rw [M.bind_ok (St.obj_run _), if_pos hd]
  have w3 : ∀ N (o : D3.PD), o.data ≠ .null → Obj.dtor ⟨N, k.locs⟩ ⟨h, .d3 o⟩ = Obj.clear ⟨N, k.locs⟩ ⟨h, .d3 o⟩ := by
    intro N o hd
    simp only [Obj.dtor, Obj.clear, St.wrap, D3.PD.dtor]
    rw [M.bind_ok (St.obj_run _), if_pos hd]
  have v1 : ∀ N (o : D1.PD), o.data = .null → Obj.dtor ⟨N, k.locs⟩ ⟨h, .d1 o⟩ = .ok () ⟨h, .d1 o⟩ := by
    intro N o hd
    simp only [Obj.dtor, St.wrap, D1.PD.dtor]
    rw [M.bind_ok (St.obj_run _), if_neg (by simp [hd])]; rfl
  have v2 : ∀ N (o : D2.PD), o.data = .null → Obj.dtor ⟨N, k.locs⟩ ⟨h, .d2 o⟩ = .ok () ⟨h, .d2 o⟩ := by
    intro N o hd
    simp only [Obj.dtor, St.wrap, D2.PD.dtor]
    rw [M.bind_ok (St.obj_run _), if_neg (by simp [hd])]; rfl
  have v3 : ∀ N (o : D3.PD), o.data = .null → Obj.dtor ⟨N, k.locs⟩ ⟨h, .d3 o⟩ = .ok () ⟨h, .d3 o⟩ := by
    intro N o hd
    simp only [Obj.dtor, St.wrap, D3.PD.dtor]
    rw [M.bind_ok (St.obj_run _), if_neg (by simp [hd])]; rfl
  have hc := Obj.clear_does r hN
  cases r with
  | empty e =>
    refine ⟨h, o, ?_, .empty e, Step.refl _ _, rfl, .refl _ _ _⟩
    cases e with
    | d1 e => exact v1 _ _ e.data
    | d2 e => exact v2 _ _ e.data
    | d3 e => exact v3 _ _ e.data
  | ready r f p v =>
    have e : Obj.dtor k ⟨h, o⟩ = Obj.clear k ⟨h, o⟩ := by
      cases r with
      | d1 r => exact w1 _ _ (by rw [r.data]; simp)
      | d2 r => exact w2 _ _ (by rw [r.data]; simp)
      | d3 r => exact w3 _ _ (by rw [r.data]; simp)
    unfold Does at hc ⊢
    rw [e]; exact hc
  | broken r f =>
    have e : Obj.dtor k ⟨h, o⟩ = Obj.clear k ⟨h, o⟩ := by
      cases r with
      | d2 r => exact w2 _ _ (by rw [r.data]; simp)
      | d3 r => exact w3 _ _ (by rw [r.data]; simp)
      | d3' r => exact w3 _ _ (by rw [r.data]; simp)
    unfold Does at hc ⊢
    rw [e]; exact hc

end Verif
