import Verif.Proof.AllocSize
/-!
# `alloc` for sizes whose points of every dimension are an `int`, the largest included
-/
namespace Verif
open Spec
variable {V : Type}

theorem wrap_state {O α : Type} {mk : O → Obj} {m : M (St V O) α} {h : Heap V} {o : O} {a : α} {t : St V Obj}
    (e : St.wrap mk m h o = .ok a t) : ∃ s, m ⟨h, o⟩ = .ok a s ∧ t = ⟨s.h, mk s.o⟩ := by
  unfold St.wrap at e
  cases hm : m ⟨h, o⟩ with
  | ok b s => rw [hm] at e; cases e; exact ⟨s, rfl, rfl⟩
  | err x s => rw [hm] at e; cases e
  | ub u => rw [hm] at e; cases e

/-- an `alloc` that returns, with all numbers in machine range, makes the array ready -/
theorem Obj.alloc_ready {c : Bool} {k : Kind} {o : Obj} {h : Heap V} (e : ObjEmpty k o) (hN : k.N < 4294967296) (hN0 : k.N ≠ 0)
    {es : List Ext} (hl : es.length = k.locs.length) (hf : ∀ e ∈ es, e.n + e.i + e.p < 2147483648)
    (hs : k.N * points (mkShape es k.locs) < 4294967296) (hp : points (mkShape es k.locs) ≠ 0) {t : St V Obj}
    (hr : Obj.alloc c k es ⟨h, o⟩ = .ok () t) : ∃ B cell, ObjReady k es t.o t.h B cell := by
  cases e with
  | @d1 N L0 o e =>
    match es, hl with
    | [e0], _ =>
      have f0 := hf e0 (by simp)
      obtain ⟨s, hq, rfl⟩ := wrap_state (mk := Obj.d1) hr
      cases he : sizeErrs 0 [e0] with
      | some x => rw [D1.PD.alloc_bad c e.data f0 he] at hq; cases hq
      | none =>
        have key := D1.PD.alloc_some (h := h) c e.data hN f0 hs he hp
        rw [hq] at key
        cases key with
        | ok h' o' hm hn hmem hfr hr' => exact ⟨_, _, .d1 hr'⟩
  | @d2 N L0 L1 o e =>
    match es, hl with
    | [e0, e1], _ =>
      have f0 := hf e0 (by simp)
      have f1 := hf e1 (by simp)
      obtain ⟨s, hq, rfl⟩ := wrap_state (mk := Obj.d2) hr
      cases he : sizeErrs 0 [e0, e1] with
      | some x => rw [D2.PD.alloc_bad c e.data f0 f1 he] at hq; cases hq
      | none =>
        have key := D2.PD.alloc_some (h := h) c e.data e.pt1 hN hN0 f0 f1 hs he hp
        rw [hq] at key
        cases key with
        | ok h' o' hm hm2 hn hmem hfr hr' => exact ⟨_, _, .d2 hr'⟩
  | @d3 N L0 L1 L2 o e =>
    match es, hl with
    | [e0, e1, e2], _ =>
      have f0 := hf e0 (by simp)
      have f1 := hf e1 (by simp)
      have f2 := hf e2 (by simp)
      obtain ⟨s, hq, rfl⟩ := wrap_state (mk := Obj.d3) hr
      cases he : sizeErrs 0 [e0, e1, e2] with
      | some x => rw [D3.PD.alloc_bad c e.data f0 f1 f2 he] at hq; cases hq
      | none =>
        have key := D3.PD.alloc_some (h := h) c e.data e.pt1 e.pt2 hN hN0 f0 f1 f2 hs he hp
        rw [hq] at key
        cases key with
        | ok h' o' hm hm2 hm3 hn hmem hfr hr' => exact ⟨_, _, .d3 hr'⟩

/-- what a ready array reports and holds, the largest sizes included -/
theorem Obj.ready_reports {k : Kind} {es : List Ext} {o : Obj} {h : Heap V} {B : Nat} {cell : Nat → Option V} (r : ObjReady k es o h B cell)
    (hf : ∀ e ∈ es, e.n + e.i + e.p < 2147483648) :
    o.sizes = es.map (fun e => ((e.n : Int), (e.i : Int), (e.p : Int))) ∧ o.data = .at B 0 ∧
    h.blk B = some (.vals (k.N * points (mkShape es k.locs)) cell) := by
  have fit : ∀ e ∈ es, e.Fits := fun e he => by have := hf e he; unfold Ext.Fits; omega
  refine ⟨?_, ?_, r.blk⟩
  · cases r with
    | @d1 N L0 e0 o h B cell r =>
      obtain ⟨a, b, c⟩ := D1.sz_fields_0 e0 (fit e0 (by simp))
      simp [Obj.sizes, r.size, a, b, c]
    | @d2 N L0 L1 e0 e1 o h B P cell r =>
      obtain ⟨a, b, c⟩ := D2.sz_fields_0 e0 e1 (fit e0 (by simp))
      obtain ⟨a', b', c'⟩ := D2.sz_fields_1 e0 e1 (fit e1 (by simp))
      simp [Obj.sizes, r.size, a, b, c, a', b', c']
    | @d3 N L0 L1 L2 e0 e1 e2 o h B P Q cell r =>
      obtain ⟨a, b, c⟩ := D3.sz_fields_0 e0 e1 e2 (fit e0 (by simp))
      obtain ⟨a', b', c'⟩ := D3.sz_fields_1 e0 e1 e2 (fit e1 (by simp))
      obtain ⟨a'', b'', c''⟩ := D3.sz_fields_2 e0 e1 e2 (fit e2 (by simp))
      simp [Obj.sizes, r.size, a, b, c, a', b', c', a'', b'', c'']
  · cases r with
    | d1 r => exact r.data
    | d2 r => exact r.data
    | d3 r => exact r.data

end Verif
