import Verif.Proof.AllocEdge
import Verif.Props.Verdict
/-!
# C11 for sizes whose points in one dimension do not fit `int`
-/
namespace Verif.Props
open Verif Spec
variable {V : Type} {mem : Nat → Nat → Bool} {chk : Bool} {w : World V} {aw : AWorld V}

/-- What the sizes of an array are after an `alloc` that returned, for all `unsigned` arguments: all zero or the arguments with their
bits read as `int`; and it only returns if these numbers, added up for every dimension, do not exceed the largest `int`. -/
theorem C11_reports (R : Reach mem chk w aw) {x : Nat} {k : Kind} (hx : aw.arr x = some (k, .empty)) (c : Bool)
    (es : List Ext) (hl : es.length = k.locs.length) (hu : Unsigned es) {w' : World V} (hw : exec c (.alloc x es) w = .ok .unit w') :
    (∃ l, exec c (.size x) w' = .ok (.sizes l) w' ∧
      (l = es.map (fun _ => (0, 0, 0)) ∨ l = es.map fun e => (asInt e.n, asInt e.i, asInt e.p))) ∧
    ∀ e ∈ es, asInt e.i + asInt e.p + asInt e.n ≤ 2147483647 := by
  obtain ⟨L, R⟩ := R.rel
  obtain ⟨o, hb, hk, h0, r⟩ := R.arr_some hx
  have em : ObjEmpty k o := by cases r with | empty e => exact e
  change (do World.call x (fun k => Obj.alloc c k es); pure .unit : M (World V) (Ret V)) w = _ at hw
  rw [M.bind_run] at hw
  unfold World.call at hw
  rw [hb] at hw
  simp only at hw
  cases hr : Obj.alloc c k es ⟨w.h, o⟩ with
  | ok u t =>
    rw [hr] at hw; cases hw
    obtain ⟨h1, h2⟩ := Obj.alloc_size em hl hu hr
    refine ⟨⟨t.o.sizes, ?_, h1⟩, h2⟩
    change (do let l ← World.access x (fun _ o => pure o.sizes); pure (.sizes l) : M (World V) (Ret V)) _ = _
    rw [M.bind_run]
    unfold World.access
    simp [World.put]
  | err e t => rw [hr] at hw; cases hw
  | ub u => rw [hr] at hw; cases hw

/-- C11 for sizes whose points in one dimension do not fit `int`: whenever `alloc` returns, the array does not report the sizes asked for. -/
theorem C11_beyond (R : Reach mem chk w aw) {x : Nat} {k : Kind} (hx : aw.arr x = some (k, .empty)) (c : Bool)
    (es : List Ext) (hl : es.length = k.locs.length) (hu : Unsigned es) {e : Ext} (he : e ∈ es) (hb : 2147483648 ≤ e.n + e.i + e.p)
    {w' : World V} (hw : exec c (.alloc x es) w = .ok .unit w') :
    exec c (.size x) w' ≠ .ok (.sizes (es.map fun e => ((e.n : Int), (e.i : Int), (e.p : Int)))) w' := by
  obtain ⟨⟨l, h1, h2⟩, h3⟩ := C11_reports R hx c es hl hu hw
  intro h
  rw [h] at h1
  have hll : es.map (fun e => ((e.n : Int), (e.i : Int), (e.p : Int))) = l := by
    injection h1 with h1; injection h1
  subst hll
  rcases h2 with h2 | h2
  · have := List.map_inj_left.mp h2 e he
    simp only [Prod.mk.injEq] at this
    omega
  · have := List.map_inj_left.mp h2 e he
    simp only [Prod.mk.injEq] at this
    have := h3 e he
    omega

/-- sizes the theorems speak about: 2^32-1 points in front and one interior point are accepted by the check and read as -1 and 1 -/
example : Unsigned [⟨4294967295, 1, 0⟩] ∧ 2147483648 ≤ 4294967295 + 1 + 0 ∧ sizeVerdict 0 [⟨4294967295, 1, 0⟩] = .passed ∧
    asInt 4294967295 = -1 ∧ asInt 1 + asInt 0 + asInt 4294967295 ≤ 2147483647 := by decide

/-- such an `alloc` returns: three interior points and 2^32-1 behind are reported as 3 and -1 -/
example : ((run (V := Int) true [.make 0 ⟨1, [.center]⟩ (fun _ => .null), .alloc 0 [⟨0, 3, 4294967295⟩], .size 0] (World.init fun _ _ => true)).map (·.1))
    = some [.ret .unit, .ret .unit, .ret (.sizes [(0, 3, -1)])] ∧
    ((run (V := Int) true [.make 0 ⟨1, [.center]⟩ (fun _ => .null), .alloc 0 [⟨4294967295, 1, 0⟩], .size 0] (World.init fun _ _ => true)).map (·.1))
    = some [.ret .unit, .ret .unit, .ret (.sizes [(0, 0, 0)])] := by decide +kernel

/-- C11 completely: for all `unsigned` arguments whose shape has points, an `alloc` that returned has provided what was asked for
exactly if the points of every dimension are an `int` and all elements together an `unsigned`. -/
theorem C11_all (R : Reach mem chk w aw) {x : Nat} {k : Kind} (hx : aw.arr x = some (k, .empty)) (c : Bool)
    (es : List Ext) (hl : es.length = k.locs.length) (hu : Unsigned es) {w' : World V} (hw : exec c (.alloc x es) w = .ok .unit w')
    (hp : points (mkShape es k.locs) ≠ 0) :
    (exec c (.size x) w' = .ok (.sizes (es.map fun e => ((e.n : Int), (e.i : Int), (e.p : Int)))) w' ∧
      ∃ o B cell, w'.objs x = some (k, o) ∧ o.data = .at B 0 ∧ w'.h.blk B = some (.vals (k.N * points (mkShape es k.locs)) cell))
    ↔ (∀ e ∈ es, e.n + e.i + e.p < 2147483648) ∧ k.N * points (mkShape es k.locs) < 4294967296 := by
  constructor
  · rintro ⟨h1, h2⟩
    refine ⟨fun e he => ?_, ?_⟩
    · exact Nat.lt_of_not_le fun hb => C11_beyond R hx c es hl hu he hb hw h1
    · exact Nat.lt_of_not_le fun hge => C11_never R hx c es hl hu hge hw h2
  · rintro ⟨hf, hs⟩
    obtain ⟨L, R⟩ := R.rel
    obtain ⟨o, hb, hk, h0, r⟩ := R.arr_some hx
    have em : ObjEmpty k o := by cases r with | empty e => exact e
    change (do World.call x (fun k => Obj.alloc c k es); pure .unit : M (World V) (Ret V)) w = _ at hw
    rw [M.bind_run] at hw
    unfold World.call at hw
    rw [hb] at hw
    simp only at hw
    cases hr : Obj.alloc c k es ⟨w.h, o⟩ with
    | ok u t =>
      rw [hr] at hw; cases hw
      obtain ⟨B, cell, rd⟩ := Obj.alloc_ready em hk.2 h0 hl hf hs hp hr
      obtain ⟨h1, h2, h3⟩ := Obj.ready_reports rd hf
      refine ⟨?_, t.o, B, cell, by simp [World.put], h2, h3⟩
      change (do let l ← World.access x (fun _ o => pure o.sizes); pure (.sizes l) : M (World V) (Ret V)) _ = _
      rw [M.bind_run]
      unfold World.access
      simp [World.put, h1]
    | err e t => rw [hr] at hw; cases hw
    | ub u => rw [hr] at hw; cases hw

/-- the largest size of one dimension: 2^31-1 points and half a point more -/
example : Unsigned [⟨1, 2147483645, 1⟩] ∧ (∀ e ∈ ([⟨1, 2147483645, 1⟩] : List Ext), e.n + e.i + e.p < 2147483648) ∧
    1 * points (mkShape [⟨1, 2147483645, 1⟩] [.half]) < 4294967296 ∧
    ((run (V := Int) true [.make 0 ⟨1, [.half]⟩ (fun _ => .null), .alloc 0 [⟨1, 2147483645, 1⟩], .size 0] (World.init fun _ _ => true)).map (·.1))
      = some [.ret .unit, .ret .unit, .ret (.sizes [(1, 2147483645, 1)])] := by decide +kernel

end Verif.Props
