import Verif.Proof.Lifecycle
import Verif.Props.Access
/-!
# C06–C11: the life of arrays

The abstract machine is `Spec/Machine.lean`; `arun mem chk ops AWorld.init = some …`
says that the history `ops` stays inside the contract of the library.
-/
namespace Verif.Props
open Spec
variable {V : Type} {mem : Nat → Nat → Bool} {chk : Bool} {w : World V} {aw : AWorld V}

/-- C06 (refinement): whatever the environment answers to memory requests, every history
inside the contract runs without undefined behaviour and every call returns, or throws,
exactly what the abstract machine says.  This is `_partial` because the abstract machine
needs a third state `broken` beside "empty" and "allocated"; see `C06_safe` for when it
cannot occur and `C06_false` for a history where it does. -/
theorem C06_partial (ops : List (Op V)) {evs : List (Ev V)} (h : arun mem chk ops AWorld.init = some (evs, aw)) :
    ∃ w, run chk ops (World.init mem) = some (evs, w) := by
  obtain ⟨w, L, h3, -⟩ := run_sim chk ops (Rel.init mem) h
  exact ⟨w, h3⟩

/-- C06 (two states suffice): if memory never runs out, or if only 1D arrays are used,
every array is always empty or allocated, no block is lost, and in a checked build every
call that compiles and has sizes in machine range is inside the contract — whatever
indices, component numbers and flags it has. -/
theorem C06_safe (ops : List (Op V)) (hs : Safe mem ops) {evs : List (Ev V)} (h : arun mem chk ops AWorld.init = some (evs, aw)) :
    Unbroken aw ∧ aw.leaked = 0 ∧ ∀ op, TypedOp aw op → (astep mem true aw op).isSome := by
  have h1 : SafeSt mem aw := arun_safe ⟨by simp [AWorld.init], rfl⟩ hs h
  have h2 : Unbroken aw := fun x k es g hx => (h1.1 x k _ hx).2 es g rfl
  refine ⟨h2, h1.2, fun op ht => ?_⟩
  cases op with
  | make x k j => obtain ⟨a, b⟩ := ht; simp only [astep, a, b]; simp; split <;> simp
  | makeSized x k j es =>
    obtain ⟨a, b, c⟩ := ht
    simp only [astep, a, b, c]; simp
    split
    · simp
    · split <;> simp
  | alloc x es => obtain ⟨k, a, hx, c⟩ := ht; simp [astep, hx, c]
  | realloc x es => obtain ⟨k, a, hx, c⟩ := ht; simp [astep, hx, c]
  | clear x => obtain ⟨k, a, hx⟩ := ht; simp [astep, hx]
  | size x => obtain ⟨k, a, hx⟩ := ht; simp [astep, hx]
  | read x n xs fs =>
    obtain ⟨k, a, hx, c, d⟩ := ht
    cases a with
    | empty => simp [astep, hx, c, d]
    | ready es val => simp only [astep, hx, c, d]; simp; split <;> simp
    | broken es g => exact (h2 _ _ _ _ hx).elim
  | write x n xs fs v =>
    obtain ⟨k, a, hx, c, d⟩ := ht
    cases a with
    | empty => simp [astep, hx, c, d]
    | ready es val => simp only [astep, hx, c, d]; simp; split <;> simp
    | broken es g => exact (h2 _ _ _ _ hx).elim
  | copy x y args =>
    obtain ⟨k, es, val, es', val', hx, hy, hc⟩ := ht
    simp only [astep, hx, hy, hc]; simp only [and_self, if_true]
    split
    · split <;> rfl
    · rfl
  | destroy x => obtain ⟨k, a, hx⟩ := ht; simp [astep, hx]

/-- a history of all kinds of calls with its observations, inside the contract -/
example : ∃ aw : AWorld Int, arun (fun _ _ => true) true
    [.make 0 ⟨1, [.center, .center]⟩ (fun _ => .null), .clear 0, .alloc 0 [⟨0, 2, 0⟩, ⟨1, 1, 0⟩], .alloc 0 [⟨0, 2, 0⟩, ⟨1, 1, 0⟩],
     .write 0 0 [1, -1] [.C, .C] 5, .read 0 0 [1, -1] [.C, .C], .read 0 0 [2, -1] [.C, .C], .realloc 0 [⟨0, 0, 1⟩, ⟨0, 1, 0⟩],
     .realloc 0 [⟨0, 0, 0⟩, ⟨0, 1, 0⟩], .read 0 0 [1, -1] [.C, .C], .size 0, .destroy 0] AWorld.init
    = some ([.ret .unit, .exn .isEmpty, .ret .unit, .exn .notEmpty, .ret .unit, .ret (.val (some 5)),
        .exn (.rangeCenter 0 2 0 1), .exn (.sizeIn 0), .ret .unit, .exn .noData, .ret (.sizes [(0, 0, 0), (0, 0, 0)]), .ret .unit], aw) :=
  ⟨_, rfl⟩

/-- C06 is false as stated for 2D: three calls a careful user may write — create, allocate
(memory runs out at the second request, the exception is caught), look at an element in a
checked build — end in undefined behaviour instead of "no data". -/
theorem C06_false : run (V := Int) true
    [.make 0 ⟨1, [.center, .center]⟩ (fun _ => .null), .alloc 0 [⟨0, 1, 0⟩, ⟨0, 1, 0⟩], .read 0 0 [0, 0] [.C, .C]]
    (World.init fun k _ => k == 0) = none := rfl

/-- the same for 3D -/
theorem C06_false_d3 : run (V := Int) true
    [.make 0 ⟨1, [.center, .center, .center]⟩ (fun _ => .null), .alloc 0 [⟨0, 1, 0⟩, ⟨0, 1, 0⟩, ⟨0, 1, 0⟩],
     .read 0 0 [0, 0, 0] [.C, .C, .C]]
    (World.init fun k _ => k == 0 || k == 1) = none := rfl

/-- C07: rejected calls change nothing at all (the whole state, memory included, is the
same afterwards), in any build: `alloc` on a non-empty array with any sizes whatever;
`clear` on an empty one; `realloc` on an empty one; `alloc` and `realloc` with a zero
interior but virtual points.  The last two need the points of each dimension to fit
`int` (`DimsFit`); without that bound the claim is false, see `C07_false`. -/
theorem C07_partial (R : Reach mem chk w aw) {x : Nat} {k : Kind} {a : AArr V} (hx : aw.arr x = some (k, a)) (c : Bool)
    (es : List Ext) (hl : es.length = k.locs.length) :
    (a ≠ .empty → exec c (.alloc x es) w = .err .notEmpty w) ∧
    (a = .empty → exec c (.clear x) w = .err .isEmpty w) ∧
    (a = .empty → DimsFit es → ∃ e, exec c (.realloc x es) w = .err e w) ∧
    (DimsFit es → ∀ d, sizeErrs 0 es = some d →
      (a = .empty → exec c (.alloc x es) w = .err d w) ∧ exec c (.realloc x es) w = .err d w) := by
  obtain ⟨L, R⟩ := R.rel
  obtain ⟨o, hb, hk, h0, r⟩ := R.arr_some hx
  refine ⟨fun ha => ?_, ?_, ?_, fun hd d he => ⟨?_, ?_⟩⟩
  · exact call_err_same (f := fun k => Obj.alloc c k es) hb (Obj.alloc_notEmpty c r ha hl)
  · rintro rfl
    cases r with
    | empty e => exact call_err_same (f := Obj.clear) hb (Obj.clear_empty _ e)
  · rintro rfl hd
    cases r with
    | empty e =>
      have h1 := Obj.realloc_eq c (Reps.empty (h := w.h) e).typed w.h hl hd
      cases he : sizeErrs 0 es with
      | some d => rw [he] at h1; exact ⟨d, call_err_same (f := fun k => Obj.realloc c k es) hb h1⟩
      | none =>
        rw [he] at h1; simp only at h1; rw [M.bind_err (Obj.clear_empty _ e)] at h1
        exact ⟨_, call_err_same (f := fun k => Obj.realloc c k es) hb h1⟩
  · rintro rfl
    cases r with
    | empty e => exact call_err_same (f := fun k => Obj.alloc c k es) hb (Obj.alloc_bad c _ e hl hd he)
  · have h1 := Obj.realloc_eq c r.typed w.h hl hd
    rw [he] at h1
    exact call_err_same (f := fun k => Obj.realloc c k es) hb h1

example : sizeErrs 0 [⟨0, 3, 0⟩, ⟨1, 0, 0⟩] = some (.sizeIn 1) ∧ DimsFit [⟨0, 3, 0⟩, ⟨1, 0, 0⟩] := by
  refine ⟨by decide, ?_⟩
  intro e he; simp at he; rcases he with rfl | rfl <;> decide

/-- C07 is false for large sizes: with zero interior and `n = 2^32-1`, `p = 1` virtual
points `alloc` returns normally (the sum wraps to zero), and with `n = p = 2^30` the sum
overflows `int`. -/
theorem C07_false :
    (∃ w, run (V := Int) true [.make 0 ⟨1, [.center]⟩ (fun _ => .null), .alloc 0 [⟨4294967295, 0, 1⟩]] (World.init fun _ _ => true)
      = some ([.ret .unit, .ret .unit], w)) ∧
    run (V := Int) true [.make 0 ⟨1, [.center]⟩ (fun _ => .null), .alloc 0 [⟨1073741824, 0, 1073741824⟩]] (World.init fun _ _ => true)
      = none := ⟨⟨_, rfl⟩, rfl⟩

/-- C08: `alloc` on an empty array with sizes in machine range.  If the shape has no point
it succeeds and nothing at all changes.  If it has a point and `alloc` succeeds, the array
is not empty any more (`alloc` is refused) and `size()` reports the request. -/
theorem C08 (R : Reach mem chk w aw) {x : Nat} {k : Kind} (hx : aw.arr x = some (k, .empty)) (c : Bool)
    (es : List Ext) (hs : SizesOk k es) (he : sizeErrs 0 es = none) :
    (points (mkShape es k.locs) = 0 → exec c (.alloc x es) w = .ok .unit w) ∧
    (points (mkShape es k.locs) ≠ 0 → ∀ w', exec c (.alloc x es) w = .ok .unit w' →
      (∀ es', es'.length = k.locs.length → exec c (.alloc x es') w' = .err .notEmpty w') ∧
      exec c (.size x) w' = .ok (.sizes (es.map fun e => ((e.n : Int), (e.i : Int), (e.p : Int)))) w') := by
  obtain ⟨L, R⟩ := R.rel
  obtain ⟨o, hb, hk, h0, r⟩ := R.arr_some hx
  have em : ObjEmpty k o := by cases r with | empty e => exact e
  constructor
  · intro hp
    exact call_ok_same (f := fun k => Obj.alloc c k es) hb (Obj.alloc_none c _ em hs he hp)
  · intro hp w' hw
    have hd := Obj.alloc_does c r hk.2 h0 hs
    rw [R.mem, R.next] at hd
    obtain ⟨w'', h1, h2⟩ := call_does (f := fun k => Obj.alloc c k es) hb hd R hk h0
    have hexec : exec c (.alloc x es) w = (do World.call x (fun k => Obj.alloc c k es); pure .unit : M (World V) (Ret V)) w := rfl
    rw [← hexec, hw] at h1
    simp only [allocStep] at h1 h2
    cases her : (allocEmpty mem aw.next k es : LRes V).err with
    | some e => rw [her] at h1; simp [evOf, Obs] at h1
    | none =>
      rw [her] at h1; simp only [evOf, Obs] at h1; cases h1
      obtain ⟨val, hval⟩ := allocEmpty_ready he hp her
      rw [hval] at h2
      have hx' := h2.arr_some (x := x) (by simp only [AWorld.set, if_true]; rfl)
      obtain ⟨o', hb', -, -, r'⟩ := hx'
      refine ⟨fun es' hl' => ?_, ?_⟩
      · exact call_err_same (f := fun k => Obj.alloc c k es') hb' (Obj.alloc_notEmpty c r' (by simp) hl')
      · exact h2.size c (x := x) (by simp only [AWorld.set, if_true]; rfl)

example : points (mkShape [⟨1, 2, 0⟩, ⟨0, 0, 0⟩] [.half, .center]) = 0 ∧ sizeErrs 0 [⟨1, 2, 0⟩, ⟨0, 0, 0⟩] = none ∧
    SizesOk ⟨3, [.half, .center]⟩ [⟨1, 2, 0⟩, ⟨0, 0, 0⟩] ∧
    points (mkShape [⟨1, 2, 0⟩, ⟨0, 0, 0⟩] [.half, .half]) = 4 := by decide

/-- C09 for 1D arrays, and for 2D/3D arrays when already the first request fails: `alloc`
throws `no more memory`, the object is exactly as before, all blocks are as before, and
the state is one in which the array is empty — so a later `alloc` behaves as a first one.
Missing: 2D and 3D when a later request fails, where the claim is false. -/
theorem C09_partial (R : Reach mem chk w aw) {x : Nat} {k : Kind} (hx : aw.arr x = some (k, .empty)) 
    (es : List Ext) (hs : SizesOk k es) (he : sizeErrs 0 es = none) (hp : points (mkShape es k.locs) ≠ 0)
    (hm : mem aw.next (k.N * points (mkShape es k.locs)) = false) :
    ∃ w', exec chk (.alloc x es) w = .err .noMemory w' ∧ w'.h.blk = w.h.blk ∧
      (∀ y, y ≠ x → w'.objs y = w.objs y) ∧ (∃ o, w'.objs x = some (k, o) ∧ ObjEmpty k o) ∧
      Reach mem chk w' { aw with next := aw.next + 1 } := by
  have hg : (allocEmpty mem aw.next k es : LRes V) = ⟨some .noMemory, .empty, 1⟩ := by
    unfold allocEmpty
    rw [he]; simp only; rw [if_neg hp]
    simp [requests, granted, hm]
  have hst : astep mem chk aw (.alloc x es) = some (.exn .noMemory, { aw with next := aw.next + 1 }) := by
    simp only [astep, hx, if_pos hs, allocStep, hg, evOf]
    rw [set_same aw hx]
  obtain ⟨w', h1, h2⟩ := R.step hst
  obtain ⟨L, R⟩ := R.rel
  obtain ⟨L', R'⟩ := h2.rel
  obtain ⟨o, hb, hk, h0, r⟩ := R.arr_some hx
  obtain ⟨h', o', d1, d2, d3, d4, -⟩ := Obj.alloc_does chk r hk.2 h0 hs
  rw [R.mem, R.next] at d1 d2 d4
  simp only [allocStep, hg] at d1 d2 d4
  have hw' : w' = w.put x h' (some (k, o')) := by
    have : World.call x (fun k => Obj.alloc chk k es) w = .err .noMemory (w.put x h' (some (k, o'))) := by
      unfold World.call; rw [hb]; simp only; rw [d1]; rfl
    simp only [Obs, exec] at h1
    rw [M.bind_err this] at h1
    injection h1 with _ h1
    exact h1.symm
  have eo : o.own = [] := r.own_empty
  have eo' : o'.own = [] := d2.own_empty
  refine ⟨w', h1, ?_, ?_, ?_, h2⟩
  · funext b; subst hw'; simp only [World.put]
    exact d3.frame b (by simp [eo]) (by simp [eo'])
  · intro y hy; subst hw'; simp [World.put, hy]
  · refine ⟨o', by subst hw'; simp [World.put], ?_⟩
    cases d2 with | empty e => exact e

example : SizesOk ⟨2, [.half]⟩ [⟨1, 2, 1⟩] ∧ points (mkShape [⟨1, 2, 1⟩] [.half]) = 5 := by decide

/-- For a 1D array there is only one request, so `C09_partial` covers every failure. -/
theorem C09_d1 (k : Kind) (es : List Ext) (h : k.locs.length = 1) : requests k.N (mkShape es k.locs) = [k.N * points (mkShape es k.locs)] := by
  obtain ⟨N, locs⟩ := k
  match locs, h, es with
  | [l], _, [] => simp [mkShape, requests, tables]
  | [l], _, e :: es => simp [mkShape, requests, tables]

/-- C09 is false in 2D: the second request fails, `alloc` throws `no more memory`, but the
array reports the requested size, and the next `alloc` is refused although memory is
available again. -/
theorem C09_false : ∃ w, run (V := Int) true
    [.make 0 ⟨1, [.center, .center]⟩ (fun _ => .null), .alloc 0 [⟨0, 2, 0⟩, ⟨0, 3, 0⟩], .size 0, .alloc 0 [⟨0, 2, 0⟩, ⟨0, 3, 0⟩]]
    (World.init fun k _ => k != 1)
    = some ([.ret .unit, .exn .noMemory, .ret (.sizes [(0, 2, 0), (0, 3, 0)]), .exn .notEmpty], w) := ⟨_, rfl⟩

/-- C09 is false in 3D: the same when the third request fails. -/
theorem C09_false_d3 : ∃ w, run (V := Int) true
    [.make 0 ⟨1, [.center, .center, .half]⟩ (fun _ => .null), .alloc 0 [⟨0, 2, 0⟩, ⟨0, 3, 0⟩, ⟨0, 1, 0⟩], .size 0,
     .alloc 0 [⟨0, 2, 0⟩, ⟨0, 3, 0⟩, ⟨0, 1, 0⟩]]
    (World.init fun k _ => k != 2)
    = some ([.ret .unit, .exn .noMemory, .ret (.sizes [(0, 2, 0), (0, 3, 0), (0, 1, 0)]), .exn .notEmpty], w) := ⟨_, rfl⟩

/-- C10: for any history inside the contract and any pattern of allocation failures: no
block is released twice or released while foreign (such a release is undefined behaviour
in the model, and the history runs), and when all objects are destroyed the blocks still
live are exactly as many as the abstract machine counts as leaked; a leak can only come
from a sizing constructor of a 2D/3D array that fails half way: if memory never runs out
or only 1D arrays are used nothing is left.  Missing: the leak itself, see `C10_false`. -/
theorem C10_partial (ops : List (Op V)) {evs : List (Ev V)} (h : arun mem chk ops AWorld.init = some (evs, aw))
    (hend : ∀ x, aw.arr x = none) :
    ∃ (w : World V) (L : List Nat), run chk ops (World.init mem) = some (evs, w) ∧ L.Nodup ∧ L.length = aw.leaked ∧
      (∀ b, (w.h.blk b).isSome ↔ b ∈ L) ∧ (Safe mem ops → ∀ b, w.h.blk b = none) := by
  obtain ⟨w, L, h3, R⟩ := run_sim chk ops (Rel.init mem) h
  have hiff : ∀ b, (w.h.blk b).isSome ↔ b ∈ L := by
    intro b
    refine ⟨fun hb => ?_, R.leakLive b⟩
    rcases R.live b hb with h | ⟨x, hx⟩
    · exact h
    · rw [R.arr_none (hend x)] at hx; simp [ownOf] at hx
  refine ⟨w, L, h3, R.leakNodup, R.leaked, hiff, fun hs b => ?_⟩
  have h0 : aw.leaked = 0 := (C06_safe ops hs h).2.1
  have hL : L = [] := by have := R.leaked; rw [h0] at this; exact List.length_eq_zero_iff.1 this
  cases hb : w.h.blk b with
  | none => rfl
  | some c => have := (hiff b).1 (by simp [hb]); simp [hL] at this

/-- C10 (default-constructed objects): if no object is created by a sizing constructor,
nothing is left either, however often memory runs out. -/
theorem C10_partial_default (ops : List (Op V)) {evs : List (Ev V)} (h : arun mem chk ops AWorld.init = some (evs, aw))
    (hno : ∀ x k j es, Op.makeSized x k j es ∉ ops) (hend : ∀ x, aw.arr x = none) :
    ∃ w, run chk ops (World.init mem) = some (evs, w) ∧ ∀ b, w.h.blk b = none := by
  obtain ⟨w, L, h3, -, h4, h5, -⟩ := C10_partial ops h hend
  refine ⟨w, h3, fun b => ?_⟩
  have hL : L = [] := by
    rw [arun_leaked h hno] at h4; exact List.length_eq_zero_iff.1 h4
  cases hb : w.h.blk b with
  | none => rfl
  | some c => have := (h5 b).1 (by simp [hb]); simp [hL] at this

/-- a history with failures at different points that ends with everything destroyed -/
example : ∃ evs, ∃ aw : AWorld Int, arun (fun k _ => k % 2 == 0) true
    [.make 0 ⟨1, [.center, .center]⟩ (fun _ => .null), .alloc 0 [⟨0, 2, 0⟩, ⟨1, 1, 0⟩], .clear 0, .alloc 0 [⟨0, 2, 0⟩, ⟨1, 1, 0⟩],
     .destroy 0] AWorld.init = some (evs, aw) ∧ ∀ x, aw.arr x = none := by
  refine ⟨_, _, rfl, fun x => ?_⟩
  simp only [AWorld.set, AWorld.init]
  split <;> simp_all

/-- C10 is false: the sizing constructor of a 2D array throws because the second request
fails; there is no object any more, but the data block stays allocated. -/
theorem C10_false : ∃ w, run (V := Int) true
    [.makeSized 0 ⟨1, [.center, .center]⟩ (fun _ => .null) [⟨0, 1, 0⟩, ⟨0, 1, 0⟩]] (World.init fun k _ => k == 0)
    = some ([.exn .noMemory], w) ∧ (∀ x, w.objs x = none) ∧ (w.h.blk 0).isSome := by
  refine ⟨_, rfl, fun x => ?_, rfl⟩
  simp [World.put, World.init]

/-- C11 for sizes in machine range: if `alloc` on an empty array returns normally then
`size()` reports the request, and unless the shape has no point the data block has exactly
`N` times the product of the extents elements, all of which are addressable. -/
theorem C11_partial (R : Reach mem chk w aw) {x : Nat} {k : Kind} (hx : aw.arr x = some (k, .empty)) 
    (es : List Ext) (hs : SizesOk k es) {w' : World V} (hw : exec chk (.alloc x es) w = .ok .unit w')
    (hp : points (mkShape es k.locs) ≠ 0) :
    exec chk (.size x) w' = .ok (.sizes (es.map fun e => ((e.n : Int), (e.i : Int), (e.p : Int)))) w' ∧
    ∃ o B cell, w'.objs x = some (k, o) ∧ w'.h.blk B = some (.vals (k.N * points (mkShape es k.locs)) cell) ∧
      ∀ n xs fs, Valid k es n xs fs → ∃ i, o.at_ chk k n xs fs w'.h = .ok (.at B i) w'.h ∧ i < k.N * points (mkShape es k.locs) := by
  have hst : ∃ r, allocEmpty mem aw.next k es = r ∧
      astep mem chk aw (.alloc x es) = some (evOf r.err, { aw.set x (some (k, r.arr)) with next := aw.next + r.used }) :=
    ⟨_, rfl, by simp only [astep, hx, if_pos hs, allocStep]⟩
  obtain ⟨r, hr, hst⟩ := hst
  obtain ⟨w'', h1, h2⟩ := R.step hst
  rw [hw] at h1
  cases her : r.err with
  | some e => rw [her] at h1; simp [evOf, Obs] at h1
  | none =>
    rw [her] at h1; simp only [evOf, Obs] at h1; cases h1
    have he : sizeErrs 0 es = none := by
      cases hse : sizeErrs 0 es with
      | none => rfl
      | some d => rw [← hr] at her; unfold allocEmpty at her; rw [hse] at her; cases her
    subst hr
    obtain ⟨val, hval⟩ := allocEmpty_ready he hp her
    rw [hval] at h2
    obtain ⟨L, R'⟩ := h2.rel
    have hx' : ({ aw.set x (some (k, AArr.ready es val)) with next := aw.next + (allocEmpty mem aw.next k es : LRes V).used } : AWorld V).arr x
        = some (k, .ready es val) := by simp only [AWorld.set, if_true]
    refine ⟨R'.size chk hx', ?_⟩
    obtain ⟨o, B, cell, a1, -, a2, -, a3⟩ := R'.addr hx'
    exact ⟨o, B, cell, a1, a2, fun n xs fs v => ⟨_, a3 n xs fs v chk, addr_lt v.comp v.pt⟩⟩

example : SizesOk ⟨3, [.center, .half]⟩ [⟨1, 100, 1⟩, ⟨2, 50, 2⟩] ∧ points (mkShape [⟨1, 100, 1⟩, ⟨2, 50, 2⟩] [.center, .half]) = 5610 := by
  decide

/-- C11 is false for large sizes: 65536 × 65536 points wrap to zero, `alloc` returns
normally, and the array is still empty: `size()` reports zero and access throws. -/
theorem C11_false : ∃ w, run (V := Int) true
    [.make 0 ⟨1, [.center, .center]⟩ (fun _ => .null), .alloc 0 [⟨0, 65536, 0⟩, ⟨0, 65536, 0⟩], .size 0, .read 0 0 [0, 0] [.C, .C]]
    (World.init fun _ _ => true)
    = some ([.ret .unit, .ret .unit, .ret (.sizes [(0, 0, 0), (0, 0, 0)]), .exn .noData], w) := ⟨_, rfl⟩

end Verif.Props
