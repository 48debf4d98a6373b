import Verif.Proof.CopyProps
import Verif.Props.Access
/-!
# C25–C30: copying zones

`CopyOk` (`Spec/Machine.lean`): a call that compiles, whose zones lie inside the two
arrays and whose anchors keep all sums inside machine range.  `copyPlan … args` are the
zones and anchors that the arguments of any of the four overloads stand for.
-/
namespace Verif.Props
open Spec
variable {V : Type} {mem : Nat → Nat → Bool} {chk : Bool} {w : World V} {aw : AWorld V}

/-- C25: for two different allocated arrays, every overload, every build: if the zones
have a common point in every dimension, the call returns; every point of the target zone
whose image lies in the source zone, and the point closing the last common cell of a half
located dimension, is read afterwards as the source's value at the image (a stored point
of the source), in every component; every other element of the target is read as before.
`_partial`: zones that do not meet are excluded (checked builds refuse them, see
`C25_refused`; see `C25_false` and C30), as are sums outside machine range. -/
theorem C25_partial (R : Reach mem chk w aw) {x y : Nat} (hne : x ≠ y) {k : Kind} {es es' : List Ext} {val val' : Nat → List Int → Option V}
    (hx : aw.arr x = some (k, .ready es val)) (hy : aw.arr y = some (k, .ready es' val')) {args : Obj.CopyArgs}
    (ok : CopyOk k es es' args) (hm : ∀ d ∈ (copyPlan es es' args).dims k, d.Meets) (c : Bool) :
    ∃ w', exec c (.copy x y args) w = .ok .unit w' ∧ ∀ n xs fs, Valid k es n xs fs →
      (Takes ((copyPlan es es' args).dims k) (point xs fs) →
        ∃ zs gs, Valid k es' n zs gs ∧ point zs gs = image ((copyPlan es es' args).dims k) (point xs fs)) ∧
      ∀ c', (Takes ((copyPlan es es' args).dims k) (point xs fs) →
          ∀ zs gs, Valid k es' n zs gs → point zs gs = image ((copyPlan es es' args).dims k) (point xs fs) →
          ∃ b, exec c' (.read y n zs gs) w = .ok (.val b) w ∧ exec c' (.read x n xs fs) w' = .ok (.val b) w') ∧
        (¬ Takes ((copyPlan es es' args).dims k) (point xs fs) →
          ∃ b, exec c' (.read x n xs fs) w = .ok (.val b) w ∧ exec c' (.read x n xs fs) w' = .ok (.val b) w') := by
  obtain ⟨L, R⟩ := R.rel
  obtain ⟨w', L', h1, R'⟩ := R.copied c hx hy ok (fun d hd => (hm d hd).over) (fun h => hne h.1)
  obtain ⟨l1, l2, l3, l4⟩ := R.plan_len hx hy ok.1
  refine ⟨w', h1, fun n xs fs v => ⟨fun ht => ?_, fun c' => ⟨fun ht zs gs vz hz => ?_, fun ht => ?_⟩⟩⟩
  · rw [takes_iff hm] at ht
    exact valid_of_pt (R.len hy) v.comp (writes_from (R.len hy) l1 l3 l4 ok.2.2.1 ht)
  · refine ⟨_, R.read c' hy vz, ?_⟩
    have := R'.read c' (x := x) (by simp only [AWorld.set, if_true]; rfl) v
    rw [takes_iff hm] at ht
    rw [if_pos ht] at this
    rw [this, hz]
  · refine ⟨_, R.read c' hx v, ?_⟩
    have := R'.read c' (x := x) (by simp only [AWorld.set, if_true]; rfl) v
    rw [takes_iff hm] at ht
    rw [if_neg ht] at this
    exact this

/-- the hypotheses are met: two 2D arrays of different shapes, the upper right part of
the second laid on the lower left part of the first -/
example : CopyOk ⟨2, [.center, .half]⟩ [⟨1, 2, 1⟩, ⟨0, 3, 0⟩] [⟨0, 3, 0⟩, ⟨2, 2, 1⟩] (.tags [.ALL, .IN] [.IN, .ALL] [-1, 0] [1, 1]) ∧
    ∀ d ∈ (copyPlan [⟨1, 2, 1⟩, ⟨0, 3, 0⟩] [⟨0, 3, 0⟩, ⟨2, 2, 1⟩] (.tags [.ALL, .IN] [.IN, .ALL] [-1, 0] [1, 1])).dims ⟨2, [.center, .half]⟩, d.Meets := by
  refine ⟨by decide, ?_⟩
  simp only [copyPlan, tagZones, tagBegin, tagEnd, CopyPlan.dims, copyDims, List.forall_mem_cons, List.not_mem_nil, false_imp_iff,
    implies_true, and_true]
  exact ⟨⟨0, by simp [CopyDim.Common, Seg, CopyDim.image]⟩, ⟨1, by simp [CopyDim.Common, Seg, CopyDim.image]⟩⟩

/-- C25, anchors: when every dimension of both arrays has fewer than 2^30 - 1 cells the
sums are inside machine range for any anchors, so that part of `CopyOk` is not a restriction. -/
theorem C25_anchors {k : Kind} {es es' : List Ext} {args : Obj.CopyArgs} (hl : argsLen k.locs.length args)
    (hR : ZonesIn es (copyPlan es es' args).R) (hr : ZonesIn es' (copyPlan es es' args).r)
    (hm : ∀ d ∈ (copyPlan es es' args).dims k, d.Meets)
    (h : ∀ e ∈ es ++ es', e.n + e.i + e.p < 1073741823) : CopyOk k es es' args :=
  ⟨hl, hR, hr, copy_all hR hr _ fun d e e' he he' zR zr hd =>
    CopyDim.anchors (hm d hd) zR zr (h e (by simp [he])) (h e' (by simp [he']))⟩

example : ∀ e ∈ ([⟨1, 2, 1⟩, ⟨0, 3, 0⟩] ++ [⟨0, 3, 0⟩, ⟨2, 2, 1⟩] : List Ext), e.n + e.i + e.p < 1073741823 := by decide

/-- C25, refusal: if in some dimension the zones have at least one point each but none in
common, a checked build throws and nothing at all changes. -/
theorem C25_refused (R : Reach mem chk w aw) {x y : Nat} {k : Kind} {es es' : List Ext} {val val' : Nat → List Int → Option V}
    (hx : aw.arr x = some (k, .ready es val)) (hy : aw.arr y = some (k, .ready es' val')) {args : Obj.CopyArgs}
    (ok : CopyOk k es es' args) {d : CopyDim} (hd : d ∈ (copyPlan es es' args).dims k) (hm : ¬ d.Meets) (h1 : 0 < d.R.2) (h2 : 0 < d.r.2) :
    ∃ e, exec true (.copy x y args) w = .err e w := by
  obtain ⟨L, R⟩ := R.rel
  refine R.refused hx hy ok (.inl fun ho => hm ?_)
  have := ho d hd
  unfold CopyDim.Over at this
  refine ⟨max d.R.1 (d.r.1 + (d.I - d.i)), ?_⟩
  unfold CopyDim.Common Seg CopyDim.image
  omega

example : CopyOk ⟨1, [.center]⟩ [⟨0, 4, 0⟩] [⟨0, 4, 0⟩] (.ranges [(0, 2)] [(1, 2)] [0] [3]) ∧ ¬ (CopyDim.mk .center (0, 2) (1, 2) 0 3).Meets := by
  refine ⟨by decide, ?_⟩
  rintro ⟨y, h⟩
  simp only [CopyDim.Common, Seg, CopyDim.image] at h
  omega

/-- C25 is false for an empty zone: `x.copy_from(y, [0,4), [2,2), 0, 0)` on half located
arrays has no point to copy, yet the checked build writes point 2. -/
theorem C25_false : (run (V := Int) true
    [.makeSized 0 ⟨1, [.half]⟩ (fun _ => .null) [⟨0, 4, 0⟩], .makeSized 1 ⟨1, [.half]⟩ (fun _ => .null) [⟨0, 4, 0⟩],
     .write 0 0 [2] [.N] 5, .write 1 0 [2] [.N] 6, .copy 0 1 (.ranges [(0, 4)] [(2, 0)] [0] [0]), .read 0 0 [2] [.N]] (World.init fun _ _ => true)).map (·.1)
    = some [.ret .unit, .ret .unit, .ret .unit, .ret .unit, .ret .unit, .ret (.val (some 6))] := by decide +kernel

/-- C26: if `x.copy_from(y, …)` with whatever arguments, in any build, returns or throws,
then every other array — `y` included — has the same sizes and, if allocated, the same
elements as before, and no array has become empty or allocated.  `x` may be unallocated or
half allocated, its zones may lie anywhere. -/
theorem C26 (R : Reach mem chk w aw) (c : Bool) {x y : Nat} {args : Obj.CopyArgs} {w' : World V}
    (hr : (∃ a, exec c (.copy x y args) w = .ok a w') ∨ ∃ e, exec c (.copy x y args) w = .err e w') :
    (∀ z, z ≠ x → ∀ k es val, aw.arr z = some (k, .ready es val) → ∀ n xs fs, Valid k es n xs fs →
      ∀ c', ∃ b, exec c' (.read z n xs fs) w = .ok (.val b) w ∧ exec c' (.read z n xs fs) w' = .ok (.val b) w') ∧
    (∀ z k a, aw.arr z = some (k, a) → ∀ c', ∃ l, exec c' (.size z) w = .ok (.sizes l) w ∧ exec c' (.size z) w' = .ok (.sizes l) w') ∧
    w'.objs = w.objs := by
  obtain ⟨L, R⟩ := R.rel
  obtain ⟨b, R', hb⟩ := R.copy_frame c hr
  refine ⟨fun z hz k es val hz' n xs fs v c' => ⟨_, R.read c' hz' v, ?_⟩, fun z k a hz' c' => ⟨_, R.size c' hz', ?_⟩, ?_⟩
  · exact R'.read c' (x := z) (by simp only [AWorld.set, if_neg hz]; exact hz') v
  · by_cases hz : z = x
    · subst hz
      rcases hb with rfl | ⟨k1, es, val, v', h1, rfl⟩
      · exact R'.size c' (x := z) (by simp only [AWorld.set, if_true]; exact hz')
      · rw [hz'] at h1; cases h1
        exact R'.size c' (x := z) (k := k) (a := .ready es v') (by simp only [AWorld.set, if_true])
    · exact R'.size c' (x := z) (by simp only [AWorld.set, if_neg hz]; exact hz')
  · obtain ⟨k, o, pd, h', -, -, -, rfl⟩ := copy_inv hr
    rfl

/-- a copy that runs over a row end inside `x` (the zone is outside the array) and still returns -/
example : (run (V := Int) true
    [.makeSized 0 ⟨1, [.center, .center]⟩ (fun _ => .null) [⟨0, 2, 0⟩, ⟨0, 2, 0⟩],
     .makeSized 1 ⟨1, [.center, .center]⟩ (fun _ => .null) [⟨0, 2, 0⟩, ⟨0, 2, 0⟩],
     .write 1 0 [0, 1] [.C, .C] 6, .copy 0 1 (.ranges [(0, 1), (2, 1)] [(0, 1), (1, 1)] [0, 2] [0, 1]), .read 0 0 [1, 0] [.C, .C]] (World.init fun _ _ => true)).map (·.1)
    = some [.ret .unit, .ret .unit, .ret .unit, .ret .unit, .ret (.val (some 6))] := by decide +kernel

/-- C27: copying an allocated array to itself in a checked build either throws, changing
nothing, or returns, and then no point that is read is written, and every written element is read
afterwards as the value its image had before the call, every other element as before.
`_partial`: the zones must lie inside the array and the anchors in machine range (`CopyOk`);
`C27_false` shows that other zones do end in undefined behaviour. -/
theorem C27_partial (R : Reach mem chk w aw) {x : Nat} {k : Kind} {es : List Ext} {val : Nat → List Int → Option V}
    (hx : aw.arr x = some (k, .ready es val)) {args : Obj.CopyArgs} (ok : CopyOk k es es args) :
    (∃ e, exec true (.copy x x args) w = .err e w) ∨
    ((∀ ys zs, Writes ((copyPlan es es args).dims k) ys → Writes ((copyPlan es es args).dims k) zs →
        image ((copyPlan es es args).dims k) ys ≠ zs) ∧
      ∃ w', exec true (.copy x x args) w = .ok .unit w' ∧ ∀ c' n xs fs, Valid k es n xs fs →
        (Writes ((copyPlan es es args).dims k) (point xs fs) →
          ∃ zs gs, Valid k es n zs gs ∧ point zs gs = image ((copyPlan es es args).dims k) (point xs fs) ∧
          ∃ b, exec c' (.read x n zs gs) w = .ok (.val b) w ∧ exec c' (.read x n xs fs) w' = .ok (.val b) w') ∧
        (¬ Writes ((copyPlan es es args).dims k) (point xs fs) →
          ∃ b, exec c' (.read x n xs fs) w = .ok (.val b) w ∧ exec c' (.read x n xs fs) w' = .ok (.val b) w')) := by
  obtain ⟨L, R⟩ := R.rel
  obtain ⟨l1, l2, l3, l4⟩ := R.plan_len hx hx ok.1
  by_cases ho : ∀ d ∈ (copyPlan es es args).dims k, d.Over
  · by_cases hc : ∀ d ∈ (copyPlan es es args).dims k, d.Clash
    · exact .inl (R.refused hx hx ok (.inr ⟨rfl, hc⟩))
    · obtain ⟨w', L', h1, R'⟩ := R.copied true hx hx ok ho (fun h => hc h.2)
      refine .inr ⟨fun ys zs => writes_apart hc, w', h1, fun c' n xs fs v => ⟨fun ht => ?_, fun ht => ?_⟩⟩
      · obtain ⟨zs, gs, vz, hz⟩ := valid_of_pt (R.len hx) v.comp (writes_from (R.len hx) l1 l3 l4 ok.2.2.1 ht)
        refine ⟨zs, gs, vz, hz, _, R.read c' hx vz, ?_⟩
        have := R'.read c' (x := x) (by simp only [AWorld.set, if_true]; rfl) v
        rw [if_pos ht] at this
        rw [this, hz]; rfl
      · refine ⟨_, R.read c' hx v, ?_⟩
        have := R'.read c' (x := x) (by simp only [AWorld.set, if_true]; rfl) v
        rw [if_neg ht] at this
        exact this
  · exact .inl (R.refused hx hx ok (.inl ho))

/-- both cases occur: shifting three points by four places goes through, by two it is refused -/
example : CopyOk ⟨1, [.center]⟩ [⟨0, 8, 0⟩] [⟨0, 8, 0⟩] (.ranges [(0, 3)] [(4, 3)] [0] [4]) ∧
    (∀ d ∈ copyDims [.center] [(0, 3)] [(4, 3)] [0] [4], d.Over) ∧ (¬ ∀ d ∈ copyDims [.center] [(0, 3)] [(4, 3)] [0] [4], d.Clash) ∧
    ∀ d ∈ copyDims [.center] [(0, 3)] [(2, 3)] [0] [2], d.Clash := by decide

/-- C27 is false for zones outside the array: the checked self copy passes every test and
writes outside the storage. -/
theorem C27_false : (run (V := Int) true
    [.makeSized 0 ⟨1, [.center]⟩ (fun _ => .null) [⟨0, 4, 0⟩], .copy 0 0 (.ranges [(10, 2)] [(0, 2)] [10] [0])] (World.init fun _ _ => true)).map (·.1)
    = none := by decide +kernel

/-- C27 is false even for a call that returns: in 2D a zone that runs over the end of its
row names elements of the next row a second time, so an element that is read can also be
written.  Here (0,2) and (0,3), that is (1,0) and (1,1), take the values of (1,-1) and
(1,0), that is (0,1) and (1,0): (1,1) receives the value just written to (1,0). -/
theorem C27_false_alias : (run (V := Int) true
    [.makeSized 0 ⟨1, [.center, .center]⟩ (fun _ => .null) [⟨0, 2, 0⟩, ⟨0, 2, 0⟩],
     .write 0 0 [0, 1] [.C, .C] 1, .write 0 0 [1, 0] [.C, .C] 2, .write 0 0 [1, 1] [.C, .C] 3,
     .copy 0 0 (.ranges [(0, 1), (2, 2)] [(1, 1), (-1, 2)] [0, 2] [1, -1]),
     .read 0 0 [1, 0] [.C, .C], .read 0 0 [1, 1] [.C, .C]] (World.init fun _ _ => true)).map (·.1)
    = some [.ret .unit, .ret .unit, .ret .unit, .ret .unit, .ret .unit, .ret (.val (some 1)), .ret (.val (some 1))] := by decide +kernel

/-- C28: in a checked build, a copy between allocated arrays (or of an array to itself)
whose zones are given by tags returns or throws; the only undefined behaviour it can meet
is overflow of an `int` sum, before any element is touched, and that only if the anchors
leave machine range.  `_partial`: without checks the claim is false, see `C28_false`. -/
theorem C28_partial (R : Reach mem chk w aw) {x y : Nat} {k : Kind} {es es' : List Ext} {val val' : Nat → List Int → Option V}
    (hx : aw.arr x = some (k, .ready es val)) (hy : aw.arr y = some (k, .ready es' val')) {args : Obj.CopyArgs}
    (hl : argsLen k.locs.length args) (ht : (∃ A a I i, args = .tags A a I i) ∨ ∃ A a f, args = .tagsFl A a f) :
    (∀ u, exec true (.copy x y args) w = .ub u → u = .overflow) ∧
    ((∀ d ∈ (copyPlan es es' args).dims k, d.AnchorsFit) → ∀ u, exec true (.copy x y args) w ≠ .ub u) := by
  obtain ⟨L, R⟩ := R.rel
  have hz : ZonesIn es (copyPlan es es' args).R ∧ ZonesIn es' (copyPlan es es' args).r := by
    rcases ht with ⟨A, a, I, i, rfl⟩ | ⟨A, a, f, rfl⟩ <;>
      exact ⟨ZonesIn.tags (hl.1.trans (R.len hx).symm), ZonesIn.tags (hl.2.1.trans (R.len hy).symm)⟩
  refine ⟨R.copy_inside hx hy hl hz.1 hz.2, fun ha u hu => ?_⟩
  have ok : CopyOk k es es' args := ⟨hl, hz.1, hz.2, ha⟩
  by_cases hc : ¬ (∀ d ∈ (copyPlan es es' args).dims k, d.Over) ∨ (x = y ∧ ∀ d ∈ (copyPlan es es' args).dims k, d.Clash)
  · obtain ⟨e, he⟩ := R.refused hx hy ok hc
    rw [he] at hu; cases hu
  · rw [not_or, Decidable.not_not] at hc
    obtain ⟨w', L', h1, -⟩ := R.copied true hx hy ok hc.1 hc.2
    rw [h1] at hu; cases hu

/-- an anchor outside machine range, and one inside -/
example : argsLen 1 (.tags [.ALL] [.ALL] [2147483647] [-1]) ∧
    (¬ ∀ d ∈ (copyPlan [⟨0, 4, 0⟩] [⟨0, 4, 0⟩] (.tags [.ALL] [.ALL] [2147483647] [-1])).dims ⟨1, [.center]⟩, d.AnchorsFit) ∧
    ∀ d ∈ (copyPlan [⟨0, 4, 0⟩] [⟨0, 4, 0⟩] (.tags [.ALL] [.IN] [3] [0])).dims ⟨1, [.center]⟩, d.AnchorsFit := by decide

/-- C28 is false without checks: the zones have a gap of two points, the loop does not end
at the end of the zone and leaves the storage. -/
theorem C28_false : (run (V := Int) false
    [.makeSized 0 ⟨1, [.center]⟩ (fun _ => .null) [⟨0, 2, 0⟩], .makeSized 1 ⟨1, [.center]⟩ (fun _ => .null) [⟨0, 2, 0⟩],
     .copy 0 1 (.tags [.ALL] [.ALL] [0] [4])] (World.init fun _ _ => true)).map (·.1) = none := by decide +kernel

/-- C28 needs allocated arrays: an unallocated half located target passes the test for an
overlap and is written through a null pointer in a checked build. -/
theorem C28_unallocated : (run (V := Int) true
    [.make 0 ⟨1, [.half]⟩ (fun _ => .null), .makeSized 1 ⟨1, [.half]⟩ (fun _ => .null) [⟨0, 4, 0⟩],
     .copy 0 1 (.tags [.ALL] [.ALL] [0] [2])] (World.init fun _ _ => true)).map (·.1) = none := by decide +kernel

/-- C29: the overloads with side flags.  Zones inside the arrays, with at least one point
each, always overlap; the element `j` places from the aligned end (the first point for
`N`, the last one for `P`) takes the source's element `j` places from its aligned end, for
every `j` up to the smaller size, and the closing point of a half located dimension; no other
element changes.  Both builds. -/
theorem C29 (R : Reach mem chk w aw) {x y : Nat} (hne : x ≠ y) {k : Kind} {es es' : List Ext} {val val' : Nat → List Int → Option V}
    (hx : aw.arr x = some (k, .ready es val)) (hy : aw.arr y = some (k, .ready es' val')) {args : Obj.CopyArgs} {fl : List Side}
    (hf : (∃ A a, args = .tagsFl A a fl) ∨ ∃ A a, args = .rangesFl A a fl) (ok : CopyOk k es es' args)
    (h1 : ∀ z ∈ (copyPlan es es' args).R, 0 < z.2) (h2 : ∀ z ∈ (copyPlan es es' args).r, 0 < z.2) (c : Bool) :
    ∃ w', exec c (.copy x y args) w = .ok .unit w' ∧ ∀ n xs fs, Valid k es n xs fs → ∀ c',
      (∀ qs, Aligned k.locs (copyPlan es es' args).R (copyPlan es es' args).r fl (point xs fs) qs →
        ∃ zs gs, Valid k es' n zs gs ∧ point zs gs = qs ∧
        ∃ b, exec c' (.read y n zs gs) w = .ok (.val b) w ∧ exec c' (.read x n xs fs) w' = .ok (.val b) w') ∧
      ((∀ qs, ¬ Aligned k.locs (copyPlan es es' args).R (copyPlan es es' args).r fl (point xs fs) qs) →
        ∃ b, exec c' (.read x n xs fs) w = .ok (.val b) w ∧ exec c' (.read x n xs fs) w' = .ok (.val b) w') := by
  obtain ⟨L, R0⟩ := R.rel
  obtain ⟨l1, l2, l3, l4⟩ := R0.plan_len hx hy ok.1
  have hfl : fl.length = k.locs.length := by
    rcases hf with ⟨A, a, rfl⟩ | ⟨A, a, rfl⟩ <;> exact ok.1.2.2
  have hI : (copyPlan es es' args).I = edges (copyPlan es es' args).R fl ∧ (copyPlan es es' args).i = edges (copyPlan es es' args).r fl := by
    rcases hf with ⟨A, a, rfl⟩ | ⟨A, a, rfl⟩ <;> exact ⟨rfl, rfl⟩
  have hm : ∀ d ∈ (copyPlan es es' args).dims k, d.Meets := by
    unfold CopyPlan.dims
    rw [hI.1, hI.2]
    exact edges_meet l1 l2 hfl h1 h2
  have hal : ∀ ys qs, Aligned k.locs (copyPlan es es' args).R (copyPlan es es' args).r fl ys qs ↔
      Takes ((copyPlan es es' args).dims k) ys ∧ qs = image ((copyPlan es es' args).dims k) ys := by
    intro ys qs
    unfold CopyPlan.dims
    rw [hI.1, hI.2]
    exact aligned_iff l1 l2 hfl h1 h2 ys qs
  obtain ⟨w', e1, e2⟩ := C25_partial R hne hx hy ok hm c
  refine ⟨w', e1, fun n xs fs v c' => ⟨fun qs ha => ?_, fun ha => ?_⟩⟩
  · obtain ⟨t, rfl⟩ := (hal _ _).1 ha
    obtain ⟨zs, gs, vz, hz⟩ := (e2 n xs fs v).1 t
    exact ⟨zs, gs, vz, hz, ((e2 n xs fs v).2 c').1 t zs gs vz hz⟩
  · exact ((e2 n xs fs v).2 c').2 fun t => ha _ ((hal _ _).2 ⟨t, rfl⟩)

/-- the hypotheses are met: the `P` ends of zones of different sizes aligned in 2D -/
example : CopyOk ⟨1, [.center, .half]⟩ [⟨1, 2, 1⟩, ⟨0, 3, 0⟩] [⟨0, 3, 0⟩, ⟨2, 2, 1⟩] (.tagsFl [.ALL, .IN] [.IN, .ALL] [.P, .N]) ∧
    Aligned [.center, .half] [(-1, 4), (0, 3)] [(0, 3), (-2, 5)] [.P, .N] [1, 3] [1, 1] := by
  refine ⟨by decide, ?_⟩
  exact .cons (k := 1) (by simp [Places]) (.cons (k := 3) (by simp [Places, Loc.toNat]) .nil)

/-- C30 is false (undefined behaviour): without checks, zones with a gap between them make
the loop run to the largest `int`, off the storage. -/
theorem C30_false : (run (V := Int) false
    [.makeSized 0 ⟨1, [.center]⟩ (fun _ => .null) [⟨0, 8, 0⟩], .makeSized 1 ⟨1, [.center]⟩ (fun _ => .null) [⟨0, 8, 0⟩],
     .copy 0 1 (.ranges [(0, 2)] [(4, 2)] [0] [0])] (World.init fun _ _ => true)).map (·.1) = none := by decide +kernel

/-- C30 is false (a copied point): without checks, half located zones that only touch copy the
closing point of a common cell that does not exist. -/
theorem C30_false_half : (run (V := Int) false
    [.makeSized 0 ⟨1, [.half]⟩ (fun _ => .null) [⟨0, 4, 0⟩], .makeSized 1 ⟨1, [.half]⟩ (fun _ => .null) [⟨0, 4, 0⟩],
     .write 0 0 [2] [.N] 5, .write 1 0 [2] [.N] 6, .copy 0 1 (.ranges [(0, 2)] [(2, 2)] [0] [0]), .read 0 0 [2] [.N]] (World.init fun _ _ => true)).map (·.1)
    = some [.ret .unit, .ret .unit, .ret .unit, .ret .unit, .ret .unit, .ret (.val (some 6))] := by decide +kernel

/-- C30, what remains: without checks, if in some center located dimension the zones only
touch, and in the other dimensions they meet or touch, the call returns and nothing at all changes. -/
theorem C30_partial (R : Reach mem chk w aw) {x y : Nat} {k : Kind} {es es' : List Ext} {val val' : Nat → List Int → Option V}
    (hx : aw.arr x = some (k, .ready es val)) (hy : aw.arr y = some (k, .ready es' val')) {args : Obj.CopyArgs}
    (ok : CopyOk k es es' args) (hm : ∀ d ∈ (copyPlan es es' args).dims k, d.Meets ∨ d.lo = d.hi)
    (ht : ∃ d ∈ (copyPlan es es' args).dims k, d.loc = .center ∧ d.lo = d.hi) :
    exec false (.copy x y args) w = .ok .unit w := by
  obtain ⟨L, R⟩ := R.rel
  refine R.copy_nothing hx hy ok (fun d hd => ?_) ?_
  · have := loc_le d.loc
    rcases hm d hd with ⟨y, h⟩ | h
    · unfold CopyDim.Common Seg CopyDim.image at h
      unfold CopyDim.lo CopyDim.hi
      omega
    · omega
  · obtain ⟨d, hd, h1, h2⟩ := ht
    exact ⟨d, hd, by rw [h1, h2]; simp [Loc.toNat]⟩

/-- touching zones: [0,2) and [2,4) -/
example : CopyOk ⟨1, [.center]⟩ [⟨0, 4, 0⟩] [⟨0, 4, 0⟩] (.ranges [(0, 2)] [(2, 2)] [0] [0]) ∧
    ∀ d ∈ (copyPlan [⟨0, 4, 0⟩] [⟨0, 4, 0⟩] (.ranges [(0, 2)] [(2, 2)] [0] [0])).dims ⟨1, [.center]⟩, d.lo = d.hi := by decide

end Verif.Props
