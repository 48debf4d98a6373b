import Verif.Proof.Valid
import Verif.Proof.Unchecked
/-!
# C01–C05: element access

`Reach mem chk w a`: the program is in state `w` after some history of calls inside the
contract, for which the user expects the arrays `a` (`Spec/Machine.lean`).  `Valid` says
which accesses are legal.
-/
namespace Verif.Props
open Spec
variable {V : Type} {mem : Nat → Nat → Bool} {chk : Bool} {w : World V} {aw : AWorld V}

/-- A history used to exhibit non-trivial states: array 0 is 1D with two half-located
components, array 1 is 2D (center, half), array 2 is 3D and stays empty.  One element
of array 1 has been written. -/
def demoOps : List (Op Int) :=
  [.make 0 ⟨2, [.half]⟩ (fun _ => .null), .alloc 0 [⟨1, 2, 1⟩],
   .makeSized 1 ⟨1, [.center, .half]⟩ (fun _ => .null) [⟨1, 1, 0⟩, ⟨0, 2, 1⟩],
   .write 1 0 [-1, 2] [.C, .P] 7, .make 2 ⟨3, [.center, .center, .half]⟩ (fun _ => .null)]

/-- values of array 1 after the history -/
def demoVal (m : Nat) (ys : List Int) : Option Int := if m = 0 ∧ ys = [-1, 3] then some 7 else none

theorem demo (chk : Bool) : ∃ (w : World Int) (aw : AWorld Int), Reach (fun _ _ => true) chk w aw ∧
    aw.arr 0 = some (⟨2, [.half]⟩, .ready [⟨1, 2, 1⟩] fun _ _ => none) ∧
    aw.arr 1 = some (⟨1, [.center, .half]⟩, .ready [⟨1, 1, 0⟩, ⟨0, 2, 1⟩] demoVal) ∧
    aw.arr 2 = some (⟨3, [.center, .center, .half]⟩, .empty) := by
  obtain ⟨evs, aw, h, h0, h1, h2⟩ : ∃ evs aw, arun (fun _ _ => true) chk demoOps AWorld.init = some (evs, aw) ∧
      aw.arr 0 = some (⟨2, [.half]⟩, .ready [⟨1, 2, 1⟩] fun _ _ => none) ∧
      aw.arr 1 = some (⟨1, [.center, .half]⟩, .ready [⟨1, 1, 0⟩, ⟨0, 2, 1⟩] demoVal) ∧
      aw.arr 2 = some (⟨3, [.center, .center, .half]⟩, .empty) := ⟨_, _, rfl, rfl, rfl, rfl⟩
  obtain ⟨w, R⟩ := reach_of_arun h
  exact ⟨w, aw, R, h0, h1, h2⟩

/-- C01: after a write to a valid address, the element read under that address (by any
build) is the written value; every other valid address, of this or of any other array,
reads as before; no array changes its sizes. -/
theorem C01 (R : Reach mem chk w aw) {x : Nat} {k : Kind} {es : List Ext} {val : Nat → List Int → Option V}
    (hx : aw.arr x = some (k, .ready es val)) {n : Nat} {xs : List Int} {fs : List FL} (v : Valid k es n xs fs) (a : V) (c : Bool) :
    ∃ w', exec c (.write x n xs fs a) w = .ok .unit w' ∧
      (∀ c', exec c' (.read x n xs fs) w' = .ok (.val (some a)) w') ∧
      (∀ y k' es' val', aw.arr y = some (k', .ready es' val') → ∀ m ys gs, Valid k' es' m ys gs →
        ¬ (y = x ∧ m = n ∧ point ys gs = point xs fs) →
        ∀ c', ∃ b, exec c' (.read y m ys gs) w = .ok (.val b) w ∧ exec c' (.read y m ys gs) w' = .ok (.val b) w') ∧
      (∀ y k' a', aw.arr y = some (k', a') → ∀ c', ∃ l,
        exec c' (.size y) w = .ok (.sizes l) w ∧ exec c' (.size y) w' = .ok (.sizes l) w') := by
  obtain ⟨L, R⟩ := R.rel
  obtain ⟨w', h1, R'⟩ := R.write c hx v a
  refine ⟨w', h1, ?_, ?_, ?_⟩
  · intro c'
    have := R'.read c' (x := x) (by simp only [AWorld.set, if_true]; rfl) v
    simpa using this
  · intro y k' es' val' hy m ys gs v' hne c'
    refine ⟨_, R.read c' hy v', ?_⟩
    by_cases hyx : y = x
    · subst hyx
      rw [hx] at hy; cases hy
      have := R'.read c' (x := y) (by simp only [AWorld.set, if_true]; rfl) v'
      rw [if_neg (fun h => hne ⟨rfl, h⟩)] at this
      exact this
    · exact R'.read c' (x := y) (by simp only [AWorld.set, if_neg hyx]; exact hy) v'
  · intro y k' a' hy c'
    refine ⟨_, R.size c' hy, ?_⟩
    by_cases hyx : y = x
    · subst hyx
      rw [hx] at hy; cases hy
      have := R'.size c' (x := y) (by simp only [AWorld.set, if_true]; rfl)
      exact this
    · exact R'.size c' (x := y) (by simp only [AWorld.set, if_neg hyx]; exact hy)

/-- the hypotheses are met by a written element and a different one of the 2D array -/
example : Valid ⟨1, [.center, .half]⟩ [⟨1, 1, 0⟩, ⟨0, 2, 1⟩] 0 [-1, 2] [.C, .P] ∧
    Valid ⟨1, [.center, .half]⟩ [⟨1, 1, 0⟩, ⟨0, 2, 1⟩] 0 [0, 3] [.C, .N] ∧
    ¬ point [0, 3] [.C, .N] = point [-1, 2] [.C, .P] ∧
    demoVal 0 (point [-1, 2] [.C, .P]) = some 7 := by
  refine ⟨⟨rfl, by decide, ⟨rfl, rfl, trivial⟩, ?_⟩, ⟨rfl, by decide, ⟨rfl, rfl, trivial⟩, ?_⟩, by decide, by decide⟩ <;>
    simp [mkShape, point, HasPt, Dim.Has, FL.offset, Loc.toNat]

/-- C02: checked access to an array that is empty or was allocated successfully.  On an
empty array it throws "no data".  On an allocated one it returns an element inside the
live data block of this array exactly for the valid accesses, otherwise it throws the
error of the first failing check.  Nothing is changed in either case. -/
theorem C02 (R : Reach mem chk w aw) {x : Nat} {k : Kind} {a : AArr V} (hx : aw.arr x = some (k, a)) :
    ∃ o, w.objs x = some (k, o) ∧
      ∀ n xs fs, xs.length = k.locs.length → fs.length = k.locs.length →
        (a = .empty → o.at_ true k n xs fs w.h = .err .noData w.h) ∧
        (∀ es val, a = .ready es val →
          (Valid k es n xs fs → accessErr k.N (mkShape es k.locs) n xs fs = none ∧
            ∃ b i len cell, o.at_ true k n xs fs w.h = .ok (.at b i) w.h ∧ b ∈ o.own ∧
              w.h.blk b = some (.vals len cell) ∧ i < len) ∧
          (¬ Valid k es n xs fs → ∃ e, accessErr k.N (mkShape es k.locs) n xs fs = some e ∧
            o.at_ true k n xs fs w.h = .err e w.h)) := by
  obtain ⟨L, R⟩ := R.rel
  obtain ⟨o, hb, hk, h0, r⟩ := R.arr_some hx
  refine ⟨o, hb, fun n xs fs lx lf => ⟨?_, ?_⟩⟩
  · rintro rfl
    cases r with
    | empty e => exact Obj.at_empty e _ lx lf
  · rintro es val rfl
    cases r with
    | @ready _ _ B cell r fits pos vals =>
      refine ⟨fun v => ⟨v.err r.len, ?_⟩, fun hv => ?_⟩
      · exact ⟨_, _, _, _, (Obj.at_ok true r fits lx lf (v.err r.len)).1, r.mem_own, r.blk, addr_lt v.comp v.pt⟩
      · cases he : accessErr k.N (mkShape es k.locs) n xs fs with
        | none => exact (hv ((accessErr_none r.len lx lf).1 he)).elim
        | some e => exact ⟨e, rfl, Obj.at_reject r fits lx lf he⟩

/-- rejected: component, flag, index of the P-face one past the end -/
example : accessErr 1 (mkShape [⟨1, 1, 0⟩, ⟨0, 2, 1⟩] [.center, .half]) 1 [0, 0] [.C, .N] = some (.nRange 1 1) ∧
    accessErr 1 (mkShape [⟨1, 1, 0⟩, ⟨0, 2, 1⟩] [.center, .half]) 0 [0, 0] [.C, .C] = some (.flagHalf 1) ∧
    accessErr 1 (mkShape [⟨1, 1, 0⟩, ⟨0, 2, 1⟩] [.center, .half]) 0 [0, 3] [.C, .P] = some (.rangeHalf 1 3 1 0 2 3) := by
  decide

/-- C03: in every state whatsoever of object and memory, an access accepted by the
checked build gives the same element in the unchecked build. -/
theorem C03 (k : Kind) (o : Obj) (n : Nat) (xs : List Int) (fs : List FL) (h h' : Heap V) (p : Ptr)
    (hp : o.at_ true k n xs fs h = .ok p h') : o.at_ false k n xs fs h = .ok p h' :=
  Obj.at_relax k o n xs fs h p h' hp

/-- a state with an accepted access -/
example : ∃ (o : Obj) (h : Heap Int) (p : Ptr), o.at_ true ⟨1, [.center, .half]⟩ 0 [-1, 2] [.C, .P] h = .ok p h := by
  obtain ⟨w, aw, R, -, h1, -⟩ := demo true
  obtain ⟨L, R⟩ := R.rel
  obtain ⟨o, B, cell, -, -, -, -, hat⟩ := R.addr h1
  have v : Valid ⟨1, [.center, .half]⟩ [⟨1, 1, 0⟩, ⟨0, 2, 1⟩] 0 [-1, 2] [.C, .P] :=
    ⟨rfl, by decide, ⟨rfl, rfl, trivial⟩, by simp [mkShape, point, HasPt, Dim.Has, FL.offset, Loc.toNat]⟩
  exact ⟨o, w.h, _, hat _ _ _ v true⟩

/-- C04: half points.  `d` is a half dimension of an allocated array.
(1) the P-face of cell `i` is accessible iff the N-face of cell `i+1` is, and then they
are the same element (in any build);
(2) the N-face and the P-face of one cell, if both accessible, are different elements;
(3) with the other indices fixed, the N-faces accessible in a half dimension are those of
the cells `-n .. in+p` and the P-faces those of `-n-1 .. in+p-1`: `n+in+p+1` points;
in a center dimension they are `-n .. in+p-1`: `n+in+p` points. -/
theorem C04 (R : Reach mem chk w aw) {x : Nat} {k : Kind} {es : List Ext} {val : Nat → List Int → Option V}
    (hx : aw.arr x = some (k, .ready es val)) {d : Nat} {e : Ext} (he : es[d]? = some e) {n : Nat} {xs : List Int} {fs : List FL} {i : Int}
    (hi : xs[d]? = some i) (hlen : xs.length = fs.length) :
    ∃ o, w.objs x = some (k, o) ∧
      (k.locs[d]? = some .half →
        (Valid k es n xs (fs.set d .P) ↔ Valid k es n (xs.set d (i + 1)) (fs.set d .N)) ∧
        (Valid k es n xs (fs.set d .P) → ∀ c, ∃ p, o.at_ c k n xs (fs.set d .P) w.h = .ok p w.h ∧
          o.at_ c k n (xs.set d (i + 1)) (fs.set d .N) w.h = .ok p w.h) ∧
        (Valid k es n xs (fs.set d .P) → Valid k es n xs (fs.set d .N) → ∀ c, ∃ p q, p ≠ q ∧
          o.at_ c k n xs (fs.set d .P) w.h = .ok p w.h ∧ o.at_ c k n xs (fs.set d .N) w.h = .ok q w.h) ∧
        (Valid k es n xs (fs.set d .N) → ∀ j, (Valid k es n (xs.set d j) (fs.set d .N) ↔ -(e.n : Int) ≤ j ∧ j ≤ e.i + e.p) ∧
          (Valid k es n (xs.set d j) (fs.set d .P) ↔ -(e.n : Int) - 1 ≤ j ∧ j ≤ e.i + e.p - 1))) ∧
      (k.locs[d]? = some .center → Valid k es n xs fs → ∀ j,
        (Valid k es n (xs.set d j) fs ↔ -(e.n : Int) ≤ j ∧ j ≤ e.i + e.p - 1)) := by
  obtain ⟨L, R⟩ := R.rel
  obtain ⟨o, B, cell, hb, hB, hblk, -, hat⟩ := R.addr hx
  refine ⟨o, hb, fun hd => ⟨?_, ?_, ?_, ?_⟩, ?_⟩
  · constructor
    · intro v
      exact ⟨by simpa using v.lenx, v.comp, flagsFit_set hd rfl v.flags, by rw [← point_set_P hi]; exact v.pt⟩
    · intro v
      exact ⟨by simpa using v.lenx, v.comp, flagsFit_set hd rfl v.flags, by rw [point_set_P hi]; exact v.pt⟩
  · intro v c
    have v' : Valid k es n (xs.set d (i + 1)) (fs.set d .N) :=
      ⟨by simpa using v.lenx, v.comp, flagsFit_set hd rfl v.flags, by rw [← point_set_P hi]; exact v.pt⟩
    refine ⟨_, hat _ _ _ v c, ?_⟩
    rw [hat _ _ _ v' c, point_set_P hi]
  · intro v v' c
    refine ⟨_, _, ?_, hat _ _ _ v c, hat _ _ _ v' c⟩
    intro h
    injection h with _ h
    have h2 := (addr_inj v.pt v'.pt h).2
    have hd' : d < xs.length := (List.getElem?_eq_some_iff.1 hi).1
    have e1 := point_set (fs := fs) (d := d) i .P hlen
    have e2 := point_set (fs := fs) (d := d) i .N hlen
    have hs : xs.set d i = xs := by
      rw [List.getElem?_eq_some_iff] at hi; obtain ⟨_, h⟩ := hi; rw [← h]; simp
    rw [hs] at e1 e2
    rw [e1, e2] at h2
    have hl : d < (point xs fs).length := by rw [point_length hlen]; exact hd'
    have := congrArg (fun l => l[d]?) h2
    simp [hl, FL.offset] at this
  · intro v j
    have key : ∀ g, flagFits .half g = true → (Valid k es n (xs.set d j) (fs.set d g) ↔ (⟨e, .half⟩ : Dim).Has (j + g.offset)) := by
      intro g hg
      rw [← hasPt_set he hd v.pt]
      have e1 : (point xs (fs.set d .N)).set d (j + g.offset) = point (xs.set d j) (fs.set d g) := by
        have := point_set (xs := xs) (fs := fs.set d .N) (d := d) j g (by simpa using hlen)
        rw [← this]; simp
      rw [e1]
      exact ⟨fun v => v.pt, fun h => ⟨by simpa using v.lenx, v.comp, flagsFit_set hd hg v.flags, h⟩⟩
    rw [key .N rfl, key .P rfl]
    simp only [Dim.Has, FL.offset, Loc.toNat]
    omega
  · intro hd v j
    have hf : fs[d]? = some .C := by
      exact flagsFit_center hd v.flags
    have hs : fs.set d .C = fs := by
      rw [List.getElem?_eq_some_iff] at hf; obtain ⟨_, h⟩ := hf; rw [← h]; simp
    have e1 : (point xs fs).set d (j + FL.C.offset) = point (xs.set d j) fs := by
      rw [← point_set j .C hlen, hs]
    have h1 := hasPt_set he hd v.pt (j + FL.C.offset)
    rw [e1] at h1
    constructor
    · intro v'
      have := h1.1 v'.pt
      simp only [Dim.Has, FL.offset, Loc.toNat] at this; omega
    · intro hj
      exact ⟨by simpa using v.lenx, v.comp, v.flags, h1.2 (by simp only [Dim.Has, FL.offset, Loc.toNat]; omega)⟩

example : Valid ⟨2, [.half]⟩ [⟨1, 2, 1⟩] 1 [2] ([.C].set 0 .P) ∧ Valid ⟨2, [.half]⟩ [⟨1, 2, 1⟩] 1 [2] ([.C].set 0 .N) := by
  refine ⟨⟨rfl, by decide, ⟨rfl, trivial⟩, ?_⟩, ⟨rfl, by decide, ⟨rfl, trivial⟩, ?_⟩⟩ <;>
    simp [mkShape, point, HasPt, Dim.Has, FL.offset, Loc.toNat]

/-- C05: the data block of an allocated array holds exactly `N` components one after the
other, component `n` being a C array of `points` elements in row-major order, last index
fastest; `data_pt(n)` points to its first element. -/
theorem C05 (R : Reach mem chk w aw) {x : Nat} {k : Kind} {es : List Ext} {val : Nat → List Int → Option V}
    (hx : aw.arr x = some (k, .ready es val)) :
    ∃ o B cell, w.objs x = some (k, o) ∧
      w.h.blk B = some (.vals (k.N * points (mkShape es k.locs)) cell) ∧
      (∀ n < k.N, ∀ c, o.data_pt c k n w.h = .ok (.at B (n * points (mkShape es k.locs))) w.h) ∧
      (∀ n xs fs, Valid k es n xs fs → ∀ c, o.at_ c k n xs fs w.h
        = .ok (.at B (n * points (mkShape es k.locs) + offset (mkShape es k.locs) (point xs fs))) w.h) ∧
      (∀ n i, n < k.N → i < points (mkShape es k.locs) → ∃ ys, HasPt (mkShape es k.locs) ys ∧
        offset (mkShape es k.locs) ys = i ∧ cell (n * points (mkShape es k.locs) + i) = val n ys) := by
  obtain ⟨L, R⟩ := R.rel
  obtain ⟨o, hb, hk, h0, r⟩ := R.arr_some hx
  cases r with
  | @ready _ _ B cell r fits pos vals =>
    refine ⟨o, B, cell, hb, r.blk, fun n hn c => Obj.data_pt_eq c r fits pos hn,
      fun n xs fs v c => (Obj.at_ok c r fits v.lenx v.lenf (v.err r.len)).1, fun n i hn hi => ?_⟩
    obtain ⟨ys, h1, h2⟩ := offset_surj hi
    exact ⟨ys, h1, h2, by rw [← vals n hn ys h1, h2]⟩

example : points (mkShape [⟨1, 1, 0⟩, ⟨0, 2, 1⟩] [.center, .half]) = 8 ∧
    offset (mkShape [⟨1, 1, 0⟩, ⟨0, 2, 1⟩] [.center, .half]) [0, 3] = 7 := by decide

end Verif.Props
