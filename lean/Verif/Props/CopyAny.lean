import Verif.Proof.CopyAny
/-!
# C108: `copy_from` with zones anywhere
-/
namespace Verif.Props
open Spec
variable {V : Type} {mem : Nat → Nat → Bool} {chk : Bool} {w : World V} {aw : AWorld V}

/-- C108: `x.copy_from(y, R..., r..., I..., i...)` between allocated arrays of one type, or inside one, for any zones — inside
the arrays, over their ends or elsewhere — and any anchors of at most 2^28 in size, in either build.

With checks it throws exactly if in some dimension one zone begins where the other ends or behind it, or, inside one array, if the
written zone and its source overlap in every dimension; then nothing has changed.  Nothing else is tested.

Otherwise, or without checks: if in the first dimension in which the zones do not meet there is a gap between them the
behaviour is undefined, and if they touch in it nothing at all has changed.  If they meet in every dimension then the points
written are taken in lexicographic order, for each of them the components in ascending order, and the number at its place becomes
the one at the place of its source at that time.  As soon as a place does not exist the behaviour is undefined; otherwise the call
returns, the elements of `x` are read as the numbers that result and those of every other array as before. -/
theorem C108 (R : Reach mem chk w aw) {x y : Nat} {k : Kind} {es es' : List Ext} {val val' : Nat → List Int → Option V}
    (hx : aw.arr x = some (k, .ready es val)) (hy : aw.arr y = some (k, .ready es' val')) {Z z : List (Int × Int)} {I i : List Int}
    (l1 : Z.length = k.locs.length) (l2 : z.length = k.locs.length) (l3 : I.length = k.locs.length) (l4 : i.length = k.locs.length)
    (hm : ∀ d ∈ copyDims k.locs Z z I i, d.Modest) (c : Bool) :
    (c = true → (∃ d ∈ copyDims k.locs Z z I i, ¬ d.Over) → exec c (.copy x y (.ranges Z z I i)) w = .err .overlapNotFound w) ∧
    (c = true → (∀ d ∈ copyDims k.locs Z z I i, d.Over) → x = y → (∀ d ∈ copyDims k.locs Z z I i, d.Clash) →
      exec c (.copy x y (.ranges Z z I i)) w = .err .copyOverlap w) ∧
    ((c = true → (∀ d ∈ copyDims k.locs Z z I i, d.Over) ∧ (x = y → ∃ d ∈ copyDims k.locs Z z I i, ¬ d.Clash)) →
      (Gap (copyDims k.locs Z z I i) → ∃ u, exec c (.copy x y (.ranges Z z I i)) w = .ub u) ∧
      (Touch (copyDims k.locs Z z I i) → exec c (.copy x y (.ranges Z z I i)) w = .ok .unit w) ∧
      (¬ Gap (copyDims k.locs Z z I i) → ¬ Touch (copyDims k.locs Z z I i) →
        ∃ l : List (List Int), l.Pairwise Before ∧ (∀ ys, ys ∈ l ↔ Writes (copyDims k.locs Z z I i) ys) ∧
        ∀ f g, ByPlace k es val f → ByPlace k es' val' g →
        match inTurnAt (seat k es) (seat k es') (copyDims k.locs Z z I i) (if x = y then none else some g) f (perComp k.N l) with
        | none => ∃ u, exec c (.copy x y (.ranges Z z I i)) w = .ub u
        | some f' => ∃ w', exec c (.copy x y (.ranges Z z I i)) w = .ok .unit w' ∧
            (∀ c' n xs fs, Valid k es n xs fs → exec c' (.read x n xs fs) w' =
              .ok (.val (f' (n * points (mkShape es k.locs) + offset (mkShape es k.locs) (point xs fs)))) w') ∧
            ∀ t kt et vt, t ≠ x → aw.arr t = some (kt, .ready et vt) → ∀ c' n xs fs, Valid kt et n xs fs →
              exec c' (.read t n xs fs) w' = .ok (.val (vt n (point xs fs))) w')) := by
  obtain ⟨L, R⟩ := R.rel
  obtain ⟨o, hb, hk, h0, r⟩ := R.arr_some hx
  obtain ⟨pd, hb', -, -, r'⟩ := R.arr_some hy
  cases r with | @ready _ _ B cl r fits pos vals =>
  cases r' with | @ready _ _ B' cl' r' fits' pos' vals' =>
  have hl : (copyDims k.locs Z z I i).length = k.locs.length := copyDims_len l1 l2 l3 l4
  generalize hds : copyDims k.locs Z z I i = ds at *
  have f1 : ∀ d ∈ ds, d.Fits1 := fun d hd => (CopyDim.modest_fits (hm d hd)).1
  have f2 : ∀ d ∈ ds, d.Fits2 := fun d hd => (CopyDim.modest_fits (hm d hd)).2
  have err : ∀ e, Obj.copy c k o pd (decide (x = y)) (.ranges Z z I i) w.h = .err e w.h →
      exec c (.copy x y (.ranges Z z I i)) w = .err e w := by
    intro e he
    have := copy_run (ev := .exn e) c hb hb' he
    rwa [put_same w hb] at this
  refine ⟨?_, ?_, ?_⟩
  · rintro rfl ⟨d, hd, hn⟩
    refine err _ ?_
    have no : ¬ ∀ d ∈ ds, d.Over := fun h => hn (h d hd)
    subst hds
    exact Obj.copy_elim (Q := fun x => x = _) true r.typed r'.typed _ l1 l2 l3 l4 w.h (fun h => (h f1).elim) (fun _ h => (h f2).elim)
      (fun _ _ => rfl) (fun _ h => (no h).elim) (fun h => (no (h rfl)).elim)
  · rintro rfl ho hxy hcl
    refine err _ ?_
    subst hds
    exact Obj.copy_elim (Q := fun x => x = _) true r.typed r'.typed _ l1 l2 l3 l4 w.h (fun h => (h f1).elim) (fun _ h => (h f2).elim)
      (fun _ h => (h ho).elim) (fun _ _ _ _ => rfl) (fun _ h => (h rfl (by simp [hxy]) hcl).elim)
  · intro hc
    have lp : Obj.copy c k o pd (decide (x = y)) (.ranges Z z I i) w.h = Obj.copyLoops k o pd ds w.h := by
      subst hds
      exact Obj.copy_elim (Q := fun x => x = _) c r.typed r'.typed _ l1 l2 l3 l4 w.h (fun h => (h f1).elim) (fun _ h => (h f2).elim)
        (fun e h => (h (hc e).1).elim)
        (fun e _ s h => by
          obtain ⟨d, hd, hn⟩ := (hc e).2 (of_decide_eq_true s)
          exact (hn (h d hd)).elim)
        (fun _ _ => rfl)
    refine ⟨fun hg => ?_, fun ht => ?_, fun hg ht => ?_⟩
    · obtain ⟨u, hu⟩ := Obj.copyLoops_gap r.typed r'.typed hl hg w.h
      exact ⟨u, copy_world_ub hb hb' (lp.trans hu)⟩
    · have := copy_run (ev := .ret .unit) c hb hb' (lp.trans (Obj.copyLoops_touch r.typed r'.typed hl ht w.h))
      rwa [put_same w hb] at this
    · have hw : ∀ d ∈ ds, 0 ≤ d.wid := fun d hd => by rw [CopyDim.span_eq]; exact (span_pos hg ht d hd).le
      refine ⟨boxPts ds, before_boxPts _, fun ys => mem_boxPts hw, fun f g hf hg' => ?_⟩
      rw [Obj.copyLoops_eq r.typed r'.typed hl hw hk.2, ← perComp_pairs] at lp
      have cells : ∀ {e : List Ext} {q : Nat → Option V} {v : Nat → List Int → Option V} {f : Nat → Option V}, e.length = k.locs.length →
          (∀ n < k.N, ∀ ys, HasPt (mkShape e k.locs) ys → q (n * points (mkShape e k.locs) + offset (mkShape e k.locs) ys) = v n ys) →
          ByPlace k e v f → ∀ a < k.N * points (mkShape e k.locs), q a = f a := by
        intro e q v f he hq hf a ha
        obtain ⟨n, xs, fs, vv, rfl⟩ := place_surj he ha
        rw [hq n vv.comp _ vv.pt, hf n vv.comp _ vv.pt]
      have key := inTurnAt_run (es := es) (es' := es') (o := o) (pd := pd) (B := B) (B' := B') hl (if x = y then none else some g)
        (by
          intro e
          have hxy : x = y := by
            by_contra hn; rw [if_neg hn] at e; cases e
          subst hxy
          rw [hb] at hb'; cases hb'
          rw [hx] at hy; cases hy
          exact ⟨rfl, rfl⟩)
        (by
          intro e
          have hxy : x ≠ y := fun h => e (if_pos h)
          have := R.disj x y hxy B (by rw [hb]; exact r.mem_own)
          rwa [hb'] at this) (perComp k.N (boxPts ds))
        (by
          intro p hp
          rw [perComp_pairs, mem_pairs, mem_boxPts hw] at hp
          have := writes_int hm hp.1
          rw [hl] at this
          exact this) r r' (cells r.len vals hf)
        (by
          intro g' e
          have hxy : x ≠ y := fun h => by rw [if_pos h] at e; cases e
          rw [if_neg hxy] at e; cases e
          exact cells r'.len vals' hg')
      revert key
      cases inTurnAt (seat k es) (seat k es') ds (if x = y then none else some g) f (perComp k.N (boxPts ds)) with
      | none =>
        rintro ⟨u, hu⟩
        exact ⟨u, copy_world_ub hb hb' (lp.trans hu)⟩
      | some f' =>
        rintro ⟨h', c1, g1, g2, g3, g4, g5, g6⟩
        have R' := R.update' x (h' := h') (a' := some (k, .ready es
            fun n ys => f' (n * points (mkShape es k.locs) + offset (mkShape es k.locs) ys)))
          (n' := aw.next) (by
            rw [hb]
            exact ⟨g4, by omega, fun b h4 _ => g5 b (by rintro rfl; exact h4 r.mem_own), fun b h4 h5 => (h5 h4).elim, fun b h4 => .inl h4⟩)
          (.some hk h0 (.ready g2 fits pos (by
            intro n hn ys hys
            exact g6 _ (addr_lt hn hys)))) (by rw [g3, R.next]) (by rw [hb]; exact .inl rfl)
        refine ⟨_, copy_run c hb hb' (ev := .ret .unit) (lp.trans g1), fun c' n xs fs v => ?_, fun t kt et vt ht hat c' n xs fs v => ?_⟩
        · exact R'.read c' (x := x) (by simp only [AWorld.set, if_true]; rfl) v
        · exact R'.read c' (x := t) (by simp only [AWorld.set, if_neg ht]; exact hat) v

/-- C108, the listing by place exists for every allocated array, so the last part of `C108` speaks about every such call. -/
theorem C108_cells (R : Reach mem chk w aw) {x : Nat} {k : Kind} {es : List Ext} {val : Nat → List Int → Option V}
    (hx : aw.arr x = some (k, .ready es val)) : ∃ f, ByPlace k es val f := by
  obtain ⟨L, R⟩ := R.rel
  obtain ⟨o, hb, -, -, r⟩ := R.arr_some hx
  cases r with
  | @ready _ _ B cell r fits pos vals => exact ⟨cell, vals⟩

/-- a copy inside one array of two rows of two numbers, over the end of the first row: the hypotheses hold, no test refuses it,
and the numbers 10, 11, 12, 13 become 10, 11, 11, 11 … -/
example : (∀ d ∈ copyDims [.center, .center] [(0, 1), (2, 2)] [(1, 1), (-1, 2)] [0, 2] [1, -1], d.Modest ∧ d.Over ∧ 0 < d.span) ∧
    (∃ d ∈ copyDims [.center, .center] [(0, 1), (2, 2)] [(1, 1), (-1, 2)] [0, 2] [1, -1], ¬ d.Clash) ∧
    (inTurnAt (seat ⟨1, [.center, .center]⟩ [⟨0, 2, 0⟩, ⟨0, 2, 0⟩]) (seat ⟨1, [.center, .center]⟩ [⟨0, 2, 0⟩, ⟨0, 2, 0⟩])
      (copyDims [.center, .center] [(0, 1), (2, 2)] [(1, 1), (-1, 2)] [0, 2] [1, -1]) none (fun a => some (10 + a))
      (perComp 1 [[0, 2], [0, 3]])).map (fun f => [f 0, f 1, f 2, f 3]) = some [some 10, some 11, some 11, some 11] := by decide

/-- … as the program does; … -/
example : (run (V := Int) true
    [.makeSized 0 ⟨1, [.center, .center]⟩ (fun _ => .null) [⟨0, 2, 0⟩, ⟨0, 2, 0⟩],
     .write 0 0 [0, 0] [.C, .C] 10, .write 0 0 [0, 1] [.C, .C] 11, .write 0 0 [1, 0] [.C, .C] 12, .write 0 0 [1, 1] [.C, .C] 13,
     .copy 0 0 (.ranges [(0, 1), (2, 2)] [(1, 1), (-1, 2)] [0, 2] [1, -1]),
     .read 0 0 [0, 0] [.C, .C], .read 0 0 [0, 1] [.C, .C], .read 0 0 [1, 0] [.C, .C], .read 0 0 [1, 1] [.C, .C]]
     (World.init fun _ _ => true)).map (fun r => r.1.drop 6)
    = some [.ret (.val (some 10)), .ret (.val (some 11)), .ret (.val (some 11)), .ret (.val (some 11))] := by decide +kernel

/-- … one column further the last point has no place, … -/
example : (∀ d ∈ copyDims [.center, .center] [(0, 1), (2, 3)] [(1, 1), (-1, 3)] [0, 2] [1, -1], d.Modest ∧ d.Over ∧ 0 < d.span) ∧
    (inTurnAt (seat ⟨1, [.center, .center]⟩ [⟨0, 2, 0⟩, ⟨0, 2, 0⟩]) (seat ⟨1, [.center, .center]⟩ [⟨0, 2, 0⟩, ⟨0, 2, 0⟩])
      (copyDims [.center, .center] [(0, 1), (2, 3)] [(1, 1), (-1, 3)] [0, 2] [1, -1]) none (fun a => some (10 + a))
      (perComp 1 [[0, 2], [0, 3], [0, 4]])).isNone = true := by decide

/-- … and in a state with such an array the call is undefined. -/
example : (∃ w aw val, Reach (V := Int) (fun _ _ => true) true w aw ∧
      aw.arr 0 = some (⟨1, [.center, .center]⟩, .ready [⟨0, 2, 0⟩, ⟨0, 2, 0⟩] val)) ∧
    (run (V := Int) true
      [.makeSized 0 ⟨1, [.center, .center]⟩ (fun _ => .null) [⟨0, 2, 0⟩, ⟨0, 2, 0⟩],
       .copy 0 0 (.ranges [(0, 1), (2, 3)] [(1, 1), (-1, 3)] [0, 2] [1, -1])] (World.init fun _ _ => true)).map (·.1) = none := by
  refine ⟨?_, by decide +kernel⟩
  have h : arun (V := Int) (fun _ _ => true) true [.makeSized 0 ⟨1, [.center, .center]⟩ (fun _ => .null) [⟨0, 2, 0⟩, ⟨0, 2, 0⟩]]
      AWorld.init = some (_, _) := rfl
  obtain ⟨w, R⟩ := reach_of_arun h
  exact ⟨w, _, _, R, rfl⟩

end Verif.Props
