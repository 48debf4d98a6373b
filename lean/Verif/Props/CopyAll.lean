import Verif.Proof.CopyAll
import Verif.Props.Access
/-!
# C30, C27: what an unchecked copy does with zones that lie inside the arrays

All cases: `Spec/CopyAll.lean` says when the zones have a gap, touch or are too far apart.
-/
namespace Verif.Props
open Spec
variable {V : Type} {mem : Nat → Nat → Bool} {chk : Bool} {w : World V} {aw : AWorld V}

/-- C30, every case: a copy without checks whose zones lie inside the arrays and whose
anchors are in machine range is undefined behaviour exactly if somewhere the distance of the
zones is no `int`, or in the first dimension in which they do not meet there is a gap between
them.  Otherwise it returns: if in that dimension they touch, nothing at all has changed, whatever
the later dimensions are like; if they meet in every dimension (the closing points of half
located dimensions included), then, for different arrays, the points written are read as the source's values
and all others as before. -/
theorem C30_exact (R : Reach mem chk w aw) {x y : Nat} {k : Kind} {es es' : List Ext} {val val' : Nat → List Int → Option V}
    (hx : aw.arr x = some (k, .ready es val)) (hy : aw.arr y = some (k, .ready es' val')) {args : Obj.CopyArgs}
    (ok : CopyOk k es es' args) :
    ((∃ u, exec false (.copy x y args) w = .ub u) ↔ Far ((copyPlan es es' args).dims k) ∨ Gap ((copyPlan es es' args).dims k)) ∧
    (¬ Far ((copyPlan es es' args).dims k) → Touch ((copyPlan es es' args).dims k) → exec false (.copy x y args) w = .ok .unit w) ∧
    (¬ Gap ((copyPlan es es' args).dims k) → ¬ Touch ((copyPlan es es' args).dims k) →
      ∃ w', exec false (.copy x y args) w = .ok .unit w' ∧ (x ≠ y → ∀ c' n xs fs, Valid k es n xs fs →
        (Writes ((copyPlan es es' args).dims k) (point xs fs) →
          ∃ zs gs, Valid k es' n zs gs ∧ point zs gs = image ((copyPlan es es' args).dims k) (point xs fs) ∧
          ∃ b, exec c' (.read y n zs gs) w = .ok (.val b) w ∧ exec c' (.read x n xs fs) w' = .ok (.val b) w') ∧
        (¬ Writes ((copyPlan es es' args).dims k) (point xs fs) →
          ∃ b, exec c' (.read x n xs fs) w = .ok (.val b) w ∧ exec c' (.read x n xs fs) w' = .ok (.val b) w'))) := by
  obtain ⟨L, R⟩ := R.rel
  obtain ⟨l1, l2, l3, l4⟩ := R.plan_len hx hy ok.1
  have meet : ¬ Gap ((copyPlan es es' args).dims k) → ¬ Touch ((copyPlan es es' args).dims k) →
      ∃ w', exec false (.copy x y args) w = .ok .unit w' ∧ (x ≠ y → ∀ c' n xs fs, Valid k es n xs fs →
        (Writes ((copyPlan es es' args).dims k) (point xs fs) →
          ∃ zs gs, Valid k es' n zs gs ∧ point zs gs = image ((copyPlan es es' args).dims k) (point xs fs) ∧
          ∃ b, exec c' (.read y n zs gs) w = .ok (.val b) w ∧ exec c' (.read x n xs fs) w' = .ok (.val b) w') ∧
        (¬ Writes ((copyPlan es es' args).dims k) (point xs fs) →
          ∃ b, exec c' (.read x n xs fs) w = .ok (.val b) w ∧ exec c' (.read x n xs fs) w' = .ok (.val b) w')) := by
    intro hg ht
    by_cases hne : x = y
    · subst hne
      obtain rfl : es = es' := by rw [hx] at hy; cases hy; rfl
      obtain ⟨w', h1, -⟩ := R.copy_self hx ok (span_pos hg ht)
      exact ⟨w', h1, fun h => (h rfl).elim⟩
    · obtain ⟨w', h1, R'⟩ := R.copy_meet hne hx hy ok (span_pos hg ht)
      refine ⟨w', h1, fun _ c' n xs fs v => ⟨fun hw => ?_, fun hw => ⟨_, R.read c' hx v, ?_⟩⟩⟩
      · obtain ⟨zs, gs, vz, hz⟩ := valid_of_pt (R.len hy) v.comp (writes_from (R.len hy) l1 l3 l4 ok.2.2.1 hw)
        refine ⟨zs, gs, vz, hz, _, R.read c' hy vz, ?_⟩
        have := R'.read c' (x := x) (by simp only [AWorld.set, if_true]; rfl) v
        rw [if_pos hw] at this
        rw [this, hz]; rfl
      · have := R'.read c' (x := x) (by simp only [AWorld.set, if_true]; rfl) v
        rw [if_neg hw] at this
        exact this
  refine ⟨⟨fun ⟨u, hu⟩ => ?_, R.copy_gap hx hy ok⟩, R.copy_touch hx hy ok, meet⟩
  by_contra hn
  rw [not_or] at hn
  by_cases ht : Touch ((copyPlan es es' args).dims k)
  · rw [R.copy_touch hx hy ok hn.1 ht] at hu; cases hu
  · obtain ⟨w', h1, -⟩ := meet hn.2 ht
    rw [h1] at hu; cases hu

/-- every case occurs inside the contract: the zones touch in the first dimension and have a gap in the second … -/
example : CopyOk ⟨1, [.center, .center]⟩ [⟨0, 8, 0⟩, ⟨0, 8, 0⟩] [⟨0, 8, 0⟩, ⟨0, 8, 0⟩] (.ranges [(0, 2), (0, 2)] [(2, 2), (5, 2)] [0, 0] [0, 0]) ∧
    Touch (copyDims [.center, .center] [(0, 2), (0, 2)] [(2, 2), (5, 2)] [0, 0] [0, 0]) ∧
    ¬ Far (copyDims [.center, .center] [(0, 2), (0, 2)] [(2, 2), (5, 2)] [0, 0] [0, 0]) := by
  refine ⟨by decide, ⟨[], _, _, rfl, by simp, by decide⟩, ?_⟩
  rintro ⟨d, hd, h⟩
  simp only [copyDims, List.mem_cons, List.not_mem_nil, or_false] at hd
  rcases hd with rfl | rfl <;> revert h <;> decide

/-- … they meet in the first and have a gap in the second … -/
example : CopyOk ⟨1, [.center, .half]⟩ [⟨0, 8, 0⟩, ⟨0, 8, 0⟩] [⟨0, 8, 0⟩, ⟨0, 8, 0⟩] (.ranges [(0, 2), (0, 2)] [(1, 2), (5, 2)] [0, 0] [0, 0]) ∧
    Gap (copyDims [.center, .half] [(0, 2), (0, 2)] [(1, 2), (5, 2)] [0, 0] [0, 0]) :=
  ⟨by decide, [_], _, [], rfl, by decide, by decide⟩

/-- … their distance is no `int` … -/
example : CopyOk ⟨1, [.center]⟩ [⟨1000000000, 0, 0⟩] [⟨0, 1100000001, 0⟩] (.ranges [(-1000000000, 1)] [(1100000000, 1)] [1000000000] [0]) ∧
    Far (copyDims [.center] [(-1000000000, 1)] [(1100000000, 1)] [1000000000] [0]) :=
  ⟨by decide, _, List.mem_singleton.2 rfl, by decide⟩

/-- … or they meet everywhere. -/
example : CopyOk ⟨1, [.center, .half]⟩ [⟨0, 8, 0⟩, ⟨0, 8, 0⟩] [⟨0, 8, 0⟩, ⟨0, 8, 0⟩] (.ranges [(0, 2), (0, 2)] [(1, 2), (2, 2)] [0, 0] [0, 0]) ∧
    ∀ d ∈ copyDims [.center, .half] [(0, 2), (0, 2)] [(1, 2), (2, 2)] [0, 0] [0, 0], 0 < d.span := by decide

/-- C27 without checks: copying zones that meet inside one array returns, and its effect is
that of single assignments in the order of the loops, each reading what the earlier ones wrote:
`l` is the list of the written points in lexicographic order, each once, `f` the elements before the call. -/
theorem C27_order (R : Reach mem chk w aw) {x : Nat} {k : Kind} {es : List Ext} {val : Nat → List Int → Option V}
    (hx : aw.arr x = some (k, .ready es val)) {args : Obj.CopyArgs} (ok : CopyOk k es es args)
    (hp : ∀ d ∈ (copyPlan es es args).dims k, 0 < d.span) :
    ∃ (l : List (List Int)) (f : Nat → List Int → Option V) (w' : World V), l.Pairwise Before ∧ (∀ ys, ys ∈ l ↔ Writes ((copyPlan es es args).dims k) ys) ∧
      exec false (.copy x x args) w = .ok .unit w' ∧ ∀ c' n xs fs, Valid k es n xs fs →
        exec c' (.read x n xs fs) w = .ok (.val (f n (point xs fs))) w ∧
        exec c' (.read x n xs fs) w' = .ok (.val (inTurn ((copyPlan es es args).dims k) (f n) l (point xs fs))) w' := by
  obtain ⟨L, R⟩ := R.rel
  obtain ⟨w', h1, R'⟩ := R.copy_self hx ok hp
  refine ⟨boxPts ((copyPlan es es args).dims k), val, w', before_boxPts _, fun ys => mem_boxPts (fun d hd => ?_), h1, fun c' n xs fs v => ⟨R.read c' hx v, ?_⟩⟩
  · rw [CopyDim.span_eq]; exact (hp d hd).le
  · exact R'.read c' (x := x) (by simp only [AWorld.set, if_true]; rfl) v

/-- shifting by one place to the right smears the first element over the zone … -/
example : CopyOk ⟨1, [.center]⟩ [⟨0, 4, 0⟩] [⟨0, 4, 0⟩] (.ranges [(1, 3)] [(0, 3)] [1] [0]) ∧
    (∀ d ∈ copyDims [.center] [(1, 3)] [(0, 3)] [1] [0], 0 < d.span) ∧
    ([[0], [1], [2], [3]].map (inTurn (copyDims [.center] [(1, 3)] [(0, 3)] [1] [0]) (fun ys => some ys) [[1], [2], [3]])
      = [some [0], some [0], some [0], some [0]]) := by decide

/-- … and the program does so. -/
example : (run (V := Int) false
    [.makeSized 0 ⟨1, [.center]⟩ (fun _ => .null) [⟨0, 4, 0⟩], .write 0 0 [0] [.C] 5, .write 0 0 [1] [.C] 6, .write 0 0 [2] [.C] 7, .write 0 0 [3] [.C] 8,
     .copy 0 0 (.ranges [(1, 3)] [(0, 3)] [1] [0]), .read 0 0 [1] [.C], .read 0 0 [2] [.C], .read 0 0 [3] [.C]] (World.init fun _ _ => true)).map (·.1)
    = some [.ret .unit, .ret .unit, .ret .unit, .ret .unit, .ret .unit, .ret .unit, .ret (.val (some 5)), .ret (.val (some 5)), .ret (.val (some 5))] := by decide +kernel

end Verif.Props
