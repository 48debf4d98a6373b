import Verif.Proof.Client1
/-!
# C65: loops of user programs
-/
namespace Verif.Props
open Spec
variable {V : Type} {mem : Nat → Nat → Bool} {chk : Bool} {w : World V} {aw : AWorld V}

/-- the value read under an address -/
theorem read_of (R : Reach mem chk w aw) {y : Nat} {k : Kind} {es : List Ext} {val : Nat → List Int → Option V}
    (hy : aw.arr y = some (k, .ready es val)) {n : Nat} {xs : List Int} {fs : List FL} (v : Valid k es n xs fs) (c : Bool) :
    exec c (.read y n xs fs) w = .ok (.val (valsOf aw (y, n, point xs fs))) w := by
  obtain ⟨L, R'⟩ := R.rel
  rw [R'.read c hy v]
  simp only [valsOf, hy]

/-- C65: a loop `PD_For_?D(x.size().range(ts...), body)` whose body consists of assignments between elements, in any
reachable state.  Every element the body names at an index of the loop exists, and no iteration sets an element another one
uses.  If each iteration, run alone on the numbers before the loop, reads assigned numbers only, the loop runs through and
reaches a state in which every array has its sizes, an element set by the iteration at `xs` has the number that
iteration alone gives it, and every other element has the number it had. -/
theorem C65 (R : Reach mem chk w aw) {l : Loop V} {k : Kind} {es : List Ext} {val : Nat → List Int → Option V}
    (hx : aw.arr l.x = some (k, .ready es val)) (hl : l.ts.length = es.length)
    (ok : ∀ xs, InTags es l.ts xs → BodyOk aw (extsOf aw) l.body xs) (ind : Independent (extsOf aw) l.body (InTags es l.ts))
    (alone : List Int → Vals V)
    (hb : ∀ xs, InTags es l.ts xs → bodyAt (extsOf aw) xs l.body (valsOf aw) = some (alone xs)) :
    ∃ w' σ, l.exec chk w = .ok () w' ∧ Reach mem chk w' (withVals aw σ) ∧
      (∀ xs, InTags es l.ts xs → ∀ c ∈ writesAt (extsOf aw) l.body xs, σ c = alone xs c) ∧
      (∀ c, (∀ xs, InTags es l.ts xs → c ∉ writesAt (extsOf aw) l.body xs) → σ c = valsOf aw c) ∧
      (∀ y k' es' val', aw.arr y = some (k', .ready es' val') → ∀ n ys fs, Valid k' es' n ys fs → ∀ c,
        exec c (.read y n ys fs) w' = .ok (.val (σ (y, n, point ys fs))) w') := by
  have R0 : Reach mem chk w (withVals aw (valsOf aw)) := by rw [withVals_valsOf]; exact R
  obtain ⟨w', σ, h1, h2, h3, h4⟩ := loop_run R0 hx hl ok ind alone hb
  refine ⟨w', σ, h1, h2, h3, h4, ?_⟩
  intro y k' es' val' hy n ys fs v c
  rw [read_of h2 (withVals_arr hy) v c, valsOf_withVals hy]

/-- C65 (only if): if some iteration, run alone, reads a number never assigned, the loop is undefined -/
theorem C65_uninit (R : Reach mem chk w aw) {l : Loop V} {k : Kind} {es : List Ext} {val : Nat → List Int → Option V}
    (hx : aw.arr l.x = some (k, .ready es val)) (hl : l.ts.length = es.length)
    (ok : ∀ xs, InTags es l.ts xs → BodyOk aw (extsOf aw) l.body xs) (ind : Independent (extsOf aw) l.body (InTags es l.ts))
    {xs : List Int} (hxs : InTags es l.ts xs) (hb : bodyAt (extsOf aw) xs l.body (valsOf aw) = none) :
    l.exec chk w = .ub .uninit := by
  have R0 : Reach mem chk w (withVals aw (valsOf aw)) := by rw [withVals_valsOf]; exact R
  exact loop_uninit R0 hx hl ok ind hxs hb

/-- two 1D arrays: 0 with a virtual point on either side and the numbers 5, 6, 7, 8, 9; 1 without virtual points -/
def clientOps : List (Op Int) :=
  [.makeSized 0 ⟨1, [.center]⟩ (fun _ => .null) [⟨1, 3, 1⟩], .makeSized 1 ⟨1, [.center]⟩ (fun _ => .null) [⟨0, 3, 0⟩],
   .write 0 0 [-1] [.C] 5, .write 0 0 [0] [.C] 6, .write 0 0 [1] [.C] 7, .write 0 0 [2] [.C] 8, .write 0 0 [3] [.C] 9]

/-- what array `y` holds after a loop -/
def clientRun (l : Loop Int) (y : Nat) : Option (List (Option Int)) :=
  match run true clientOps (World.init fun _ _ => true) with
  | some (_, w) =>
    match l.exec true w with
    | .ok _ w' => some <| [-1, 0, 1, 2, 3].map fun i =>
        match exec true (.read y 0 [i] [.C]) w' with
        | .ok (.val b) _ => b
        | _ => some 99
    | _ => none
  | none => none

/-- `PD_For_1D(b.size().range(RA::IN), b(0, i) = a(0, i - 1) * 10 + a(0, i + 1))` -/
def clientLoop : Loop Int :=
  ⟨1, [.IN], [⟨1, 0, [.plus 0 0], [.C],
    .bin (fun u v => u * 10 + v) (.elem 0 0 [.plus 0 (-1)] [.C]) (.elem 0 0 [.plus 0 1] [.C])⟩]⟩

/-- the hypotheses of C65 hold of this loop, and what it computes -/
example : (∃ (w : World Int) (aw : AWorld Int) (val : Nat → List Int → Option Int), Reach (fun _ _ => true) true w aw ∧
      aw.arr clientLoop.x = some (⟨1, [.center]⟩, .ready [⟨0, 3, 0⟩] val) ∧
      (∀ xs, InTags [⟨0, 3, 0⟩] clientLoop.ts xs → BodyOk aw (extsOf aw) clientLoop.body xs) ∧
      Independent (extsOf aw) clientLoop.body (InTags [⟨0, 3, 0⟩] clientLoop.ts) ∧
      ∀ xs, InTags [⟨0, 3, 0⟩] clientLoop.ts xs → ∃ σ, bodyAt (extsOf aw) xs clientLoop.body (valsOf aw) = some σ) ∧
    clientRun clientLoop 1 = some [some 99, some 57, some 68, some 79, some 99] := by
  refine ⟨?_, by decide +kernel⟩
  obtain ⟨evs, aw, val, val', h, h0, h1, hv⟩ : ∃ evs aw val val', arun (fun _ _ => true) true clientOps AWorld.init = some (evs, aw) ∧
      aw.arr 1 = some (⟨1, [.center]⟩, .ready [⟨0, 3, 0⟩] val) ∧ aw.arr 0 = some (⟨1, [.center]⟩, .ready [⟨1, 3, 1⟩] val') ∧
      ∀ i ∈ [(-1 : Int), 0, 1, 2, 3], (val' 0 [i]).isSome := ⟨_, _, _, _, rfl, rfl, rfl, by decide⟩
  obtain ⟨w, R⟩ := reach_of_arun h
  refine ⟨w, aw, val, R, h0, ?_, ?_, ?_⟩
  · intro xs hxs a ha
    rw [List.mem_singleton.1 ha]
    match xs, hxs with
    | [i], hxs =>
      have hxs := hxs.1
      simp only [InTag] at hxs
      refine ⟨⟨⟨⟨_, _, _, h1, ⟨rfl, by decide, ⟨rfl, trivial⟩, ?_, trivial⟩⟩, ?_⟩, ⟨_, _, _, h1, ⟨rfl, by decide, ⟨rfl, trivial⟩, ?_, trivial⟩⟩, ?_⟩,
        ⟨_, _, _, h0, ⟨rfl, by decide, ⟨rfl, trivial⟩, ?_, trivial⟩⟩, ?_⟩
      all_goals simp [Dim.Has, idxVal, FL.offset, IdxOk, Loc.toNat]
      all_goals omega
  · intro xs ys hxs hys ne c hc hu
    match xs, hxs, ys, hys with
    | [i], hxs, [j], hys =>
      simp only [clientLoop, writesAt, usesAt, readsOf, cellAt, targetOf, List.map_cons, List.map_nil, List.flatMap_cons, List.flatMap_nil,
        List.not_mem_nil, or_false, List.mem_cons, List.append_nil, idxVal, point, FL.offset, List.cons_append, List.nil_append,
        List.getD_cons_zero, Int.add_zero] at hc hu
      subst hc
      simp only [Prod.mk.injEq, List.cons.injEq] at hu
      have : j ≠ i := fun e => ne (by rw [e])
      simp at hu
      omega
  · intro xs hxs
    match xs, hxs with
    | [i], hxs =>
      have hxs := hxs.1
      simp only [InTag] at hxs
      have g : ∀ j ∈ [(-1 : Int), 0, 1, 2, 3], ∃ v, valsOf aw (0, 0, [j]) = some v := by
        intro j hj
        simp only [valsOf, h1]
        exact Option.isSome_iff_exists.1 (hv j hj)
      obtain ⟨a, ha⟩ := g (i + -1) (by simp at hxs ⊢; omega)
      obtain ⟨b, hb⟩ := g (i + 1) (by simp at hxs ⊢; omega)
      simp only [clientLoop, bodyAt, valueOf, cellAt, List.map_cons, List.map_nil, idxVal, point, FL.offset, List.getD_cons_zero,
        Int.add_zero, ha, hb]
      exact ⟨_, rfl⟩

/-- C65: independence matters.  `a(0, i) = a(0, i - 1)` on the same array carries the first number through the
array: the loop goes upwards, each iteration reads what the one before has set. -/
theorem C65_dependent : clientRun ⟨0, [.IN], [⟨0, 0, [.plus 0 0], [.C], .elem 0 0 [.plus 0 (-1)] [.C]⟩]⟩ 0 =
    some [some 5, some 5, some 5, some 5, some 9] := by decide +kernel

/-- a loop that reads the elements of an array nothing was assigned to is undefined -/
example : (match run true clientOps (World.init fun _ _ => true) with
    | some (_, w) =>
      match (Loop.mk 0 [.IN] [⟨0, 0, [.plus 0 0], [.C], .elem 1 0 [.plus 0 0] [.C]⟩] : Loop Int).exec true w with
      | .ub u => some u
      | _ => none
    | none => none) = some .uninit := by decide +kernel

end Verif.Props
