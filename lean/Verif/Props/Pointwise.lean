import Verif.Proof.Pointwise
import Verif.Props.Client
/-!
# C78: loops that work point by point
-/
namespace Verif.Props
open Spec
variable {V : Type} {mem : Nat → Nat → Bool} {chk : Bool} {w : World V} {aw : AWorld V}

/-- C78: a loop over `x.size().range(ts...)` whose body names elements at the loop indices only, `y(n, i, j, k)`, in any number of
assignments, of components that have all the points of the loop (without half-located dimensions).  The body is a program
on the numbers at one point; if it runs at every point of the loop, the loop runs through, and afterwards the numbers at
every point of the loop are those the body makes of the numbers that were there, the numbers elsewhere are unchanged — in whatever
order the points are visited. -/
theorem C78 (R : Reach mem chk w aw) {x : Nat} {ts : List RA} {body : List (PAssign V)} {k : Kind} {es : List Ext}
    {val : Nat → List Int → Option V} (hx : aw.arr x = some (k, .ready es val)) (hl : ts.length = es.length)
    (ok : ∀ c ∈ bodyComps body, Covers aw (InTags es ts) c.1 c.2) (idx : ∀ a ∈ body, PExpr.Idx ts.length a.rhs)
    (out : List Int → Env1 V) (hb : ∀ xs, InTags es ts xs → pointRun xs body (fun y n => valsOf aw (y, n, xs)) = some (out xs)) :
    ∃ w' σ, (pointLoop x ts body).exec chk w = .ok () w' ∧ Reach mem chk w' (withVals aw σ) ∧
      (∀ xs, InTags es ts xs → ∀ y n, σ (y, n, xs) = out xs y n) ∧
      (∀ y n xs, ¬ InTags es ts xs → σ (y, n, xs) = valsOf aw (y, n, xs)) ∧
      (∀ y k' es' val', aw.arr y = some (k', .ready es' val') → ∀ n ys fs, Valid k' es' n ys fs → ∀ c,
        exec c (.read y n ys fs) w' = .ok (.val (σ (y, n, point ys fs))) w') := by
  have R0 : Reach mem chk w (withVals aw (valsOf aw)) := by rw [withVals_valsOf]; exact R
  obtain ⟨w', σ, h1, h2, h3, h4⟩ := point_loop R0 hx hl ok idx out hb
  refine ⟨w', σ, h1, h2, h3, h4, ?_⟩
  intro y k' es' val' hy n ys fs v c
  rw [read_of h2 (withVals_arr hy) v c, valsOf_withVals hy]

/-- C78 (only if): if the body reads a number never assigned at some point of the loop, the loop is undefined -/
theorem C78_uninit (R : Reach mem chk w aw) {x : Nat} {ts : List RA} {body : List (PAssign V)} {k : Kind} {es : List Ext}
    {val : Nat → List Int → Option V} (hx : aw.arr x = some (k, .ready es val)) (hl : ts.length = es.length)
    (ok : ∀ c ∈ bodyComps body, Covers aw (InTags es ts) c.1 c.2) (idx : ∀ a ∈ body, PExpr.Idx ts.length a.rhs)
    {xs : List Int} (h : InTags es ts xs) (hb : pointRun xs body (fun y n => valsOf aw (y, n, xs)) = none) :
    (pointLoop x ts body).exec chk w = .ub .uninit := by
  have R0 : Reach mem chk w (withVals aw (valsOf aw)) := by rw [withVals_valsOf]; exact R
  exact point_loop_uninit R0 hx hl ok idx h hb

/-- two arrays; the second has more virtual points -/
def pointOps : List (Op Int) :=
  [.makeSized 0 ⟨1, [.center, .center]⟩ (fun _ => .null) [⟨0, 2, 0⟩, ⟨0, 2, 1⟩],
   .makeSized 1 ⟨2, [.center, .center]⟩ (fun _ => .null) [⟨1, 2, 0⟩, ⟨0, 3, 1⟩]]

/-- `a(0, i, j) = j; b(1, i, j) = a(0, i, j) + i; a(0, i, j) = b(1, i, j) * a(0, i, j);` -/
def pointBody : List (PAssign Int) :=
  [⟨0, 0, .conv 1 id⟩, ⟨1, 1, .bin (· + ·) (.elem 0 0) (.conv 0 id)⟩, ⟨0, 0, .bin (· * ·) (.elem 1 1) (.elem 0 0)⟩]

theorem point2 {e f : Ext} {t t' : RA} {xs : List Int} (h : InTags [e, f] [t, t'] xs) :
    ∃ i j, xs = [i, j] ∧ InTag e.n e.i e.p t i ∧ InTag f.n f.i f.p t' j := by
  match xs, h with
  | [i, j], ⟨h1, h2, _⟩ => exact ⟨i, j, rfl, h1, h2⟩

/-- the hypotheses of C78 hold of them; what it says there -/
example : ∃ (w w' : World Int) (aw : AWorld Int), Reach (fun _ _ => true) true w aw ∧ (aw.arr 0).isSome ∧ (aw.arr 1).isSome ∧
    (pointLoop 0 [.IN, .ALL] pointBody).exec true w = .ok () w' ∧
    ∀ i j : Int, 0 ≤ i → i < 2 → 0 ≤ j → j < 3 → exec true (.read 0 0 [i, j] [.C, .C]) w' = .ok (.val (some ((j + i) * j))) w' := by
  obtain ⟨evs, aw, h, h0, h1⟩ : ∃ evs aw, arun (fun _ _ => true) true pointOps AWorld.init = some (evs, aw) ∧
      aw.arr 0 = some (⟨1, [.center, .center]⟩, .ready [⟨0, 2, 0⟩, ⟨0, 2, 1⟩] fun _ _ => none) ∧
      aw.arr 1 = some (⟨2, [.center, .center]⟩, .ready [⟨1, 2, 0⟩, ⟨0, 3, 1⟩] fun _ _ => none) := ⟨_, _, rfl, rfl, rfl⟩
  obtain ⟨w, R⟩ := reach_of_arun h
  have c0 : Covers aw (InTags [⟨0, 2, 0⟩, ⟨0, 2, 1⟩] [.IN, .ALL]) 0 0 := by
    refine ⟨_, _, _, h0, by simp, by decide, ?_⟩
    intro xs hx
    obtain ⟨i, j, rfl, hi, hj⟩ := point2 hx
    simp only [InTag] at hi hj
    refine ⟨?_, ?_, trivial⟩ <;> simp only [Dim.Has, Loc.toNat] <;> omega
  have c1 : Covers aw (InTags [⟨0, 2, 0⟩, ⟨0, 2, 1⟩] [.IN, .ALL]) 1 1 := by
    refine ⟨_, _, _, h1, by simp, by decide, ?_⟩
    intro xs hx
    obtain ⟨i, j, rfl, hi, hj⟩ := point2 hx
    simp only [InTag] at hi hj
    refine ⟨?_, ?_, trivial⟩ <;> simp only [Dim.Has, Loc.toNat] <;> omega
  obtain ⟨w', σ, r, -, h2, -, h4⟩ := C78 R (x := 0) (ts := [.IN, .ALL]) (body := pointBody) h0 rfl
    (by
      intro c hc
      simp only [pointBody, bodyComps, PExpr.comps, List.flatMap_cons, List.flatMap_nil, List.append_nil, List.cons_append, List.nil_append,
        List.mem_cons, List.not_mem_nil, or_false] at hc
      rcases hc with rfl | rfl | rfl | rfl | rfl | rfl <;> assumption)
    (by
      intro a ha
      simp only [pointBody, List.mem_cons, List.not_mem_nil, or_false] at ha
      rcases ha with rfl | rfl | rfl
      · exact Nat.one_lt_two
      · exact ⟨trivial, Nat.two_pos⟩
      · exact ⟨trivial, trivial⟩)
    (fun xs => (((Env1.set (fun y n => valsOf aw (y, n, xs)) 0 0 (xs.getD 1 0)).set 1 1 (xs.getD 1 0 + xs.getD 0 0)).set 0 0
      ((xs.getD 1 0 + xs.getD 0 0) * xs.getD 1 0)))
    (by intro xs _; rfl)
  refine ⟨w, w', aw, R, by rw [h0]; rfl, by rw [h1]; rfl, r, ?_⟩
  intro i j p q p' q'
  have hin : InTags [⟨0, 2, 0⟩, ⟨0, 2, 1⟩] [.IN, .ALL] [i, j] := by
    refine ⟨?_, ?_, trivial⟩ <;> simp only [InTag] <;> omega
  rw [h4 _ _ _ _ h0 0 [i, j] [.C, .C] ⟨rfl, by decide, ⟨rfl, rfl, trivial⟩, by
    refine ⟨?_, ?_, trivial⟩ <;> simp only [Dim.Has, Loc.toNat, FL.offset] <;> omega⟩ true]
  have : point [i, j] [.C, .C] = [i, j] := point_center [i, j]
  rw [this, h2 _ hin]
  rfl

end Verif.Props
