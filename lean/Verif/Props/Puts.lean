import Verif.Proof.Puts2
import Verif.Props.Client
/-!
# C104 — Filling arrays with loops of assignments
-/
namespace Verif.Props
open Spec
variable {V : Type} {mem : Nat → Nat → Bool} {chk : Bool} {w : World V} {aw : AWorld V}

/-- C104: a loop over all points of an array of any kind whose body is a list of assignments to elements of this array, at the loop indices or at the
last index of a dimension, with flags that fit.  It runs through without an exception; afterwards a stored point no assignment
reaches has the number it had, and every other one has the number of the assignment that wins it; there is always one that does. -/
theorem C104 (R : Reach mem chk w aw) {x : Nat} {k : Kind} {es : List Ext} {val : Nat → List Int → Option V} (hx : aw.arr x = some (k, .ready es val))
    {l : List (Put V)} (hl : ∀ p ∈ l, p.far.length = k.locs.length ∧ FlagsFit k.locs p.fs) (s : PutVars) :
    ∃ w' s' val', (putLoop x k.N k.locs.length l).exec chk (w, s) = .ok () (w', s') ∧ Reach mem chk w' (aw.set x (some (k, .ready es val'))) ∧
      (∀ n ys, (n < k.N → ∀ p ∈ l, ¬ p.Hits es ys) → val' n ys = val n ys) ∧
      (∀ n < k.N, ∀ ys l1 p l2, l = l1 ++ p :: l2 → Wins es l1 p l2 ys → val' n ys = some (p.val n (p.lastAt es ys))) ∧
      (∀ ys, (∃ p ∈ l, p.Hits es ys) → ∃ l1 p l2, l = l1 ++ p :: l2 ∧ Wins es l1 p l2 ys) := by
  obtain ⟨hes, w', s', h1, h2⟩ := putLoop_run R hx hl s
  exact ⟨w', s', _, h1, h2, fun n ys h => putVals_none hes hl val h,
    fun n hn ys l1 p l2 e h => by subst e; exact putVals_wins hes hl val hn h, fun ys h => wins_exists es ys l h⟩

/-- C104 (complete): if for every choice of flags that fits there is an assignment that has the last index at most where the flag is `FL::P`, and no dimension
is empty, every element of the array has a number after the loop. -/
theorem C104_complete (R : Reach mem chk w aw) {x : Nat} {k : Kind} {es : List Ext} {val : Nat → List Int → Option V} (hx : aw.arr x = some (k, .ready es val))
    (he : ∀ e ∈ es, 0 < e.n + e.i + e.p) {l : List (Put V)} (hl : ∀ p ∈ l, p.far.length = k.locs.length ∧ FlagsFit k.locs p.fs)
    (hc : ∀ fs, FlagsFit k.locs fs → ∃ p ∈ l, p.fs = fs ∧ ∀ d : Nat, p.far[d]? = some true → fs[d]? = some FL.P) (s : PutVars) :
    ∃ w' s', (putLoop x k.N k.locs.length l).exec chk (w, s) = .ok () (w', s') ∧
      ∀ n xs fs, Valid k es n xs fs → ∀ c, ∃ v, exec c (.read x n xs fs) w' = .ok (.val (some v)) w' := by
  obtain ⟨w', s', val', h1, h2, h3, h4, h5⟩ := C104 R hx hl s
  refine ⟨w', s', h1, fun n xs fs v c => ?_⟩
  have hes : es.length = k.locs.length := (putLoop_run R hx hl s).1
  obtain ⟨gs, g1, g2⟩ := flags_cover es k.locs _ hes v.pt he
  obtain ⟨p, hp, rfl, hd⟩ := hc gs g1
  obtain ⟨l1, q, l2, e, hw⟩ := h5 (point xs fs) ⟨p, hp, g2 p.far (hl p hp).1 hd⟩
  refine ⟨q.val n (q.lastAt es (point xs fs)), ?_⟩
  rw [read_of (val := val') h2 (by simp [AWorld.set]) v c]
  simp only [valsOf, AWorld.set, if_true]
  rw [h4 n v.comp _ _ _ _ e hw]

/-- C104 (corner): of an array at half points in every dimension the far corner keeps what it had, unless the flags of some assignment are all `FL::P` —
indices at the ends of the dimensions are not enough. -/
theorem C104_corner (R : Reach mem chk w aw) {x : Nat} {k : Kind} {es : List Ext} {val : Nat → List Int → Option V} (hx : aw.arr x = some (k, .ready es val))
    {l : List (Put V)} (hl : ∀ p ∈ l, p.far.length = k.locs.length ∧ FlagsFit k.locs p.fs) (hn : ∀ p ∈ l, FL.N ∈ p.fs) (s : PutVars) :
    ∃ w' s' val', (putLoop x k.N k.locs.length l).exec chk (w, s) = .ok () (w', s') ∧ Reach mem chk w' (aw.set x (some (k, .ready es val'))) ∧
      ∀ n, val' n (es.map fun e => (e.i : Int) + e.p) = val n (es.map fun e => (e.i : Int) + e.p) := by
  obtain ⟨w', s', val', h1, h2, h3, -, -⟩ := C104 R hx hl s
  exact ⟨w', s', val', h1, h2, fun n => h3 n _ fun _ p hp => corner_not_hit es p.far p.fs (hn p hp)⟩

/-- C104 (Test_D3_PointData_H, `x7`): whatever the sizes, after the two loops every element has a number: that of the first loop unless it is on a far
face, 4 in the far corner, else 3 on the far face of the last dimension, else 2 on that of the second, else 1. -/
theorem C104_faces (R : Reach mem chk w aw) {x N : Nat} {e0 e1 e2 : Ext} {val : Nat → List Int → Option V}
    (hx : aw.arr x = some (⟨N, [.half, .half, .half]⟩, .ready [e0, e1, e2] val)) (h0 : 0 < e0.n + e0.i + e0.p) (h1 : 0 < e1.n + e1.i + e1.p)
    (h2 : 0 < e2.n + e2.i + e2.p) (f : Nat → List Int → V) (a b c d : V) (s : PutVars) :
    ∃ w' s' val', (Stmt.seq (putLoop x N 3 (d3hFill f)) (putLoop x N 3 (d3hFaces a b c d))).exec chk (w, s) = .ok () (w', s') ∧
      Reach mem chk w' (aw.set x (some (⟨N, [.half, .half, .half]⟩, .ready [e0, e1, e2] val'))) ∧
      ∀ n < N, ∀ y0 y1 y2, HasPt (mkShape [e0, e1, e2] [.half, .half, .half]) [y0, y1, y2] → val' n [y0, y1, y2] = some
        (if y0 = e0.i + e0.p ∧ y1 = e1.i + e1.p ∧ y2 = e2.i + e2.p then d else if y2 = e2.i + e2.p then c else if y1 = e1.i + e1.p then b
         else if y0 = e0.i + e0.p then a else f n [y0, y1, y2]) := by
  obtain ⟨w1, s1, v1, g1, R1, -, g2, -⟩ := C104 R hx (l := d3hFill f) (by simp [d3hFill, FlagsFit, flagFits]) s
  obtain ⟨w2, s2, v2, k1, R2, k2, k3, -⟩ := C104 R1 (x := x) (k := ⟨N, [.half, .half, .half]⟩) (es := [e0, e1, e2]) (val := v1)
    (by simp only [AWorld.set, if_true]) (l := d3hFaces a b c d) (by simp [d3hFaces, FlagsFit, flagFits]) s1
  refine ⟨w2, s2, v2, ?_, ?_, ?_⟩
  · show (Stmt.exec chk _ >>= fun _ => Stmt.exec chk _) (w, s) = _
    exact (M.bind_ok g1).trans k1
  · have : (aw.set x (some (⟨N, [.half, .half, .half]⟩, .ready [e0, e1, e2] v1))).set x (some (⟨N, [.half, .half, .half]⟩, .ready [e0, e1, e2] v2)) =
        aw.set x (some (⟨N, [.half, .half, .half]⟩, .ready [e0, e1, e2] v2)) := by
      simp only [AWorld.set]; congr 1; funext y; by_cases hy : y = x <;> simp [hy]
    rw [this] at R2; exact R2
  · intro n hn y0 y1 y2 hp
    obtain ⟨p0, p1, p2, -⟩ := hp
    simp only [Dim.Has, Loc.toNat] at p0 p1 p2
    have win : ∀ (l1 : List (Put V)) (p : Put V) (l2 : List (Put V)), d3hFaces a b c d = l1 ++ p :: l2 → Wins [e0, e1, e2] l1 p l2 [y0, y1, y2] →
        v2 n [y0, y1, y2] = some (p.val n (p.lastAt [e0, e1, e2] [y0, y1, y2])) := k3 n hn _
    by_cases q0 : y0 = e0.i + e0.p <;> by_cases q1 : y1 = e1.i + e1.p <;> by_cases q2 : y2 = e2.i + e2.p
    · rw [win _ _ _ (split_at _ 12 (by show 12 < 13; omega)) (by settle_faces)]; simp [q0, q1, q2]; rfl
    · rw [win _ _ _ (split_at _ 6 (by show 6 < 13; omega)) (by settle_faces)]; simp [q0, q1, q2]; rfl
    · rw [win _ _ _ (split_at _ 10 (by show 10 < 13; omega)) (by settle_faces)]; simp [q0, q1, q2]; rfl
    · rw [win _ _ _ (split_at _ 0 (by show 0 < 13; omega)) (by settle_faces)]; simp [q0, q1, q2]; rfl
    · rw [win _ _ _ (split_at _ 9 (by show 9 < 13; omega)) (by settle_faces)]; simp [q0, q1, q2]; rfl
    · rw [win _ _ _ (split_at _ 4 (by show 4 < 13; omega)) (by settle_faces)]; simp [q0, q1, q2]; rfl
    · rw [win _ _ _ (split_at _ 8 (by show 8 < 13; omega)) (by settle_faces)]; simp [q0, q1, q2]; rfl
    · rw [k2 n _ fun _ p hp => ?_, g2 n hn _ [] _ [] rfl ?_]
      · simp [q0, q1, q2, Put.lastAt, lastIter, FL.offset]
      · refine ⟨?_, by simp, by simp⟩
        simp only [Put.Hits, hits, hits1, FL.offset]; simp; omega
      · simp only [d3hFaces, List.mem_cons, List.not_mem_nil, or_false] at hp
        rcases hp with rfl | rfl | rfl | rfl | rfl | rfl | rfl | rfl | rfl | rfl | rfl | rfl | rfl <;>
          simp only [Put.Hits, hits, hits1, FL.offset] <;> simp <;> omega

/-! ## Examples -/

/-- a reachable state with an array at the half points of three dimensions whose numbers are not known -/
example : ∃ (w : World Int) (aw : AWorld Int) (val : Nat → List Int → Option Int), Reach (fun _ _ => true) true w aw ∧
    aw.arr 0 = some (⟨2, [.half, .half, .half]⟩, .ready [⟨1, 2, 0⟩, ⟨0, 1, 0⟩, ⟨0, 2, 1⟩] val) ∧
    (∀ p ∈ d3hFaces (1 : Int) 2 3 4, p.far.length = 3 ∧ FlagsFit [.half, .half, .half] p.fs) ∧
    ¬ ∀ p ∈ d3hFaces (1 : Int) 2 3 4, FL.N ∈ p.fs := by
  obtain ⟨evs, aw, val, h, h0⟩ : ∃ evs aw val, arun (fun _ _ => true) true
      [.makeSized 0 ⟨2, [.half, .half, .half]⟩ (fun _ => .null) [⟨1, 2, 0⟩, ⟨0, 1, 0⟩, ⟨0, 2, 1⟩]] (AWorld.init : AWorld Int) = some (evs, aw) ∧
      aw.arr 0 = some (⟨2, [.half, .half, .half]⟩, .ready [⟨1, 2, 0⟩, ⟨0, 1, 0⟩, ⟨0, 2, 1⟩] val) := ⟨_, _, _, rfl, rfl⟩
  obtain ⟨w, R⟩ := reach_of_arun h
  exact ⟨w, aw, val, R, h0, by simp [d3hFaces, FlagsFit, flagFits], by simp [d3hFaces]⟩

/-- all flags there are for it: the two loops of the test together -/
example : ∀ fs, FlagsFit [.half, .half, .half] fs → ∃ p ∈ d3hFill (fun _ _ => (0 : Int)) ++ d3hFaces 1 2 3 4, p.fs = fs ∧
    ∀ d : Nat, p.far[d]? = some true → fs[d]? = some FL.P := by
  intro fs h
  match fs, h with
  | [f0, f1, f2], h =>
    obtain ⟨h0, h1, h2, -⟩ := h
    cases f0 <;> cases f1 <;> cases f2 <;> first
      | (simp [flagFits] at h0 h1 h2; done)
      | (simp only [d3hFill, d3hFaces, List.cons_append, List.nil_append, List.exists_mem_cons_iff, List.cons.injEq, reduceCtorEq, and_false, false_and,
          false_or, true_and, and_true]
         try left
         intro d hd
         rcases d with _ | _ | _ | d <;> simp at hd ⊢)

/-- an array at the half points of two dimensions, filled by two loops and printed -/
def halfProgram (ps qs : List (Put Int)) : Stmt Int PutVars :=
  .seq (.call (fun _ => .makeSized 0 ⟨1, [.half, .half]⟩ (fun _ => .null) [⟨0, 2, 0⟩, ⟨0, 1, 0⟩]) fun _ s => s) <|
  .seq (putLoop 0 1 2 ps) <|
  .seq (putLoop 0 1 2 qs) <|
  .disp 0 (fun v => match v with | some v => toString v | none => "?") fun t s => { s with out := t }

/-- the assignments to the far faces reach all but the corner, as in Test_D2_PointData_H.cpp:96-97 -/
def halfFaces : List (Put Int) := [⟨[false, true], [.N, .P], fun _ _ => 11⟩, ⟨[true, false], [.P, .N], fun _ _ => 22⟩]

def halfFill : List (Put Int) := [⟨[false, false], [.N, .N], fun _ xs => xs.getD 0 0 * 10 + xs.getD 1 0⟩]

/-- the far corner is printed though it was never assigned: `?` stands for whatever is in the storage -/
example : ((halfProgram halfFill halfFaces).exec true (World.init fun _ _ => true, {})).seen = .ok ()
    { xs := [1, 0], R := [(0, 2), (0, 1)], args := [1, 0], out := ["N = ", "0", "\n", "0", ", ", "11", ", ", "\n", "10", ", ", "11", ", ", "\n",
      "22", ", ", "?", ", ", "\n", "\n"] } := C94_whole _ _ (by decide +kernel)

/-- with an assignment to the corner it has a number -/
example : ((halfProgram halfFill (halfFaces ++ [⟨[true, true], [.P, .P], fun _ _ => 33⟩])).exec true (World.init fun _ _ => true, {})).seen = .ok ()
    { xs := [1, 0], R := [(0, 2), (0, 1)], args := [1, 0], out := ["N = ", "0", "\n", "0", ", ", "11", ", ", "\n", "10", ", ", "11", ", ", "\n",
      "22", ", ", "33", ", ", "\n", "\n"] } := C94_whole _ _ (by decide +kernel)

/-- an assignment that has the flag `FL::P` at the loop index reaches the same points in another order: the iteration of the point before wins -/
example : Wins [⟨0, 3, 0⟩] [] (⟨[false], [.P], fun _ xs => xs.getD 0 0⟩ : Put Int) [] [2] ∧
    (⟨[false], [.P], fun _ xs => xs.getD 0 0⟩ : Put Int).lastAt [⟨0, 3, 0⟩] [2] = [1] := by
  refine ⟨⟨?_, by simp, by simp⟩, by decide⟩
  show hits _ _ _ _; decide

/-- a dimension without points: the loop is empty, but an array at half points has one element, which stays without a number -/
example : ((Stmt.seq (.call (fun _ => .makeSized 0 ⟨1, [.half]⟩ (fun _ => .null) [⟨0, 0, 0⟩]) fun _ s => s) <|
    .seq (putLoop 0 1 1 [⟨[false], [.N], fun _ _ => 5⟩, ⟨[false], [.P], fun _ _ => 6⟩]) <|
    .disp 0 (fun v => match v with | some v => toString v | none => "?") fun t s => { s with out := t } : Stmt Int PutVars).exec true
      (World.init fun _ _ => true, {})).seen = .ok () { R := [(0, 0)], out := ["?", ", ", "\n"] } := C94_whole _ _ (by decide +kernel)

end Verif.Props
