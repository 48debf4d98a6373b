import Verif.Proof.PutsFaces
/-!
# C104 — the far faces of arrays with one and two dimensions at half points
-/
namespace Verif.Props
open Spec
variable {V : Type} {mem : Nat → Nat → Bool} {chk : Bool} {w : World V} {aw : AWorld V}

/-- C104 (Test_D3_PointData_H, `x1`): whatever the sizes, after the two loops every element has a number: that of the first loop unless it is on the
far face of dimension 2. -/
theorem C104_x1 (R : Reach mem chk w aw) {x N : Nat} {e0 e1 e2 : Ext} {val : Nat → List Int → Option V}
    (hx : aw.arr x = some (⟨N, [.center, .center, .half]⟩, .ready [e0, e1, e2] val)) (h2 : 0 < e2.n + e2.i + e2.p)
    (f : Nat → List Int → V) (a : V) (s : PutVars) :
    ∃ w' s' val', (Stmt.seq (putLoop x N 3 (d3hFillAt [.C, .C, .N] f)) (putLoop x N 3 (d3hX1 a))).exec chk (w, s) = .ok () (w', s') ∧
      Reach mem chk w' (aw.set x (some (⟨N, [.center, .center, .half]⟩, .ready [e0, e1, e2] val'))) ∧
      ∀ n < N, ∀ y0 y1 y2, HasPt (mkShape [e0, e1, e2] [.center, .center, .half]) [y0, y1, y2] → val' n [y0, y1, y2] = some
        (if y2 = e2.i + e2.p then a else f n [y0, y1, y2]) := by
  obtain ⟨w', s', v', k0, k1, k2, k3⟩ := two_loops R hx (l := d3hFillAt [.C, .C, .N] f) (l' := d3hX1 a) (by simp [d3hFillAt, FlagsFit, flagFits])
    (by simp [d3hX1, FlagsFit, flagFits]) s
  refine ⟨w', s', v', k0, k1, fun n hn y0 y1 y2 ⟨p0, p1, p2, _⟩ => ?_⟩
  simp only [Dim.Has, Loc.toNat] at p0 p1 p2
  by_cases q : y2 = e2.i + e2.p
  · rw [k3 n hn _ _ _ _ (split_at _ 0 (by show 0 < 1; omega)) (by settle_x)]; simp [q]; rfl
  · untouched k2 hn q

/-- C104 (Test_D3_PointData_H, `x2`): whatever the sizes, after the two loops every element has a number: that of the first loop unless it is on the
far face of dimension 1. -/
theorem C104_x2 (R : Reach mem chk w aw) {x N : Nat} {e0 e1 e2 : Ext} {val : Nat → List Int → Option V}
    (hx : aw.arr x = some (⟨N, [.center, .half, .center]⟩, .ready [e0, e1, e2] val)) (h1 : 0 < e1.n + e1.i + e1.p)
    (f : Nat → List Int → V) (a : V) (s : PutVars) :
    ∃ w' s' val', (Stmt.seq (putLoop x N 3 (d3hFillAt [.C, .N, .C] f)) (putLoop x N 3 (d3hX2 a))).exec chk (w, s) = .ok () (w', s') ∧
      Reach mem chk w' (aw.set x (some (⟨N, [.center, .half, .center]⟩, .ready [e0, e1, e2] val'))) ∧
      ∀ n < N, ∀ y0 y1 y2, HasPt (mkShape [e0, e1, e2] [.center, .half, .center]) [y0, y1, y2] → val' n [y0, y1, y2] = some
        (if y1 = e1.i + e1.p then a else f n [y0, y1, y2]) := by
  obtain ⟨w', s', v', k0, k1, k2, k3⟩ := two_loops R hx (l := d3hFillAt [.C, .N, .C] f) (l' := d3hX2 a) (by simp [d3hFillAt, FlagsFit, flagFits])
    (by simp [d3hX2, FlagsFit, flagFits]) s
  refine ⟨w', s', v', k0, k1, fun n hn y0 y1 y2 ⟨p0, p1, p2, _⟩ => ?_⟩
  simp only [Dim.Has, Loc.toNat] at p0 p1 p2
  by_cases q : y1 = e1.i + e1.p
  · rw [k3 n hn _ _ _ _ (split_at _ 0 (by show 0 < 1; omega)) (by settle_x)]; simp [q]; rfl
  · untouched k2 hn q

/-- C104 (Test_D3_PointData_H, `x4`): whatever the sizes, after the two loops every element has a number: that of the first loop unless it is on the
far face of dimension 0. -/
theorem C104_x4 (R : Reach mem chk w aw) {x N : Nat} {e0 e1 e2 : Ext} {val : Nat → List Int → Option V}
    (hx : aw.arr x = some (⟨N, [.half, .center, .center]⟩, .ready [e0, e1, e2] val)) (h0 : 0 < e0.n + e0.i + e0.p)
    (f : Nat → List Int → V) (a : V) (s : PutVars) :
    ∃ w' s' val', (Stmt.seq (putLoop x N 3 (d3hFillAt [.N, .C, .C] f)) (putLoop x N 3 (d3hX4 a))).exec chk (w, s) = .ok () (w', s') ∧
      Reach mem chk w' (aw.set x (some (⟨N, [.half, .center, .center]⟩, .ready [e0, e1, e2] val'))) ∧
      ∀ n < N, ∀ y0 y1 y2, HasPt (mkShape [e0, e1, e2] [.half, .center, .center]) [y0, y1, y2] → val' n [y0, y1, y2] = some
        (if y0 = e0.i + e0.p then a else f n [y0, y1, y2]) := by
  obtain ⟨w', s', v', k0, k1, k2, k3⟩ := two_loops R hx (l := d3hFillAt [.N, .C, .C] f) (l' := d3hX4 a) (by simp [d3hFillAt, FlagsFit, flagFits])
    (by simp [d3hX4, FlagsFit, flagFits]) s
  refine ⟨w', s', v', k0, k1, fun n hn y0 y1 y2 ⟨p0, p1, p2, _⟩ => ?_⟩
  simp only [Dim.Has, Loc.toNat] at p0 p1 p2
  by_cases q : y0 = e0.i + e0.p
  · rw [k3 n hn _ _ _ _ (split_at _ 0 (by show 0 < 1; omega)) (by settle_x)]; simp [q]; rfl
  · untouched k2 hn q

/-- C104 (Test_D3_PointData_H, `x3`): whatever the sizes, after the two loops every element has a number: 3 on the far edge of dimensions 1 and 2,
else 2 on the far face of dimension 2, else 1 on that of dimension 1, else that of the first loop. -/
theorem C104_x3 (R : Reach mem chk w aw) {x N : Nat} {e0 e1 e2 : Ext} {val : Nat → List Int → Option V}
    (hx : aw.arr x = some (⟨N, [.center, .half, .half]⟩, .ready [e0, e1, e2] val)) (h1 : 0 < e1.n + e1.i + e1.p) (h2 : 0 < e2.n + e2.i + e2.p)
    (f : Nat → List Int → V) (a b c : V) (s : PutVars) :
    ∃ w' s' val', (Stmt.seq (putLoop x N 3 (d3hFillAt [.C, .N, .N] f)) (putLoop x N 3 (d3hX3 a b c))).exec chk (w, s) = .ok () (w', s') ∧
      Reach mem chk w' (aw.set x (some (⟨N, [.center, .half, .half]⟩, .ready [e0, e1, e2] val'))) ∧
      ∀ n < N, ∀ y0 y1 y2, HasPt (mkShape [e0, e1, e2] [.center, .half, .half]) [y0, y1, y2] → val' n [y0, y1, y2] = some
        (if y1 = e1.i + e1.p ∧ y2 = e2.i + e2.p then c else if y2 = e2.i + e2.p then b else if y1 = e1.i + e1.p then a else f n [y0, y1, y2]) := by
  obtain ⟨w', s', v', k0, k1, k2, k3⟩ := two_loops R hx (l := d3hFillAt [.C, .N, .N] f) (l' := d3hX3 a b c) (by simp [d3hFillAt, FlagsFit, flagFits])
    (by simp [d3hX3, FlagsFit, flagFits]) s
  refine ⟨w', s', v', k0, k1, fun n hn y0 y1 y2 ⟨p0, p1, p2, _⟩ => ?_⟩
  simp only [Dim.Has, Loc.toNat] at p0 p1 p2
  by_cases q : y1 = e1.i + e1.p <;> by_cases q' : y2 = e2.i + e2.p
  · rw [k3 n hn _ _ _ _ (split_at _ 4 (by show 4 < 5; omega)) (by settle_x)]; simp [q, q']; rfl
  · rw [k3 n hn _ _ _ _ (split_at _ 0 (by show 0 < 5; omega)) (by settle_x)]; simp [q, q']; rfl
  · rw [k3 n hn _ _ _ _ (split_at _ 2 (by show 2 < 5; omega)) (by settle_x)]; simp [q, q']; rfl
  · untouched2 k2 hn q q'

/-- C104 (Test_D3_PointData_H, `x5`): whatever the sizes, after the two loops every element has a number: 3 on the far edge of dimensions 0 and 2,
else 2 on the far face of dimension 2, else 1 on that of dimension 0, else that of the first loop. -/
theorem C104_x5 (R : Reach mem chk w aw) {x N : Nat} {e0 e1 e2 : Ext} {val : Nat → List Int → Option V}
    (hx : aw.arr x = some (⟨N, [.half, .center, .half]⟩, .ready [e0, e1, e2] val)) (h0 : 0 < e0.n + e0.i + e0.p) (h2 : 0 < e2.n + e2.i + e2.p)
    (f : Nat → List Int → V) (a b c : V) (s : PutVars) :
    ∃ w' s' val', (Stmt.seq (putLoop x N 3 (d3hFillAt [.N, .C, .N] f)) (putLoop x N 3 (d3hX5 a b c))).exec chk (w, s) = .ok () (w', s') ∧
      Reach mem chk w' (aw.set x (some (⟨N, [.half, .center, .half]⟩, .ready [e0, e1, e2] val'))) ∧
      ∀ n < N, ∀ y0 y1 y2, HasPt (mkShape [e0, e1, e2] [.half, .center, .half]) [y0, y1, y2] → val' n [y0, y1, y2] = some
        (if y0 = e0.i + e0.p ∧ y2 = e2.i + e2.p then c else if y2 = e2.i + e2.p then b else if y0 = e0.i + e0.p then a else f n [y0, y1, y2]) := by
  obtain ⟨w', s', v', k0, k1, k2, k3⟩ := two_loops R hx (l := d3hFillAt [.N, .C, .N] f) (l' := d3hX5 a b c) (by simp [d3hFillAt, FlagsFit, flagFits])
    (by simp [d3hX5, FlagsFit, flagFits]) s
  refine ⟨w', s', v', k0, k1, fun n hn y0 y1 y2 ⟨p0, p1, p2, _⟩ => ?_⟩
  simp only [Dim.Has, Loc.toNat] at p0 p1 p2
  by_cases q : y0 = e0.i + e0.p <;> by_cases q' : y2 = e2.i + e2.p
  · rw [k3 n hn _ _ _ _ (split_at _ 4 (by show 4 < 5; omega)) (by settle_x)]; simp [q, q']; rfl
  · rw [k3 n hn _ _ _ _ (split_at _ 0 (by show 0 < 5; omega)) (by settle_x)]; simp [q, q']; rfl
  · rw [k3 n hn _ _ _ _ (split_at _ 2 (by show 2 < 5; omega)) (by settle_x)]; simp [q, q']; rfl
  · untouched2 k2 hn q q'

/-- C104 (Test_D3_PointData_H, `x6`): whatever the sizes, after the two loops every element has a number: 3 on the far edge of dimensions 1 and 0,
else 2 on the far face of dimension 0, else 1 on that of dimension 1, else that of the first loop. -/
theorem C104_x6 (R : Reach mem chk w aw) {x N : Nat} {e0 e1 e2 : Ext} {val : Nat → List Int → Option V}
    (hx : aw.arr x = some (⟨N, [.half, .half, .center]⟩, .ready [e0, e1, e2] val)) (h0 : 0 < e0.n + e0.i + e0.p) (h1 : 0 < e1.n + e1.i + e1.p)
    (f : Nat → List Int → V) (a b c : V) (s : PutVars) :
    ∃ w' s' val', (Stmt.seq (putLoop x N 3 (d3hFillAt [.N, .N, .C] f)) (putLoop x N 3 (d3hX6 a b c))).exec chk (w, s) = .ok () (w', s') ∧
      Reach mem chk w' (aw.set x (some (⟨N, [.half, .half, .center]⟩, .ready [e0, e1, e2] val'))) ∧
      ∀ n < N, ∀ y0 y1 y2, HasPt (mkShape [e0, e1, e2] [.half, .half, .center]) [y0, y1, y2] → val' n [y0, y1, y2] = some
        (if y1 = e1.i + e1.p ∧ y0 = e0.i + e0.p then c else if y0 = e0.i + e0.p then b else if y1 = e1.i + e1.p then a else f n [y0, y1, y2]) := by
  obtain ⟨w', s', v', k0, k1, k2, k3⟩ := two_loops R hx (l := d3hFillAt [.N, .N, .C] f) (l' := d3hX6 a b c) (by simp [d3hFillAt, FlagsFit, flagFits])
    (by simp [d3hX6, FlagsFit, flagFits]) s
  refine ⟨w', s', v', k0, k1, fun n hn y0 y1 y2 ⟨p0, p1, p2, _⟩ => ?_⟩
  simp only [Dim.Has, Loc.toNat] at p0 p1 p2
  by_cases q : y1 = e1.i + e1.p <;> by_cases q' : y0 = e0.i + e0.p
  · rw [k3 n hn _ _ _ _ (split_at _ 4 (by show 4 < 5; omega)) (by settle_x)]; simp [q, q']; rfl
  · rw [k3 n hn _ _ _ _ (split_at _ 0 (by show 0 < 5; omega)) (by settle_x)]; simp [q, q']; rfl
  · rw [k3 n hn _ _ _ _ (split_at _ 2 (by show 2 < 5; omega)) (by settle_x)]; simp [q, q']; rfl
  · untouched2 k2 hn q q'
/-! ## Examples -/

/-- a reachable state with an array at the half points of the last two dimensions whose numbers are not known -/
example : ∃ (w : World Int) (aw : AWorld Int) (val : Nat → List Int → Option Int), Reach (fun _ _ => true) true w aw ∧
    aw.arr 3 = some (⟨2, [.center, .half, .half]⟩, .ready [⟨1, 2, 1⟩, ⟨1, 5, 2⟩, ⟨1, 4, 2⟩] val) := by
  obtain ⟨evs, aw, val, h, h0⟩ : ∃ evs aw val, arun (fun _ _ => true) true
      [.make 3 ⟨2, [.center, .half, .half]⟩ (fun _ => .null), .alloc 3 [⟨1, 2, 1⟩, ⟨1, 5, 2⟩, ⟨1, 4, 2⟩]] (AWorld.init : AWorld Int) = some (evs, aw) ∧
      aw.arr 3 = some (⟨2, [.center, .half, .half]⟩, .ready [⟨1, 2, 1⟩, ⟨1, 5, 2⟩, ⟨1, 4, 2⟩] val) := ⟨_, _, _, rfl, rfl⟩
  obtain ⟨w, R⟩ := reach_of_arun h
  exact ⟨w, aw, val, R, h0⟩

/-- the smallest such array, filled by the two loops for `x3` and printed -/
def x3Program : Stmt Int PutVars :=
  .seq (.call (fun _ => .makeSized 0 ⟨1, [.center, .half, .half]⟩ (fun _ => .null) [⟨0, 1, 0⟩, ⟨0, 1, 0⟩, ⟨0, 1, 0⟩]) fun _ s => s) <|
  .seq (putLoop 0 1 3 (d3hFillAt [.C, .N, .N] fun _ _ => 9)) <| .seq (putLoop 0 1 3 (d3hX3 1 2 3)) <|
  .disp 0 (fun v => match v with | some v => toString v | none => "?") fun t s => { s with out := t }

example : (x3Program.exec true (World.init fun _ _ => true, {})).seen = .ok ()
    { xs := [0, 0, 0], R := [(0, 1), (0, 1), (0, 1)], args := [0, 0, 0], out := ["N = ", "0", "\n", "i = ", "0", "\n", "9", ", ", "2", ", ", "\n",
      "1", ", ", "3", ", ", "\n", "\n"] } := C94_whole _ _ (by decide +kernel)

end Verif.Props
