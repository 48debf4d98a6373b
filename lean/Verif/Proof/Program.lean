import Verif.Spec.Program
import Verif.Proof.Reduction
import Verif.Proof.Disp
import Verif.Proof.Lifecycle
/-!
# Programs follow the abstract machine
-/
namespace Verif
open Spec
variable {V S : Type} {mem : Nat → Nat → Bool} {chk : Bool}

/-! ## Points -/

theorem gridPts_cons (r : Int × Int) (R : List (Int × Int)) :
    gridPts (r :: R) = (ints r.1 r.2.toNat).flatMap fun x => (gridPts R).map fun xs => x :: xs := by
  rw [gridPts, ints_range, List.flatMap_map]

theorem loopPts_some (b e : Nat) (ax : List Nat) (R : List (Int × Int)) :
    loopPts ⟨some (b, e), ax, R⟩ = (nats b (e - b)).flatMap fun n => (gridPts (Dom.zones ⟨some (b, e), ax, R⟩)).map fun xs => (n, xs) := by
  rw [loopPts, nats_range, List.flatMap_map]

theorem flatMap_one {α β : Type} (f : α → β) (l : List α) : (l.flatMap fun a => [f a]) = l.map f := by
  induction l with
  | nil => rfl
  | cons a l ih => simp [ih]

theorem box1 (r0 : Int × Int) : gridPts [r0] = (ints r0.1 r0.2.toNat).map fun x => [x] := by
  rw [gridPts_cons]; simp only [gridPts, List.map_cons, List.map_nil]; exact flatMap_one _ _

theorem box2 (r0 r1 : Int × Int) : gridPts [r0, r1] = (ints r0.1 r0.2.toNat).flatMap fun x => (ints r1.1 r1.2.toNat).map fun y => [x, y] := by
  rw [gridPts_cons]; simp only [box1, List.map_map]; rfl

theorem box3 (r0 r1 r2 : Int × Int) : gridPts [r0, r1, r2] = (ints r0.1 r0.2.toNat).flatMap fun x => (ints r1.1 r1.2.toNat).flatMap fun y =>
    (ints r2.1 r2.2.toNat).map fun z => [x, y, z] := by
  rw [gridPts_cons]; simp only [box2, List.map_flatMap, List.map_map]; rfl

/-! ## The loop templates -/

theorem forLoop_eq {σ : Type} {D : Dom} (ok : LoopOk D) (fn : Nat → List Int → M σ Unit) :
    forLoop chk D fn = runAll (fun a => fn a.1 a.2) (loopPts D) := by
  obtain ⟨N, ax, R⟩ := D
  obtain ⟨h1, h2, h3, ha, h4⟩ := ok
  dsimp only at h1 h2 h3 ha
  match N, ax, R, h1 with
  | none, _, [], _ => exact (h2 rfl rfl).elim
  | some (b, e), [], [], _ =>
    have q := h3 _ rfl
    simp only [forLoop, PD_For_N, forU_eq _ _ q.1 q.2, loopPts_some, Dom.zones, gridPts, List.map_cons, List.map_nil, flatMap_one, runAll_map]
  | some _, _ :: _, [], _ => simp at ha
  | none, [], [r0], _ =>
    have q0 := h4 r0 (by simp [Dom.zones])
    simp only [forLoop, D1.PD_For_1D, D1.RangeT.begin_0, D1.RangeT.end_0, i32_ok q0.2, M.monadLift_eq, M.liftM_eq, M.lift_ok, pure_bind, forI_eq _ _ q0.1,
      loopPts, Dom.zones, box1, runAll_map]
  | none, [], [r0, r1], _ =>
    have q0 := h4 r0 (by simp [Dom.zones])
    have q1 := h4 r1 (by simp [Dom.zones])
    simp only [forLoop, D2.PD_For_2D, D2.RangeT.begin_0, D2.RangeT.end_0, D2.RangeT.begin_1, D2.RangeT.end_1, i32_ok q0.2, i32_ok q1.2, M.monadLift_eq,
      M.liftM_eq, M.lift_ok, pure_bind, forI_eq _ _ q0.1, forI_eq _ _ q1.1, loopPts, Dom.zones, box2, runAll_map, runAll_flatMap]
  | none, [d0], [r0, r1], _ =>
    have a0 : d0 < 2 := (ha.resolve_left (by simp)).2 d0 (by simp)
    have z0 : D2.RangeT.axis ⟨r0.1, r0.2, r1.1, r1.2⟩ d0 = [r0, r1].getD d0 (0, 0) := by
      match d0, a0 with
      | 0, _ => rfl
      | 1, _ => rfl
    have q0 := h4 ([r0, r1].getD d0 (0, 0)) (by simp [Dom.zones])
    simp only [forLoop, D2.PD_For_1D, D2.RangeT.begin_axis chk _ a0, D2.RangeT.end_axis chk _ a0, z0, i32_ok q0.2, M.monadLift_eq, M.liftM_eq, M.lift_ok,
      pure_bind, forI_eq _ _ q0.1, loopPts, Dom.zones, List.map_cons, List.map_nil, box1, runAll_map]
  | none, [], [r0, r1, r2], _ =>
    have q0 := h4 r0 (by simp [Dom.zones])
    have q1 := h4 r1 (by simp [Dom.zones])
    have q2 := h4 r2 (by simp [Dom.zones])
    simp only [forLoop, D3.PD_For_3D, D3.RangeT.begin_0, D3.RangeT.end_0, D3.RangeT.begin_1, D3.RangeT.end_1, D3.RangeT.begin_2, D3.RangeT.end_2,
      i32_ok q0.2, i32_ok q1.2, i32_ok q2.2, M.monadLift_eq, M.liftM_eq, M.lift_ok, pure_bind, forI_eq _ _ q0.1, forI_eq _ _ q1.1, forI_eq _ _ q2.1, loopPts,
      Dom.zones, box3, runAll_map, runAll_flatMap]
  | none, [d0], [r0, r1, r2], _ =>
    have a0 : d0 < 3 := (ha.resolve_left (by simp)).2 d0 (by simp)
    have z0 : D3.RangeT.axis ⟨r0.1, r0.2, r1.1, r1.2, r2.1, r2.2⟩ d0 = [r0, r1, r2].getD d0 (0, 0) := by
      match d0, a0 with
      | 0, _ => rfl
      | 1, _ => rfl
      | 2, _ => rfl
    have q0 := h4 ([r0, r1, r2].getD d0 (0, 0)) (by simp [Dom.zones])
    simp only [forLoop, D3.PD_For_1D, D3.RangeT.begin_axis chk _ a0, D3.RangeT.end_axis chk _ a0, z0, i32_ok q0.2, M.monadLift_eq, M.liftM_eq, M.lift_ok,
      pure_bind, forI_eq _ _ q0.1, loopPts, Dom.zones, List.map_cons, List.map_nil, box1, runAll_map]
  | none, [d0, d1], [r0, r1, r2], _ =>
    have a0 : d0 < 3 := (ha.resolve_left (by simp)).2 d0 (by simp)
    have z0 : D3.RangeT.axis ⟨r0.1, r0.2, r1.1, r1.2, r2.1, r2.2⟩ d0 = [r0, r1, r2].getD d0 (0, 0) := by
      match d0, a0 with
      | 0, _ => rfl
      | 1, _ => rfl
      | 2, _ => rfl
    have q0 := h4 ([r0, r1, r2].getD d0 (0, 0)) (by simp [Dom.zones])
    have a1 : d1 < 3 := (ha.resolve_left (by simp)).2 d1 (by simp)
    have z1 : D3.RangeT.axis ⟨r0.1, r0.2, r1.1, r1.2, r2.1, r2.2⟩ d1 = [r0, r1, r2].getD d1 (0, 0) := by
      match d1, a1 with
      | 0, _ => rfl
      | 1, _ => rfl
      | 2, _ => rfl
    have q1 := h4 ([r0, r1, r2].getD d1 (0, 0)) (by simp [Dom.zones])
    simp only [forLoop, D3.PD_For_2D, D3.RangeT.begin_axis chk _ a0, D3.RangeT.end_axis chk _ a0, z0, D3.RangeT.begin_axis chk _ a1,
      D3.RangeT.end_axis chk _ a1, z1, i32_ok q0.2, i32_ok q1.2, M.monadLift_eq, M.liftM_eq, M.lift_ok, pure_bind, forI_eq _ _ q0.1, forI_eq _ _ q1.1,
      loopPts, Dom.zones, List.map_cons, List.map_nil, box2, runAll_map, runAll_flatMap]
  | some (b, e), [], [r0], _ =>
    have q := h3 _ rfl
    have q0 := h4 r0 (by simp [Dom.zones])
    simp only [forLoop, D1.PD_For_N_1D, D1.RangeT.begin_0, D1.RangeT.end_0, i32_ok q0.2, M.monadLift_eq, M.liftM_eq, M.lift_ok, pure_bind, forI_eq _ _ q0.1,
      forU_eq _ _ q.1 q.2, loopPts_some, Dom.zones, box1, runAll_map, runAll_flatMap]
  | some (b, e), [], [r0, r1], _ =>
    have q := h3 _ rfl
    have q0 := h4 r0 (by simp [Dom.zones])
    have q1 := h4 r1 (by simp [Dom.zones])
    simp only [forLoop, D2.PD_For_N_2D, D2.RangeT.begin_0, D2.RangeT.end_0, D2.RangeT.begin_1, D2.RangeT.end_1, i32_ok q0.2, i32_ok q1.2, M.monadLift_eq,
      M.liftM_eq, M.lift_ok, pure_bind, forI_eq _ _ q0.1, forI_eq _ _ q1.1, forU_eq _ _ q.1 q.2, loopPts_some, Dom.zones, box2, runAll_map, runAll_flatMap]
  | some (b, e), [d0], [r0, r1], _ =>
    have q := h3 _ rfl
    have a0 : d0 < 2 := (ha.resolve_left (by simp)).2 d0 (by simp)
    have z0 : D2.RangeT.axis ⟨r0.1, r0.2, r1.1, r1.2⟩ d0 = [r0, r1].getD d0 (0, 0) := by
      match d0, a0 with
      | 0, _ => rfl
      | 1, _ => rfl
    have q0 := h4 ([r0, r1].getD d0 (0, 0)) (by simp [Dom.zones])
    simp only [forLoop, D2.PD_For_N_1D, D2.RangeT.begin_axis chk _ a0, D2.RangeT.end_axis chk _ a0, z0, i32_ok q0.2, M.monadLift_eq, M.liftM_eq, M.lift_ok,
      pure_bind, forI_eq _ _ q0.1, forU_eq _ _ q.1 q.2, loopPts_some, Dom.zones, List.map_cons, List.map_nil, box1, runAll_map, runAll_flatMap]
  | some (b, e), [], [r0, r1, r2], _ =>
    have q := h3 _ rfl
    have q0 := h4 r0 (by simp [Dom.zones])
    have q1 := h4 r1 (by simp [Dom.zones])
    have q2 := h4 r2 (by simp [Dom.zones])
    simp only [forLoop, D3.PD_For_N_3D, D3.RangeT.begin_0, D3.RangeT.end_0, D3.RangeT.begin_1, D3.RangeT.end_1, D3.RangeT.begin_2, D3.RangeT.end_2,
      i32_ok q0.2, i32_ok q1.2, i32_ok q2.2, M.monadLift_eq, M.liftM_eq, M.lift_ok, pure_bind, forI_eq _ _ q0.1, forI_eq _ _ q1.1, forI_eq _ _ q2.1,
      forU_eq _ _ q.1 q.2, loopPts_some, Dom.zones, box3, runAll_map, runAll_flatMap]
  | some (b, e), [d0], [r0, r1, r2], _ =>
    have q := h3 _ rfl
    have a0 : d0 < 3 := (ha.resolve_left (by simp)).2 d0 (by simp)
    have z0 : D3.RangeT.axis ⟨r0.1, r0.2, r1.1, r1.2, r2.1, r2.2⟩ d0 = [r0, r1, r2].getD d0 (0, 0) := by
      match d0, a0 with
      | 0, _ => rfl
      | 1, _ => rfl
      | 2, _ => rfl
    have q0 := h4 ([r0, r1, r2].getD d0 (0, 0)) (by simp [Dom.zones])
    simp only [forLoop, D3.PD_For_N_1D, D3.RangeT.begin_axis chk _ a0, D3.RangeT.end_axis chk _ a0, z0, i32_ok q0.2, M.monadLift_eq, M.liftM_eq, M.lift_ok,
      pure_bind, forI_eq _ _ q0.1, forU_eq _ _ q.1 q.2, loopPts_some, Dom.zones, List.map_cons, List.map_nil, box1, runAll_map, runAll_flatMap]
  | some (b, e), [d0, d1], [r0, r1, r2], _ =>
    have q := h3 _ rfl
    have a0 : d0 < 3 := (ha.resolve_left (by simp)).2 d0 (by simp)
    have z0 : D3.RangeT.axis ⟨r0.1, r0.2, r1.1, r1.2, r2.1, r2.2⟩ d0 = [r0, r1, r2].getD d0 (0, 0) := by
      match d0, a0 with
      | 0, _ => rfl
      | 1, _ => rfl
      | 2, _ => rfl
    have q0 := h4 ([r0, r1, r2].getD d0 (0, 0)) (by simp [Dom.zones])
    have a1 : d1 < 3 := (ha.resolve_left (by simp)).2 d1 (by simp)
    have z1 : D3.RangeT.axis ⟨r0.1, r0.2, r1.1, r1.2, r2.1, r2.2⟩ d1 = [r0, r1, r2].getD d1 (0, 0) := by
      match d1, a1 with
      | 0, _ => rfl
      | 1, _ => rfl
      | 2, _ => rfl
    have q1 := h4 ([r0, r1, r2].getD d1 (0, 0)) (by simp [Dom.zones])
    simp only [forLoop, D3.PD_For_N_2D, D3.RangeT.begin_axis chk _ a0, D3.RangeT.end_axis chk _ a0, z0, D3.RangeT.begin_axis chk _ a1,
      D3.RangeT.end_axis chk _ a1, z1, i32_ok q0.2, i32_ok q1.2, M.monadLift_eq, M.liftM_eq, M.lift_ok, pure_bind, forI_eq _ _ q0.1, forI_eq _ _ q1.1,
      forU_eq _ _ q.1 q.2, loopPts_some, Dom.zones, List.map_cons, List.map_nil, box2, runAll_map, runAll_flatMap]
  | _, _ :: _, [_], _ => simp at ha
  | _, _ :: _ :: _, [_, _], _ => simp at ha; omega
  | _, _ :: _ :: _ :: _, [_, _, _], _ => simp at ha; omega
  | _, _, _ :: _ :: _ :: _ :: _, h => simp at h

theorem reduceLoop_eq {σ T : Type} {D : Dom} (ok : LoopOk D) (ans : Ref σ T) (reduce : T → T → M σ T) (fn : Nat → List Int → M σ T) :
    reduceLoop chk D ans reduce fn = reduceSpec (loopPts D) ans reduce (fun a => fn a.1 a.2) := by
  unfold reduceSpec
  obtain ⟨N, ax, R⟩ := D
  obtain ⟨h1, h2, h3, ha, h4⟩ := ok
  dsimp only at h1 h2 h3 ha
  match N, ax, R, h1 with
  | none, _, [], _ => exact (h2 rfl rfl).elim
  | some (b, e), [], [], _ =>
    have q := h3 _ rfl
    simp only [reduceLoop, PD_Reduce_N, forUAcc_eq _ _ q.1 q.2, loopPts_some, Dom.zones, gridPts, List.map_cons, List.map_nil, flatMap_one, foldAll_map]
  | some _, _ :: _, [], _ => simp at ha
  | none, [], [r0], _ =>
    have q0 := h4 r0 (by simp [Dom.zones])
    simp only [reduceLoop, D1.PD_Reduce_1D, D1.RangeT.begin_0, D1.RangeT.end_0, i32_ok q0.2, M.monadLift_eq, M.liftM_eq, M.lift_ok, pure_bind,
      forIAcc_eq _ _ q0.1, loopPts, Dom.zones, box1, foldAll_map]
  | none, [], [r0, r1], _ =>
    have q0 := h4 r0 (by simp [Dom.zones])
    have q1 := h4 r1 (by simp [Dom.zones])
    simp only [reduceLoop, D2.PD_Reduce_2D, D2.RangeT.begin_0, D2.RangeT.end_0, D2.RangeT.begin_1, D2.RangeT.end_1, i32_ok q0.2, i32_ok q1.2, M.monadLift_eq,
      M.liftM_eq, M.lift_ok, pure_bind, forIAcc_eq _ _ q0.1, forIAcc_eq _ _ q1.1, loopPts, Dom.zones, box2, foldAll_map, foldAll_flatMap]
  | none, [d0], [r0, r1], _ =>
    have a0 : d0 < 2 := (ha.resolve_left (by simp)).2 d0 (by simp)
    have z0 : D2.RangeT.axis ⟨r0.1, r0.2, r1.1, r1.2⟩ d0 = [r0, r1].getD d0 (0, 0) := by
      match d0, a0 with
      | 0, _ => rfl
      | 1, _ => rfl
    have q0 := h4 ([r0, r1].getD d0 (0, 0)) (by simp [Dom.zones])
    simp only [reduceLoop, D2.PD_Reduce_1D, D2.RangeT.begin_axis chk _ a0, D2.RangeT.end_axis chk _ a0, z0, i32_ok q0.2, M.monadLift_eq, M.liftM_eq,
      M.lift_ok, pure_bind, forIAcc_eq _ _ q0.1, loopPts, Dom.zones, List.map_cons, List.map_nil, box1, foldAll_map]
  | none, [], [r0, r1, r2], _ =>
    have q0 := h4 r0 (by simp [Dom.zones])
    have q1 := h4 r1 (by simp [Dom.zones])
    have q2 := h4 r2 (by simp [Dom.zones])
    simp only [reduceLoop, D3.PD_Reduce_3D, D3.RangeT.begin_0, D3.RangeT.end_0, D3.RangeT.begin_1, D3.RangeT.end_1, D3.RangeT.begin_2, D3.RangeT.end_2,
      i32_ok q0.2, i32_ok q1.2, i32_ok q2.2, M.monadLift_eq, M.liftM_eq, M.lift_ok, pure_bind, forIAcc_eq _ _ q0.1, forIAcc_eq _ _ q1.1, forIAcc_eq _ _ q2.1,
      loopPts, Dom.zones, box3, foldAll_map, foldAll_flatMap]
  | none, [d0], [r0, r1, r2], _ =>
    have a0 : d0 < 3 := (ha.resolve_left (by simp)).2 d0 (by simp)
    have z0 : D3.RangeT.axis ⟨r0.1, r0.2, r1.1, r1.2, r2.1, r2.2⟩ d0 = [r0, r1, r2].getD d0 (0, 0) := by
      match d0, a0 with
      | 0, _ => rfl
      | 1, _ => rfl
      | 2, _ => rfl
    have q0 := h4 ([r0, r1, r2].getD d0 (0, 0)) (by simp [Dom.zones])
    simp only [reduceLoop, D3.PD_Reduce_1D, D3.RangeT.begin_axis chk _ a0, D3.RangeT.end_axis chk _ a0, z0, i32_ok q0.2, M.monadLift_eq, M.liftM_eq,
      M.lift_ok, pure_bind, forIAcc_eq _ _ q0.1, loopPts, Dom.zones, List.map_cons, List.map_nil, box1, foldAll_map]
  | none, [d0, d1], [r0, r1, r2], _ =>
    have a0 : d0 < 3 := (ha.resolve_left (by simp)).2 d0 (by simp)
    have z0 : D3.RangeT.axis ⟨r0.1, r0.2, r1.1, r1.2, r2.1, r2.2⟩ d0 = [r0, r1, r2].getD d0 (0, 0) := by
      match d0, a0 with
      | 0, _ => rfl
      | 1, _ => rfl
      | 2, _ => rfl
    have q0 := h4 ([r0, r1, r2].getD d0 (0, 0)) (by simp [Dom.zones])
    have a1 : d1 < 3 := (ha.resolve_left (by simp)).2 d1 (by simp)
    have z1 : D3.RangeT.axis ⟨r0.1, r0.2, r1.1, r1.2, r2.1, r2.2⟩ d1 = [r0, r1, r2].getD d1 (0, 0) := by
      match d1, a1 with
      | 0, _ => rfl
      | 1, _ => rfl
      | 2, _ => rfl
    have q1 := h4 ([r0, r1, r2].getD d1 (0, 0)) (by simp [Dom.zones])
    simp only [reduceLoop, D3.PD_Reduce_2D, D3.RangeT.begin_axis chk _ a0, D3.RangeT.end_axis chk _ a0, z0, D3.RangeT.begin_axis chk _ a1,
      D3.RangeT.end_axis chk _ a1, z1, i32_ok q0.2, i32_ok q1.2, M.monadLift_eq, M.liftM_eq, M.lift_ok, pure_bind, forIAcc_eq _ _ q0.1, forIAcc_eq _ _ q1.1,
      loopPts, Dom.zones, List.map_cons, List.map_nil, box2, foldAll_map, foldAll_flatMap]
  | some (b, e), [], [r0], _ =>
    have q := h3 _ rfl
    have q0 := h4 r0 (by simp [Dom.zones])
    simp only [reduceLoop, D1.PD_Reduce_N_1D, D1.RangeT.begin_0, D1.RangeT.end_0, i32_ok q0.2, M.monadLift_eq, M.liftM_eq, M.lift_ok, pure_bind,
      forIAcc_eq _ _ q0.1, forUAcc_eq _ _ q.1 q.2, loopPts_some, Dom.zones, box1, foldAll_map, foldAll_flatMap]
  | some (b, e), [], [r0, r1], _ =>
    have q := h3 _ rfl
    have q0 := h4 r0 (by simp [Dom.zones])
    have q1 := h4 r1 (by simp [Dom.zones])
    simp only [reduceLoop, D2.PD_Reduce_N_2D, D2.RangeT.begin_0, D2.RangeT.end_0, D2.RangeT.begin_1, D2.RangeT.end_1, i32_ok q0.2, i32_ok q1.2,
      M.monadLift_eq, M.liftM_eq, M.lift_ok, pure_bind, forIAcc_eq _ _ q0.1, forIAcc_eq _ _ q1.1, forUAcc_eq _ _ q.1 q.2, loopPts_some, Dom.zones, box2,
      foldAll_map, foldAll_flatMap]
  | some (b, e), [d0], [r0, r1], _ =>
    have q := h3 _ rfl
    have a0 : d0 < 2 := (ha.resolve_left (by simp)).2 d0 (by simp)
    have z0 : D2.RangeT.axis ⟨r0.1, r0.2, r1.1, r1.2⟩ d0 = [r0, r1].getD d0 (0, 0) := by
      match d0, a0 with
      | 0, _ => rfl
      | 1, _ => rfl
    have q0 := h4 ([r0, r1].getD d0 (0, 0)) (by simp [Dom.zones])
    simp only [reduceLoop, D2.PD_Reduce_N_1D, D2.RangeT.begin_axis chk _ a0, D2.RangeT.end_axis chk _ a0, z0, i32_ok q0.2, M.monadLift_eq, M.liftM_eq,
      M.lift_ok, pure_bind, forIAcc_eq _ _ q0.1, forUAcc_eq _ _ q.1 q.2, loopPts_some, Dom.zones, List.map_cons, List.map_nil, box1, foldAll_map,
      foldAll_flatMap]
  | some (b, e), [], [r0, r1, r2], _ =>
    have q := h3 _ rfl
    have q0 := h4 r0 (by simp [Dom.zones])
    have q1 := h4 r1 (by simp [Dom.zones])
    have q2 := h4 r2 (by simp [Dom.zones])
    simp only [reduceLoop, D3.PD_Reduce_N_3D, D3.RangeT.begin_0, D3.RangeT.end_0, D3.RangeT.begin_1, D3.RangeT.end_1, D3.RangeT.begin_2, D3.RangeT.end_2,
      i32_ok q0.2, i32_ok q1.2, i32_ok q2.2, M.monadLift_eq, M.liftM_eq, M.lift_ok, pure_bind, forIAcc_eq _ _ q0.1, forIAcc_eq _ _ q1.1, forIAcc_eq _ _ q2.1,
      forUAcc_eq _ _ q.1 q.2, loopPts_some, Dom.zones, box3, foldAll_map, foldAll_flatMap]
  | some (b, e), [d0], [r0, r1, r2], _ =>
    have q := h3 _ rfl
    have a0 : d0 < 3 := (ha.resolve_left (by simp)).2 d0 (by simp)
    have z0 : D3.RangeT.axis ⟨r0.1, r0.2, r1.1, r1.2, r2.1, r2.2⟩ d0 = [r0, r1, r2].getD d0 (0, 0) := by
      match d0, a0 with
      | 0, _ => rfl
      | 1, _ => rfl
      | 2, _ => rfl
    have q0 := h4 ([r0, r1, r2].getD d0 (0, 0)) (by simp [Dom.zones])
    simp only [reduceLoop, D3.PD_Reduce_N_1D, D3.RangeT.begin_axis chk _ a0, D3.RangeT.end_axis chk _ a0, z0, i32_ok q0.2, M.monadLift_eq, M.liftM_eq,
      M.lift_ok, pure_bind, forIAcc_eq _ _ q0.1, forUAcc_eq _ _ q.1 q.2, loopPts_some, Dom.zones, List.map_cons, List.map_nil, box1, foldAll_map,
      foldAll_flatMap]
  | some (b, e), [d0, d1], [r0, r1, r2], _ =>
    have q := h3 _ rfl
    have a0 : d0 < 3 := (ha.resolve_left (by simp)).2 d0 (by simp)
    have z0 : D3.RangeT.axis ⟨r0.1, r0.2, r1.1, r1.2, r2.1, r2.2⟩ d0 = [r0, r1, r2].getD d0 (0, 0) := by
      match d0, a0 with
      | 0, _ => rfl
      | 1, _ => rfl
      | 2, _ => rfl
    have q0 := h4 ([r0, r1, r2].getD d0 (0, 0)) (by simp [Dom.zones])
    have a1 : d1 < 3 := (ha.resolve_left (by simp)).2 d1 (by simp)
    have z1 : D3.RangeT.axis ⟨r0.1, r0.2, r1.1, r1.2, r2.1, r2.2⟩ d1 = [r0, r1, r2].getD d1 (0, 0) := by
      match d1, a1 with
      | 0, _ => rfl
      | 1, _ => rfl
      | 2, _ => rfl
    have q1 := h4 ([r0, r1, r2].getD d1 (0, 0)) (by simp [Dom.zones])
    simp only [reduceLoop, D3.PD_Reduce_N_2D, D3.RangeT.begin_axis chk _ a0, D3.RangeT.end_axis chk _ a0, z0, D3.RangeT.begin_axis chk _ a1,
      D3.RangeT.end_axis chk _ a1, z1, i32_ok q0.2, i32_ok q1.2, M.monadLift_eq, M.liftM_eq, M.lift_ok, pure_bind, forIAcc_eq _ _ q0.1, forIAcc_eq _ _ q1.1,
      forUAcc_eq _ _ q.1 q.2, loopPts_some, Dom.zones, List.map_cons, List.map_nil, box2, foldAll_map, foldAll_flatMap]
  | _, _ :: _, [_], _ => simp at ha
  | _, _ :: _ :: _, [_, _], _ => simp at ha; omega
  | _, _ :: _ :: _ :: _, [_, _, _], _ => simp at ha; omega
  | _, _, _ :: _ :: _ :: _ :: _, h => simp at h

/-! ## Questions -/

/-- the members of `SizeT` agree with the extents -/
theorem Reps.sized {k : Kind} {o : Obj} {h : Heap V} {a : AArr V} (r : Reps k o h a) : Sized o (extents k a) := by
  have z : Ext.Fits ⟨0, 0, 0⟩ := by unfold Ext.Fits; decide
  cases r with
  | empty e =>
    cases e with
    | d1 e => exact .d1 (by rw [e.size]; rfl) z
    | d2 e => exact .d2 (by rw [e.size]; rfl) z z
    | d3 e => exact .d3 (by rw [e.size]; rfl) z z z
  | ready r f => exact r.sized f
  | broken r f =>
    cases r with
    | @d2 N L0 L1 e0 e1 o h B r =>
      exact .d2 r.size (fitsExt f (d := ⟨e0, L0⟩) (by simp [mkShape])) (fitsExt f (d := ⟨e1, L1⟩) (by simp [mkShape]))
    | @d3 N L0 L1 L2 e0 e1 e2 o h B r =>
      exact .d3 r.size (fitsExt f (d := ⟨e0, L0⟩) (by simp [mkShape])) (fitsExt f (d := ⟨e1, L1⟩) (by simp [mkShape]))
        (fitsExt f (d := ⟨e2, L2⟩) (by simp [mkShape]))
    | @d3' N L0 L1 L2 e0 e1 e2 o h B P r =>
      exact .d3 r.size (fitsExt f (d := ⟨e0, L0⟩) (by simp [mkShape])) (fitsExt f (d := ⟨e1, L1⟩) (by simp [mkShape]))
        (fitsExt f (d := ⟨e2, L2⟩) (by simp [mkShape]))

theorem extents_len {k : Kind} {o : Obj} {h : Heap V} {a : AArr V} (r : Reps k o h a) : (extents k a).length = k.locs.length := by
  cases r with
  | empty e => simp [extents]
  | ready r f => exact r.len
  | broken r f => exact r.len

theorem Sized.range {o : Obj} {es : List Ext} (h : Sized o es) {ts : List RA} (hl : ts.length = es.length) :
    o.range chk ts = .ok (tagZones es ts) := by
  cases h with
  | d1 h f0 =>
    match ts, hl with
    | [t0], _ => simp only [Obj.range, h, D1.sz_range chk _ f0, Out.ok_bind, tagZones]
  | d2 h f0 f1 =>
    match ts, hl with
    | [t0, t1], _ => simp only [Obj.range, h, D2.sz_range chk _ _ f0 f1, Out.ok_bind, tagZones]
  | d3 h f0 f1 f2 =>
    match ts, hl with
    | [t0, t1, t2], _ => simp only [Obj.range, h, D3.sz_range chk _ _ _ f0 f1 f2, Out.ok_bind, tagZones]

theorem toNat_tag (e : Ext) (t : RA) : (((tagEnd e.i e.p t - tagBegin e.n e.i t).toNat : Nat) : Int) = tagEnd e.i e.p t - tagBegin e.n e.i t := by
  have := tag_le e.n e.i e.p t; omega

theorem answer_mirror {e : Ext} {d : Nat} {fl : Side} {i j : Int} (h : answer e (.mirror d fl i) = some j) :
    (i32 (2 * sideBound e fl) >>= fun t => i32 (t - i)) = .ok j := by
  simp only [answer] at h
  split at h
  · rename_i q; cases h; rw [i32_ok q.1]; exact i32_ok q.2
  · cases h

theorem answer_periodic {e : Ext} {d : Nat} {fl : Side} {i j : Int} (h : answer e (.periodic d fl i) = some j) :
    i32 (-fl.fl.sign * ((e.i : Int) - 1) + i) = .ok j := by
  cases fl <;> simp only [answer] at h <;> split at h <;> first | cases h; done | skip
  · rename_i q; cases h
    rw [show -Side.N.fl.sign * ((e.i : Int) - 1) + i = i + (e.i - 1) by simp [Side.fl, FL.sign]; omega]; exact i32_ok q
  · rename_i q; cases h
    rw [show -Side.P.fl.sign * ((e.i : Int) - 1) + i = i - (e.i - 1) by simp [Side.fl, FL.sign]; omega]; exact i32_ok q

theorem Sized.query {o : Obj} {es : List Ext} (h : Sized o es) {q : Query} {e : Ext} (he : es[q.dim]? = some e) {i : Int} (ha : answer e q = some i) :
    o.query chk q = .ok i := by
  cases h with
  | @d1 o e0 h f0 =>
    have hd : q.dim = 0 ∧ e = e0 := by
      match q.dim, he with
      | 0, he => simpa using he.symm
      | d + 1, he => simp at he
    obtain ⟨hd, rfl⟩ := hd
    have F := D1.sz_fields_0 e f0
    cases q <;> simp only [Query.dim] at hd <;> subst hd
    case n => simp only [answer, Option.some.injEq] at ha; simp [Obj.query, h, D1.SizeT.n, check_d, D1.D, F.1, ha]
    case inn => simp only [answer, Option.some.injEq] at ha; simp [Obj.query, h, D1.SizeT.in', check_d, D1.D, F.2.1, ha]
    case p => simp only [answer, Option.some.injEq] at ha; simp [Obj.query, h, D1.SizeT.p, check_d, D1.D, F.2.2, ha]
    case first t => simp only [answer, Option.some.injEq] at ha; simp only [Obj.query, h, (D1.sz_acc_0 chk e f0 t).1, ha]
    case stop t => simp only [answer, Option.some.injEq] at ha; simp only [Obj.query, h, (D1.sz_acc_0 chk e f0 t).2.1, ha]
    case count t =>
      simp only [answer, Option.some.injEq] at ha; subst ha; simp only [Obj.query, h, (D1.sz_acc_0 chk e f0 t).2.2.1, Out.ok_bind, toNat_tag]
    case last t => simp only [answer, Option.some.injEq] at ha; simp only [Obj.query, h, (D1.sz_acc_0 chk e f0 t).2.2.2, ha]
    case mirror fl j => simp only [Obj.query, h, D1.sz_mirror_0 chk e f0]; exact answer_mirror ha
    case periodic fl j => simp only [Obj.query, h, D1.sz_periodic_0 chk e f0]; exact answer_periodic ha
  | @d2 o e0 e1 h f0 f1 =>
    have hd : (q.dim = 0 ∧ e = e0) ∨ (q.dim = 1 ∧ e = e1) := by
      match q.dim, he with
      | 0, he => left; simpa using he.symm
      | 1, he => right; simpa using he.symm
      | d + 2, he => simp at he
    rcases hd with ⟨hd, rfl⟩ | ⟨hd, rfl⟩
    · skip
      have F := D2.sz_fields_0 e e1 f0
      cases q <;> simp only [Query.dim] at hd <;> subst hd
      case n => simp only [answer, Option.some.injEq] at ha; simp [Obj.query, h, D2.SizeT.n, check_d, D2.D, D2.sel, F.1, ha]
      case inn => simp only [answer, Option.some.injEq] at ha; simp [Obj.query, h, D2.SizeT.in', check_d, D2.D, D2.sel, F.2.1, ha]
      case p => simp only [answer, Option.some.injEq] at ha; simp [Obj.query, h, D2.SizeT.p, check_d, D2.D, D2.sel, F.2.2, ha]
      case first t => simp only [answer, Option.some.injEq] at ha; simp only [Obj.query, h, (D2.sz_acc_0 chk e e1 f0 t).1, ha]
      case stop t => simp only [answer, Option.some.injEq] at ha; simp only [Obj.query, h, (D2.sz_acc_0 chk e e1 f0 t).2.1, ha]
      case count t =>
        simp only [answer, Option.some.injEq] at ha; subst ha; simp only [Obj.query, h, (D2.sz_acc_0 chk e e1 f0 t).2.2.1, Out.ok_bind, toNat_tag]
      case last t => simp only [answer, Option.some.injEq] at ha; simp only [Obj.query, h, (D2.sz_acc_0 chk e e1 f0 t).2.2.2, ha]
      case mirror fl j => simp only [Obj.query, h, D2.sz_mirror_0 chk e e1 f0]; exact answer_mirror ha
      case periodic fl j => simp only [Obj.query, h, D2.sz_periodic_0 chk e e1 f0]; exact answer_periodic ha
    · skip
      have F := D2.sz_fields_1 e0 e f1
      cases q <;> simp only [Query.dim] at hd <;> subst hd
      case n => simp only [answer, Option.some.injEq] at ha; simp [Obj.query, h, D2.SizeT.n, check_d, D2.D, D2.sel, F.1, ha]
      case inn => simp only [answer, Option.some.injEq] at ha; simp [Obj.query, h, D2.SizeT.in', check_d, D2.D, D2.sel, F.2.1, ha]
      case p => simp only [answer, Option.some.injEq] at ha; simp [Obj.query, h, D2.SizeT.p, check_d, D2.D, D2.sel, F.2.2, ha]
      case first t => simp only [answer, Option.some.injEq] at ha; simp only [Obj.query, h, (D2.sz_acc_1 chk e0 e f1 t).1, ha]
      case stop t => simp only [answer, Option.some.injEq] at ha; simp only [Obj.query, h, (D2.sz_acc_1 chk e0 e f1 t).2.1, ha]
      case count t =>
        simp only [answer, Option.some.injEq] at ha; subst ha; simp only [Obj.query, h, (D2.sz_acc_1 chk e0 e f1 t).2.2.1, Out.ok_bind, toNat_tag]
      case last t => simp only [answer, Option.some.injEq] at ha; simp only [Obj.query, h, (D2.sz_acc_1 chk e0 e f1 t).2.2.2, ha]
      case mirror fl j => simp only [Obj.query, h, D2.sz_mirror_1 chk e0 e f1]; exact answer_mirror ha
      case periodic fl j => simp only [Obj.query, h, D2.sz_periodic_1 chk e0 e f1]; exact answer_periodic ha
  | @d3 o e0 e1 e2 h f0 f1 f2 =>
    have hd : (q.dim = 0 ∧ e = e0) ∨ (q.dim = 1 ∧ e = e1) ∨ (q.dim = 2 ∧ e = e2) := by
      match q.dim, he with
      | 0, he => left; simpa using he.symm
      | 1, he => right; left; simpa using he.symm
      | 2, he => right; right; simpa using he.symm
      | d + 3, he => simp at he
    rcases hd with ⟨hd, rfl⟩ | ⟨hd, rfl⟩ | ⟨hd, rfl⟩
    · skip
      have F := D3.sz_fields_0 e e1 e2 f0
      cases q <;> simp only [Query.dim] at hd <;> subst hd
      case n => simp only [answer, Option.some.injEq] at ha; simp [Obj.query, h, D3.SizeT.n, check_d, D3.D, D3.sel, F.1, ha]
      case inn => simp only [answer, Option.some.injEq] at ha; simp [Obj.query, h, D3.SizeT.in', check_d, D3.D, D3.sel, F.2.1, ha]
      case p => simp only [answer, Option.some.injEq] at ha; simp [Obj.query, h, D3.SizeT.p, check_d, D3.D, D3.sel, F.2.2, ha]
      case first t => simp only [answer, Option.some.injEq] at ha; simp only [Obj.query, h, (D3.sz_acc_0 chk e e1 e2 f0 t).1, ha]
      case stop t => simp only [answer, Option.some.injEq] at ha; simp only [Obj.query, h, (D3.sz_acc_0 chk e e1 e2 f0 t).2.1, ha]
      case count t =>
        simp only [answer, Option.some.injEq] at ha; subst ha; simp only [Obj.query, h, (D3.sz_acc_0 chk e e1 e2 f0 t).2.2.1, Out.ok_bind, toNat_tag]
      case last t => simp only [answer, Option.some.injEq] at ha; simp only [Obj.query, h, (D3.sz_acc_0 chk e e1 e2 f0 t).2.2.2, ha]
      case mirror fl j => simp only [Obj.query, h, D3.sz_mirror_0 chk e e1 e2 f0]; exact answer_mirror ha
      case periodic fl j => simp only [Obj.query, h, D3.sz_periodic_0 chk e e1 e2 f0]; exact answer_periodic ha
    · skip
      have F := D3.sz_fields_1 e0 e e2 f1
      cases q <;> simp only [Query.dim] at hd <;> subst hd
      case n => simp only [answer, Option.some.injEq] at ha; simp [Obj.query, h, D3.SizeT.n, check_d, D3.D, D3.sel, F.1, ha]
      case inn => simp only [answer, Option.some.injEq] at ha; simp [Obj.query, h, D3.SizeT.in', check_d, D3.D, D3.sel, F.2.1, ha]
      case p => simp only [answer, Option.some.injEq] at ha; simp [Obj.query, h, D3.SizeT.p, check_d, D3.D, D3.sel, F.2.2, ha]
      case first t => simp only [answer, Option.some.injEq] at ha; simp only [Obj.query, h, (D3.sz_acc_1 chk e0 e e2 f1 t).1, ha]
      case stop t => simp only [answer, Option.some.injEq] at ha; simp only [Obj.query, h, (D3.sz_acc_1 chk e0 e e2 f1 t).2.1, ha]
      case count t =>
        simp only [answer, Option.some.injEq] at ha; subst ha; simp only [Obj.query, h, (D3.sz_acc_1 chk e0 e e2 f1 t).2.2.1, Out.ok_bind, toNat_tag]
      case last t => simp only [answer, Option.some.injEq] at ha; simp only [Obj.query, h, (D3.sz_acc_1 chk e0 e e2 f1 t).2.2.2, ha]
      case mirror fl j => simp only [Obj.query, h, D3.sz_mirror_1 chk e0 e e2 f1]; exact answer_mirror ha
      case periodic fl j => simp only [Obj.query, h, D3.sz_periodic_1 chk e0 e e2 f1]; exact answer_periodic ha
    · skip
      have F := D3.sz_fields_2 e0 e1 e f2
      cases q <;> simp only [Query.dim] at hd <;> subst hd
      case n => simp only [answer, Option.some.injEq] at ha; simp [Obj.query, h, D3.SizeT.n, check_d, D3.D, D3.sel, F.1, ha]
      case inn => simp only [answer, Option.some.injEq] at ha; simp [Obj.query, h, D3.SizeT.in', check_d, D3.D, D3.sel, F.2.1, ha]
      case p => simp only [answer, Option.some.injEq] at ha; simp [Obj.query, h, D3.SizeT.p, check_d, D3.D, D3.sel, F.2.2, ha]
      case first t => simp only [answer, Option.some.injEq] at ha; simp only [Obj.query, h, (D3.sz_acc_2 chk e0 e1 e f2 t).1, ha]
      case stop t => simp only [answer, Option.some.injEq] at ha; simp only [Obj.query, h, (D3.sz_acc_2 chk e0 e1 e f2 t).2.1, ha]
      case count t =>
        simp only [answer, Option.some.injEq] at ha; subst ha; simp only [Obj.query, h, (D3.sz_acc_2 chk e0 e1 e f2 t).2.2.1, Out.ok_bind, toNat_tag]
      case last t => simp only [answer, Option.some.injEq] at ha; simp only [Obj.query, h, (D3.sz_acc_2 chk e0 e1 e f2 t).2.2.2, ha]
      case mirror fl j => simp only [Obj.query, h, D3.sz_mirror_2 chk e0 e1 e f2]; exact answer_mirror ha
      case periodic fl j => simp only [Obj.query, h, D3.sz_periodic_2 chk e0 e1 e f2]; exact answer_periodic ha

theorem Sized.query_bad {o : Obj} {es : List Ext} (h : Sized o es) {q : Query} (he : es[q.dim]? = none) :
    o.query true q = .err (.dim q.dim es.length) := by
  rw [List.getElem?_eq_none_iff] at he
  cases h with
  | d1 h =>
    have k : check_d true D1.D q.dim = .err (.dim q.dim 1) := by unfold check_d; rw [if_pos ⟨rfl, he⟩]; rfl
    cases q <;> simp only [Query.dim] at k
    case n => simp [Obj.query, D1.SizeT.n, k, Query.dim]
    case inn => simp [Obj.query, D1.SizeT.in', k, Query.dim]
    case p => simp [Obj.query, D1.SizeT.p, k, Query.dim]
    case first d t => cases t <;> simp [Obj.query, D1.SizeT.begin_, k, Query.dim]
    case stop d t => cases t <;> simp [Obj.query, D1.SizeT.end_, k, Query.dim]
    case count d t => cases t <;> simp [Obj.query, D1.SizeT.size, D1.SizeT.end_, k, Query.dim]
    case last d t => cases t <;> simp [Obj.query, D1.SizeT.last, D1.SizeT.end_, k, Query.dim]
    case mirror d fl j => cases fl <;> simp [Obj.query, D1.SizeT.mirror, D1.SizeT.bound, D1.SizeT.begin_, D1.SizeT.last, D1.SizeT.end_, k, Query.dim]
    case periodic d fl j => simp [Obj.query, D1.SizeT.periodic, D1.SizeT.last, D1.SizeT.end_, k, Query.dim]
  | d2 h =>
    have k : check_d true D2.D q.dim = .err (.dim q.dim 2) := by unfold check_d; rw [if_pos ⟨rfl, he⟩]; rfl
    cases q <;> simp only [Query.dim] at k
    case n => simp [Obj.query, D2.SizeT.n, k, Query.dim]
    case inn => simp [Obj.query, D2.SizeT.in', k, Query.dim]
    case p => simp [Obj.query, D2.SizeT.p, k, Query.dim]
    case first d t => cases t <;> simp [Obj.query, D2.SizeT.begin_, k, Query.dim]
    case stop d t => cases t <;> simp [Obj.query, D2.SizeT.end_, k, Query.dim]
    case count d t => cases t <;> simp [Obj.query, D2.SizeT.size, D2.SizeT.end_, k, Query.dim]
    case last d t => cases t <;> simp [Obj.query, D2.SizeT.last, D2.SizeT.end_, k, Query.dim]
    case mirror d fl j => cases fl <;> simp [Obj.query, D2.SizeT.mirror, D2.SizeT.bound, D2.SizeT.begin_, D2.SizeT.last, D2.SizeT.end_, k, Query.dim]
    case periodic d fl j => simp [Obj.query, D2.SizeT.periodic, D2.SizeT.last, D2.SizeT.end_, k, Query.dim]
  | d3 h =>
    have k : check_d true D3.D q.dim = .err (.dim q.dim 3) := by unfold check_d; rw [if_pos ⟨rfl, he⟩]; rfl
    cases q <;> simp only [Query.dim] at k
    case n => simp [Obj.query, D3.SizeT.n, k, Query.dim]
    case inn => simp [Obj.query, D3.SizeT.in', k, Query.dim]
    case p => simp [Obj.query, D3.SizeT.p, k, Query.dim]
    case first d t => cases t <;> simp [Obj.query, D3.SizeT.begin_, k, Query.dim]
    case stop d t => cases t <;> simp [Obj.query, D3.SizeT.end_, k, Query.dim]
    case count d t => cases t <;> simp [Obj.query, D3.SizeT.size, D3.SizeT.end_, k, Query.dim]
    case last d t => cases t <;> simp [Obj.query, D3.SizeT.last, D3.SizeT.end_, k, Query.dim]
    case mirror d fl j => cases fl <;> simp [Obj.query, D3.SizeT.mirror, D3.SizeT.bound, D3.SizeT.begin_, D3.SizeT.last, D3.SizeT.end_, k, Query.dim]
    case periodic d fl j => simp [Obj.query, D3.SizeT.periodic, D3.SizeT.last, D3.SizeT.end_, k, Query.dim]

/-- an empty array with a dimension at centers has no points -/
theorem empty_points {locs : List Loc} (hc : Loc.center ∈ locs) {ys : List Int} : ¬ HasPt (mkShape (locs.map fun _ => (⟨0, 0, 0⟩ : Ext)) locs) ys := by
  induction locs generalizing ys with
  | nil => cases hc
  | cons l locs ih =>
    cases ys with
    | nil => exact fun h => h
    | cons y ys =>
      rintro ⟨h1, h2⟩
      rcases List.mem_cons.1 hc with rfl | hc
      · unfold Dim.Has at h1; simp [Loc.toNat] at h1; omega
      · exact ih hc h2

/-! ## Statements -/

/-- `m` follows `am` from every reachable state -/
def Sim (mem : Nat → Nat → Bool) (chk : Bool) {α : Type} (m : M (World V × S) α) (am : AM V S α) : Prop :=
  ∀ ⦃w : World V⦄ ⦃aw : AWorld V⦄, Reach mem chk w aw → ∀ s, Follows mem chk (m (w, s)) (am aw s)

theorem Follows.bind {α β : Type} {m : M (World V × S) α} {am : AM V S α} {f : α → M (World V × S) β} {af : α → AM V S β} {w : World V} {aw : AWorld V}
    {s : S} (h : Follows mem chk (m (w, s)) (am aw s)) (hf : ∀ a, Sim mem chk (f a) (af a)) :
    Follows mem chk ((m >>= f) (w, s)) (am.andThen af aw s) := by
  unfold AM.andThen
  cases ha : am aw s with
  | done a aw' s' =>
    rw [ha] at h; obtain ⟨w', h1, R'⟩ := h
    rw [M.bind_ok h1]; exact hf a R' s'
  | throws e aw' s' =>
    rw [ha] at h; obtain ⟨w', h1, R'⟩ := h
    exact ⟨w', M.bind_err h1, R'⟩
  | uninit => rw [ha] at h; exact M.bind_ub h
  | outside => trivial

theorem Sim.bind {α β : Type} {m : M (World V × S) α} {am : AM V S α} {f : α → M (World V × S) β} {af : α → AM V S β}
    (h : Sim mem chk m am) (hf : ∀ a, Sim mem chk (f a) (af a)) : Sim mem chk (m >>= f) (am.andThen af) :=
  fun _ _ R s => Follows.bind (h R s) hf

theorem Sim.ret {α : Type} (a : α) : Sim (V := V) (S := S) mem chk (pure a) (AM.ret a) := fun _ _ R _ => ⟨_, rfl, R⟩

theorem Sim.fold {α T : Type} {f : T → α → M (World V × S) T} {af : T → α → AM V S T} (hf : ∀ t a, Sim mem chk (f t a) (af t a)) (l : List α) (t : T) :
    Sim mem chk (foldAll f t l) (AM.through af t l) := by
  induction l generalizing t with
  | nil => exact Sim.ret t
  | cons a l ih => rw [foldAll_cons, AM.through]; exact (hf t a).bind fun t' => ih t'

theorem runAll_fold {σ α : Type} (fn : α → M σ Unit) (l : List α) : runAll fn l = foldAll (fun _ a => fn a) () l := by
  induction l with
  | nil => rfl
  | cons a l ih => rw [runAll_cons, foldAll_cons, ih]

theorem passes_fold {σ : Type} (m : M σ Unit) (n b : Nat) : Verif.passes m n = foldAll (fun _ _ => m) () (List.range' b n) := by
  induction n generalizing b with
  | zero => rfl
  | succ n ih => rw [Verif.passes, List.range'_succ, foldAll_cons, ih (b + 1)]

/-- a computation of the program before a statement -/
theorem Sim.local {α : Type} {m : M (World V × S) α} {am : AM V S α} (f : S → S) (h : Sim mem chk m am) :
    Sim mem chk (do local_ f; m) (fun w s => am w (f s)) := fun w aw R s => by
  rw [M.bind_ok (show local_ f (w, s) = .ok () (w, f s) from rfl)]; exact h R (f s)

theorem onArrays_run {α : Type} (m : M (World V) α) (w : World V) (s : S) :
    onArrays m (w, s) = match m w with
      | .ok a w' => .ok a (w', s)
      | .err e w' => .err e (w', s)
      | .ub u => .ub u := rfl

theorem Stmt.sim (p : Stmt V S) : Sim mem chk (p.exec chk) (p.aexec mem chk) := by
  induction p with
  | skip => exact Sim.ret ()
  | set f => exact fun _ _ R s => ⟨_, rfl, R⟩
  | throw e => exact fun _ _ R s => ⟨_, rfl, R⟩
  | call op k =>
    intro w aw R s
    simp only [Stmt.exec, Stmt.aexec]
    cases ha : astep mem chk aw (op s) with
    | none => trivial
    | some q =>
      obtain ⟨ev, aw'⟩ := q
      obtain ⟨w', h1, R'⟩ := R.step ha
      match ev, h1 with
      | .exn e, h1 =>
        refine ⟨w', M.bind_err ?_, R'⟩
        rw [onArrays_run, show Verif.exec chk (op s) w = _ from h1]
      | .ret r, h1 =>
        have e : onArrays (Verif.exec chk (op s)) (w, s) = .ok r (w', s) := by rw [onArrays_run, show Verif.exec chk (op s) w = _ from h1]
        rw [M.bind_ok e]
        match r with
        | .val none => rfl
        | .val (some v) => exact ⟨w', rfl, R'⟩
        | .unit => exact ⟨w', rfl, R'⟩
        | .sizes l => exact ⟨w', rfl, R'⟩
  | ask x q k =>
    intro w aw R s
    simp only [Stmt.exec, Stmt.aexec]
    cases hx : aw.arr x with
    | none => trivial
    | some b =>
      obtain ⟨kd, a⟩ := b
      obtain ⟨L, R'⟩ := R.rel
      obtain ⟨o, hb, hk, h0, r⟩ := R'.arr_some hx
      dsimp only
      cases he : (extents kd a)[(q s).dim]? with
      | none =>
        dsimp only
        cases chk with
        | false => trivial
        | true =>
          refine ⟨w, M.bind_err ?_, R⟩
          have := r.sized.query_bad he
          rw [extents_len r] at this
          rw [onArrays_run]; simp only [World.ask, World.access, hb, M.monadLift_eq, this]; rfl
      | some e =>
        dsimp only
        cases hq : answer e (q s) with
        | none => trivial
        | some i =>
          refine ⟨w, ?_, R⟩
          have e1 : onArrays (World.ask chk x (q s)) (w, s) = .ok i (w, s) := by
            rw [onArrays_run]; simp only [World.ask, World.access, hb, r.sized.query (chk := chk) he hq, M.monadLift_eq]; rfl
          rw [M.bind_ok e1]; rfl
  | range x ts k =>
    intro w aw R s
    simp only [Stmt.exec, Stmt.aexec]
    cases hx : aw.arr x with
    | none => trivial
    | some b =>
      obtain ⟨kd, a⟩ := b
      obtain ⟨L, R'⟩ := R.rel
      obtain ⟨o, hb, hk, h0, r⟩ := R'.arr_some hx
      dsimp only
      split
      · rename_i hl
        refine ⟨w, ?_, R⟩
        have e1 : onArrays (World.range chk x ts) (w, s) = .ok (tagZones (extents kd a) ts) (w, s) := by
          rw [onArrays_run]
          simp only [World.range, World.access, hb, r.sized.range (chk := chk) (hl.trans (extents_len r).symm), M.monadLift_eq]; rfl
        rw [M.bind_ok e1]; rfl
      · trivial
  | disp x fmt k =>
    intro w aw R s
    simp only [Stmt.exec, Stmt.aexec]
    match hx : aw.arr x with
    | none => trivial
    | some (kd, .empty) =>
      dsimp only
      split
      · rename_i hc
        obtain ⟨L, R'⟩ := R.rel
        obtain ⟨o, hb, hk, h0, r⟩ := R'.arr_some hx
        refine ⟨w, ?_, R⟩
        have e0 := r.sized.disp_data (h := w.h) (chk := chk) (extents_len r) hk.2 (val := fun _ _ => none) (by simp [extents])
          (fun n hn ys hp => (empty_points hc hp).elim) fmt []
        have e1 : onArrays (World.disp chk x fmt) (w, s) =
            .ok ((page kd.N (mkShape (extents kd (.empty : AArr V)) kd.locs)).map (Item.text (fun _ _ => none) fmt)) (w, s) := by
          rw [onArrays_run]
          simp only [World.disp, World.access, hb, e0, List.nil_append]
        rw [M.bind_ok e1]; rfl
      · trivial
    | some (kd, .broken _ _) => trivial
    | some (kd, .ready es val) =>
      obtain ⟨L, R'⟩ := R.rel
      obtain ⟨o, hb, hk, h0, r⟩ := R'.arr_some hx
      refine ⟨w, ?_, R⟩
      cases r with
      | ready r fits pos vals =>
        have e0 := Obj.disp_data_eq chk r fits hk.2 (fun n hn ys hp => vals n hn ys hp) fmt []
        have e1 : onArrays (World.disp chk x fmt) (w, s) = .ok ((page kd.N (mkShape es kd.locs)).map (Item.text val fmt)) (w, s) := by
          rw [onArrays_run]
          simp only [World.disp, World.access, hb, e0, List.nil_append]
        rw [M.bind_ok e1]; rfl
  | seq p q ihp ihq => exact ihp.bind fun _ => ihq
  | ite c p q ihp ihq =>
    intro w aw R s
    simp only [Stmt.exec, Stmt.aexec]
    split
    · exact ihp R s
    · exact ihq R s
  | rep n p ih =>
    intro w aw R s
    simp only [Stmt.exec, Stmt.aexec]
    rw [passes_fold _ _ 0, List.range_eq_range']
    exact Sim.fold (fun _ _ => ih) _ () R s
  | loop D ix p ih =>
    intro w aw Rw s
    simp only [Stmt.exec, Stmt.aexec]
    split
    · rename_i ok
      rw [forLoop_eq ok, runAll_fold]
      exact Sim.fold (fun _ (a : Nat × List Int) => ih.local (ix a.1 a.2)) _ () Rw s
    · trivial
  | reduce D ans red ix p out ih =>
    intro w aw Rw s
    simp only [Stmt.exec, Stmt.aexec]
    split
    · rename_i ok
      rw [reduceLoop_eq ok, reduceSpec]
      rw [M.bind_ok (show Ref.read _ (w, s) = .ok (ans.get s) (w, s) from rfl)]
      refine Follows.bind (Sim.fold (fun t a => ?_) _ _ Rw s) (fun t => ?_)
      · intro w aw Rw s
        have := ((ih.bind (f := fun _ => (do let s ← M.get; pure (red (out s.2) t) : M (World V × S) _))
          (af := fun _ w s => .done (red (out s) t) w s) fun _ => fun _ _ R s => ⟨_, rfl, R⟩).local (ix a.1 a.2)) Rw s
        simpa only [bind_assoc, pure_bind] using this
      · exact fun _ _ R s => ⟨_, rfl, R⟩
    · trivial
  | attempt p k q ihp ihq =>
    intro w aw R s
    simp only [Stmt.exec, Stmt.aexec]
    have h := ihp R s
    cases ha : p.aexec mem chk aw s with
    | done a aw' s' => rw [ha] at h; obtain ⟨w', h1, R'⟩ := h; rw [h1]; exact ⟨w', rfl, R'⟩
    | throws e aw' s' => rw [ha] at h; obtain ⟨w', h1, R'⟩ := h; rw [h1]; exact ihq R' (k e s')
    | uninit => rw [ha] at h; rw [show p.exec chk (w, s) = _ from h]; rfl
    | outside => trivial

end Verif
