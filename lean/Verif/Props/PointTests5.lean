import Verif.Proof.PointTestsHS
import Verif.Proof.PointTestsX3
import Verif.Proof.PointTestsX5
import Verif.Proof.PointTestsX6
import Verif.Proof.PointTestsX7
import Verif.Props.PointTests4
/-!
# C116: Test_D3_PointData_H
-/
namespace Verif.Props
open Spec PointTest3 Fast

/-- the variables behind the sections -/
def c116_out (txt : Option Num → String) : List (List String) :=
  [["x0:"], both4 txt 0 (c0 0), ["x1:"], both4 txt 1 (c0 1), ["x2:"], both4 txt 2 (c0 2), ["x3:"], both4 txt 3 (c0 3),
   ["x4:"], both4 txt 4 (c0 4), ["x5:"], both4 txt 5 (c0 5), ["x6:"], both4 txt 6 (c0 6), ["x7:"], both4 txt 7 (c0 7)]

def c116_world : FWorld Num := ⟨[(0, full 0), (1, full 1), (2, full 2), (3, full 3), (4, full 4), (5, full 5), (6, full 6), (7, full 7)], 27, 0⟩

theorem c116_sections (txt : Option Num → String) (junk : Nat → Ptr) (B : List Prog) :
    (block (d3hLife junk ++ (d3hSec txt 0 ++ (d3hSec txt 1 ++ (d3hSec txt 2 ++ (d3hSec txt 3 ++ (d3hSec txt 4 ++ (d3hSec txt 5 ++ (d3hSec txt 6 ++
      (d3hSec txt 7 ++ B)))))))))).fexec ample true FWorld.init {} =
    (block B).fexec ample true c116_world (after [2, 6, 5] [.sizeIn 2, .notEmpty, .isEmpty, .isEmpty] (c116_out txt)) := by
  rw [d3h_append _ _ _ _ (d3h_life junk)]
  rw [d3h_append _ _ _ _ (d3h_sec0 txt _ _ _)]
  rw [d3h_append _ _ _ _ (d3h_sec1 txt _ _ _ _ _ _)]
  rw [d3h_append _ _ _ _ (d3h_sec2 txt _ _ _ _ _ _ _)]
  rw [d3h_append _ _ _ _ (d3h_sec3 txt _ _ _ _ _ _ _ _)]
  rw [d3h_append _ _ _ _ (d3h_sec4 txt _ _ _ _ _ _ _ _ _)]
  rw [d3h_append _ _ _ _ (d3h_sec5 txt _ _ _ _ _ _ _ _ _ _)]
  rw [d3h_append _ _ _ _ (d3h_sec6 txt _ _ _ _ _ _ _ _ _ _ _)]
  rw [d3h_append _ _ _ _ (d3h_sec7 txt _ _ _ _ _ _ _ _ _ _ _ _)]
  rfl

theorem c116_seen {r r' : FRes Num PointTest3.Vars Unit} {y : Option (List (List String) × List Err)} (h : r = r') (h' : r'.seen.bind pieces = y) : r.seen.bind pieces = y :=
  h ▸ h'

theorem c116_seen' {r r' : FRes Num PointTest3.Vars Unit} {y : Option (Res PointTest3.Vars Unit)} (h : r = r') (h' : r'.seen = y) : r.seen = y := h ▸ h'

theorem c116_half_rest (txt : Option Num → String) :
    ((block (d3hReads txt ++ d3hRest txt)).fexec ample true c116_world (after [2, 6, 5] [.sizeIn 2, .notEmpty, .isEmpty, .isEmpty] (c116_out txt))).seen.bind pieces =
      some (d3hPieces txt, d3hCaught) := by kernel_rfl

/-- C116 (half points): the same of Test_D3_PointData_H.cpp: the eight arrays with the marks at their last half points, whatever the order of the assignments
leaves there, the answers of the accesses, and the copy of a part of `x2` onto itself. -/
theorem C116_half (txt : Option Num → String) (junk : Nat → Ptr) :
    shows ((d3h' txt junk).exec true (World.init ample, {})).seen = some ((d3hPieces txt).map String.join, d3hCaught) := by
  have h : (d3h' txt junk).fexec ample true FWorld.init {} = _ := c116_sections txt junk (d3hReads txt ++ d3hRest txt)
  have h' := c116_seen h (y := some (d3hPieces txt, d3hCaught)) (c116_half_rest txt)
  exact c116_show (p := d3h' txt junk) (P := d3hPieces txt) (c := d3hCaught) h'

theorem c116_half_uninit (txt : Option Num → String) (junk : Nat → Ptr) :
    ((block (d3hReads txt ++ (d3hConst txt junk ++ d3hRest txt))).fexec ample true c116_world
      (after [2, 6, 5] [.sizeIn 2, .notEmpty, .isEmpty, .isEmpty] (c116_out txt))).seen = some (.ub .uninit) := by kernel_rfl

/-- C116 (half points, constant array): the whole program prints an element of the constant array that nothing ever assigned, which is undefined. -/
theorem C116_half_const (txt : Option Num → String) (junk : Nat → Ptr) :
    ((d3h txt junk).exec true (World.init ample, {})).seen = .ub .uninit := by
  have h : (d3h txt junk).fexec ample true FWorld.init {} = _ := c116_sections txt junk (d3hReads txt ++ (d3hConst txt junk ++ d3hRest txt))
  exact C94_whole (mem := ample) (chk := true) (d3h txt junk) {} (r := .ub .uninit) (fexec_seen (c116_seen' h (c116_half_uninit txt junk)))

/-- at the edges of `x7` the assignment that comes last wins -/
example : c0 7 0 3 7 6 = .int 4 ∧ c0 7 0 3 7 5 = .int 2 ∧ c0 7 1 3 0 6 = .int 3 ∧ c1 1 1 2 3 = .int 0 ∧ c1 0 0 1 0 = .int 60 := by decide +kernel

end Verif.Props
