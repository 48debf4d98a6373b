import Verif.Proof.Fast
import Verif.Proof.KernelRfl
import Verif.Spec.PointTests3
import Verif.Props.Program
/-!
# C116: Test_D3_PointData_C
-/
namespace Verif.Props
open Spec PointTest3 Fast

theorem c116_eval (txt : Option Num → String) (junk : Nat → Ptr) :
    ((d3c' txt junk).fexec ample true FWorld.init {}).seen.bind pieces = some (d3cPieces txt, d3cCaught) := by kernel_rfl

theorem c116_show [Force PointTest3.Vars] {p : Prog} {P : List (List String)} {c : List Err} (h : (p.fexec ample true FWorld.init {}).seen.bind pieces = some (P, c)) :
    shows (p.exec true (World.init ample, {})).seen = some (P.map String.join, c) := by
  cases hs : (p.fexec ample true FWorld.init {}).seen with
  | none => rw [hs] at h; cases h
  | some x =>
    rw [hs] at h
    rw [C94_whole (mem := ample) (chk := true) p {} (r := x) (fexec_seen hs)]
    cases x with
    | ok a s => cases h; rfl
    | err e s => cases h
    | ub u => cases h

/-- C116: in a checked build with enough memory the program without the lines of the constant array ends normally with this output and these exceptions,
whatever the text of a number is and whatever is found in the memory of new objects: the values of `x1` before and after the images at the faces (among them
a negative zero), the answers of the accesses, the values of `x2`, the copied planes and lines with the results of the reductions, and the copy of a part of `x2`
onto itself. -/
theorem C116 (txt : Option Num → String) (junk : Nat → Ptr) :
    shows ((d3c' txt junk).exec true (World.init ample, {})).seen = some ((d3cPieces txt).map String.join, d3cCaught) :=
  c116_show (c116_eval txt junk)

theorem c116_eval_const (txt : Option Num → String) (junk : Nat → Ptr) :
    ((d3c txt junk).fexec ample true FWorld.init {}).seen = some (.ub .uninit) := by kernel_rfl

/-- C116 (constant array): the whole program prints an element of the constant array that nothing ever assigned, which is undefined. -/
theorem C116_const (txt : Option Num → String) (junk : Nat → Ptr) :
    ((d3c txt junk).exec true (World.init ample, {})).seen = .ub .uninit :=
  C94_whole (mem := ample) (chk := true) (d3c txt junk) {} (r := .ub .uninit) (fexec_seen (c116_eval_const txt junk))

/-- C116 (unchecked): without `_CHECK_POINTDATA_RANGE` the first access to the empty array goes through a null pointer. -/
theorem C116_unchecked (txt : Option Num → String) :
    ((d3c' txt fun _ => .null).exec false (World.init ample, {})).seen = .ub .null := by kernel_rfl

/-- the negative zero is printed: next to the corner of `x1` where the interior has a zero -/
example : a1 2 0 0 = .negZero ∧ a1 (-1) 0 0 = .int (-100) ∧ a1 2 5 7 = .int 333 ∧ b3 1 0 1 0 = .int 1161 := by decide +kernel

end Verif.Props
