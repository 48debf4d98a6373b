import Verif.Props.PointTests2
import Verif.Spec.PointTests2
/-!
# C105: Test_D2_PointData_H
-/
namespace Verif.Props
open Spec PointTest Fast

theorem c105_const (junk : Nat → Ptr) : ((d2hNoBig junk).fexec ample true FWorld.init {}).seen = some (.ub .uninit) := by kernel_rfl
theorem c105_d2h (junk : Nat → Ptr) : ((d2h' junk).fexec ample true FWorld.init {}).seen.bind pieces = some (d2hPieces, d2hCaught) := by kernel_rfl

/-- C105: without line 39 the program, in a checked build, prints an element of the constant array that was never assigned, which is undefined; without
the lines of that array, too, it ends normally with this output and these exceptions — the output contains the two far corners of `x3`, one of each
component, which were never assigned. -/
theorem C105 (junk : Nat → Ptr) :
    ((d2hNoBig junk).exec true (World.init ample, {})).seen = .ub .uninit ∧
    shows ((d2h' junk).exec true (World.init ample, {})).seen = some (d2hOut, d2hCaught) :=
  ⟨c95_fast_uninit (c105_const junk), c95_fast (c105_d2h junk)⟩

/-- C105 (line 39): `alloc(0, big, 0, 1, big, 0)` asks for 26843545 × 26843547 points, which wraps to 708669603.  If so much memory is granted the row
pointers leave it; if it is refused the program goes on to the element that was never assigned. -/
theorem C105_big :
    ((d2h nulls).exec true (World.init ample, {})).seen = .ub .oob ∧ ((d2h nulls).exec true (World.init scarce, {})).seen = .ub .uninit := by decide +kernel

/-- C105 (unchecked): without `_CHECK_POINTDATA_RANGE` an access outside of the range of `x1` leaves the storage. -/
theorem C105_unchecked : ((d2h' nulls).exec false (World.init ample, {})).seen = .ub .oob := by decide +kernel

end Verif.Props
