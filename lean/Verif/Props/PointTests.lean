import Verif.Proof.PointTests
import Verif.Props.Program
/-!
# C95: the test programs of the point arrays
-/
namespace Verif.Props
open Spec PointTest

theorem c95_show {mem : Nat → Nat → Bool} {p q : Prog} (h : Alike mem true p q) {P : List (List String)} {c : List Err}
    (hq : (q.aexec mem true AWorld.init {}).seen.bind pieces = some (P, c)) : shows (p.exec true (World.init mem, {})).seen = some (P.map String.join, c) := by
  cases hs : (q.aexec mem true AWorld.init {}).seen with
  | none => rw [hs] at hq; cases hq
  | some x =>
    rw [hs] at hq
    have := C94_whole (mem := mem) (chk := true) p {} (r := x) (by rw [h.seen]; exact hs)
    rw [this]
    cases x with
    | ok a s => cases hq; rfl
    | err e s => cases hq
    | ub u => cases hq

theorem c95_uninit {mem : Nat → Nat → Bool} {p q : Prog} (h : Alike mem true p q) (hq : (q.aexec mem true AWorld.init {}).seen = some (.ub .uninit)) :
    (p.exec true (World.init mem, {})).seen = .ub .uninit :=
  C94_whole p {} (by rw [h.seen]; exact hq)

/-- C95 (Test_D1_PointData_C): in a checked build the program prints an element that was never assigned, which is undefined; without the lines of that
constant array it ends normally with this output and these exceptions, whether the large `alloc` is granted or not. -/
theorem C95_D1C (junk : Nat → Ptr) :
    ((d1c junk).exec true (World.init ample, {})).seen = .ub .uninit ∧ ((d1c junk).exec true (World.init scarce, {})).seen = .ub .uninit ∧
    shows ((d1c' junk).exec true (World.init ample, {})).seen = some (d1cOut, d1cCaught .notEmpty) ∧
    shows ((d1c' junk).exec true (World.init scarce, {})).seen = some (d1cOut, d1cCaught .noMemory) :=
  ⟨c95_uninit (alike_d1c junk) (by decide +kernel), c95_uninit (alike_d1c junk) (by decide +kernel), c95_show (P := d1cPieces) (alike_d1c' junk) (by decide +kernel),
   c95_show (P := d1cPieces) (alike_d1c' junk) (by decide +kernel)⟩

/-- C95 (Test_D1_PointData_H): as before; here the array is not empty when the large `alloc` is tried, so memory makes no difference. -/
theorem C95_D1H (junk : Nat → Ptr) :
    ((d1h junk).exec true (World.init ample, {})).seen = .ub .uninit ∧ ((d1h junk).exec true (World.init scarce, {})).seen = .ub .uninit ∧
    shows ((d1h' junk).exec true (World.init ample, {})).seen = some (d1hOut, d1hCaught) ∧
    shows ((d1h' junk).exec true (World.init scarce, {})).seen = some (d1hOut, d1hCaught) :=
  ⟨c95_uninit (alike_d1h junk) (by decide +kernel), c95_uninit (alike_d1h junk) (by decide +kernel), c95_show (P := d1hPieces) (alike_d1h' junk) (by decide +kernel),
   c95_show (P := d1hPieces) (alike_d1h' junk) (by decide +kernel)⟩

/-- C95 (line 41): `alloc(0, big, 0, 1, big, 0)` asks for 720575935010570 points, which wraps to 681826058.  If so much memory is granted the row pointers
leave it; if it is refused the program goes on to the element that was never assigned. -/
theorem C95_D2C_big :
    ((d2c nulls).exec true (World.init ample, {})).seen = .ub .oob ∧ ((d2c nulls).exec true (World.init scarce, {})).seen = .ub .uninit ∧
    26843545 * (26843545 + 1) % 2 ^ 32 = 681826058 ∧ 26843545 * (26843545 + 1) = 720575935010570 := by decide +kernel

/-- C95 (unchecked): without `_CHECK_POINTDATA_RANGE` the three programs have undefined behaviour: the first access to the empty array is through a null
pointer, the accesses outside the range of Test_D1_PointData_H leave the storage. -/
theorem C95_unchecked :
    ((d1c' nulls).exec false (World.init ample, {})).seen = .ub .null ∧ ((d1h' nulls).exec false (World.init ample, {})).seen = .ub .oob ∧
    ((d2c' nulls).exec false (World.init ample, {})).seen = .ub .null := by decide +kernel

end Verif.Props
