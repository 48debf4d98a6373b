import Verif.Props.PointTests
import Verif.Proof.Fast
import Verif.Proof.KernelRfl
/-!
# C95: Test_D2_PointData_C
-/
namespace Verif.Props
open Spec PointTest Fast

theorem c95_fast {mem : Nat → Nat → Bool} {p : Prog} {P : List (List String)} {c : List Err}
    (h : (p.fexec mem true FWorld.init {}).seen.bind pieces = some (P, c)) : shows (p.exec true (World.init mem, {})).seen = some (P.map String.join, c) := by
  cases hs : (p.fexec mem true FWorld.init {}).seen with
  | none => rw [hs] at h; cases h
  | some x =>
    rw [hs] at h
    rw [C94_whole (mem := mem) (chk := true) p {} (r := x) (fexec_seen hs)]
    cases x with
    | ok a s => cases h; rfl
    | err e s => cases h
    | ub u => cases h

theorem c95_fast_uninit {mem : Nat → Nat → Bool} {p : Prog} (h : (p.fexec mem true FWorld.init {}).seen = some (.ub .uninit)) :
    (p.exec true (World.init mem, {})).seen = .ub .uninit := C94_whole (mem := mem) (chk := true) p {} (r := .ub .uninit) (fexec_seen h)

theorem c95_d2c_const (junk : Nat → Ptr) : ((d2cNoBig junk).fexec ample true FWorld.init {}).seen = some (.ub .uninit) := by kernel_rfl
theorem c95_d2c (junk : Nat → Ptr) : ((d2c' junk).fexec ample true FWorld.init {}).seen.bind pieces = some (d2cPieces, d2cCaught) := by kernel_rfl

/-- C95 (Test_D2_PointData_C): without line 41 the same holds. -/
theorem C95_D2C (junk : Nat → Ptr) :
    ((d2cNoBig junk).exec true (World.init ample, {})).seen = .ub .uninit ∧
    shows ((d2c' junk).exec true (World.init ample, {})).seen = some (d2cOut, d2cCaught) :=
  ⟨c95_fast_uninit (c95_d2c_const junk), c95_fast (c95_d2c junk)⟩

end Verif.Props
