import Verif.Model.Flags
/-!
# Namespace `liton_pd::D0` — `PointData_0D.hpp`
-/
namespace Verif.D0

/-- `DIM::D` — PointData_0D.hpp:16 -/
def D : Nat := 0

/-- The data member `_NUMT pt0[_N]` — PointData_0D.hpp:39.  `none` is the
indeterminate value of a fresh element; entries `n ≥ _N` do not exist. -/
structure PD (V : Type) where
  pt0 : Nat → Option V

namespace PD
variable {V : Type}

/-- `check_n` — PointData_0D.hpp:61-71 -/
def check_n (chk : Bool) (N n : Nat) : Out Unit :=
  if chk = true ∧ N ≤ n then .err (.nRange0 n N) else .ok ()

/-- `operator()` (both overloads) — PointData_0D.hpp:49-58.  The result is the
reference to `pt0[n]`, represented by the index `n`; forming it outside the array
is undefined. -/
def at_ (chk : Bool) (N n : Nat) : M (PD V) Nat := do
  check_n chk N n
  if n < N then pure n else M.undef .oob

/-- read through the reference -/
def load (r : Nat) : M (PD V) (Option V) := fun o => .ok (o.pt0 r) o
/-- write through the reference -/
def store (r : Nat) (v : Option V) : M (PD V) Unit := fun o =>
  .ok () { pt0 := fun m => if m = r then v else o.pt0 m }

/-- constructor — PointData_0D.hpp:74-81; the elements stay indeterminate -/
def ctor (N : Nat) : M (PD V) Unit :=
  if N = 0 then M.throw .nZero else pure ()

/-- `disp` — PointData_0D.hpp:83-91 -/
def disp (N : Nat) (ty : String) : String :=
  "dimension:" ++ toString D ++ "  type:[" ++ ty ++ "]" ++ "  N = " ++ toString N

/-- `disp_data` — PointData_0D.hpp:93-102; the state is the output (items, newest
last) -/
def disp_data (N : Nat) (fmt : Option V → String) (o : PD V) : M (List String) Unit :=
  forU 0 N fun n =>
    if n < N then M.modify (fun out => out ++ [fmt (o.pt0 n), ", "]) else M.undef .oob

end PD
end Verif.D0
