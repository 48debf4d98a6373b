import Verif.Base
/-!
# Locations, flags and range tags — `PointData.hpp:6-59`
-/
namespace Verif

/-- `LO::LOCATION` — PointData.hpp:8-12 -/
inductive Loc | center | half
  deriving DecidableEq, Repr

/-- the enum value used as an integer — PointData.hpp:10-11 -/
def Loc.toNat : Loc → Nat
  | .center => 0
  | .half => 1

/-- flag classes `FL::_C`, `FL::_N`, `FL::_P` — PointData.hpp:16-21 -/
inductive FL | C | N | P
  deriving DecidableEq, Repr

/-- `FL::_X::offset` — PointData.hpp:16-18 -/
def FL.offset : FL → Int
  | .C => 0
  | .N => 0
  | .P => 1

/-- `FL::_X::sign` — PointData.hpp:16-18 -/
def FL.sign : FL → Int
  | .C => 0
  | .N => -1
  | .P => 1

/-- range tags `RA::_N`, `RA::_P`, `RA::_IN`, `RA::_ALL` — PointData.hpp:25-32 -/
inductive RA | N | P | IN | ALL
  deriving DecidableEq, Repr

/-- the two flags that have a `bound` overload (`FL::_N`, `FL::_P`) —
PointData_1D.hpp:54-55, 201-203.  A call with `FL::C` does not compile, hence a
type of its own. -/
inductive Side | N | P
  deriving DecidableEq, Repr

def Side.fl : Side → FL
  | .N => .N
  | .P => .P

namespace flra
/-- PointData.hpp:38-40 -/
def f_c : FL → FL
  | .N => .P
  | .P => .N
  | .C => .C
/-- PointData.hpp:42-44; there is no overload for `RA::_ALL` (`none`: the call does
not compile) -/
def r_c : RA → Option RA
  | .N => some .P
  | .P => some .N
  | .IN => some .IN
  | .ALL => none
/-- PointData.hpp:46-48 -/
def f_r : FL → RA
  | .N => .N
  | .P => .P
  | .C => .IN
/-- PointData.hpp:49-51 -/
def f_r_c : FL → RA
  | .N => .P
  | .P => .N
  | .C => .IN
/-- PointData.hpp:53-55; no overload for `RA::_ALL` -/
def r_f : RA → Option FL
  | .N => some .N
  | .P => some .P
  | .IN => some .C
  | .ALL => none
/-- PointData.hpp:56-58; no overload for `RA::_ALL` -/
def r_f_c : RA → Option FL
  | .N => some .P
  | .P => some .N
  | .IN => some .C
  | .ALL => none
end flra

/-- `DIM::check_d` of the namespace with dimension `D` — PointData_0D.hpp:18-29,
PointData_1D.hpp:23-34, PointData_2D.hpp:23-34, PointData_3D.hpp:23-34.
`d` is `unsigned`, `D` is converted to `unsigned` in the comparison. -/
def check_d (chk : Bool) (D d : Nat) : Out Unit :=
  if chk = true ∧ D ≤ d then .err (.dim d D) else .ok ()

/-- Body of `RangeT::check_range` after `DIM::check_d` and with `begin(d)`, `end(d)`
already fetched; the three namespaces have the same text — PointData_1D.hpp:89-104,
PointData_2D.hpp:101-116, PointData_3D.hpp:107-122.
`flag_str[offset]` in the error branch reads an array of two strings, so an offset
other than 0 or 1 is undefined there. -/
def check_range_core (d : Nat) (loc : Loc) (ii offset b e : Int) : Out Unit := do
  let lo ← i32 (b - offset)
  if ii < lo then fail else
    let e1 ← i32 (e + loc.toNat)
    let hi ← i32 (e1 - offset)
    if hi ≤ ii then fail else .ok ()
where
  fail : Out Unit := do
    let last ← i32 (e - 1)
    match loc with
    | .center => .err (.rangeCenter d ii b last)
    | .half =>
      if offset = 0 ∨ offset = 1 then do
        let _ ← i32 (b - 1)
        .err (.rangeHalf d ii offset b last e)
      else .ub .oob

/-- `PD_For_N` — PointData.hpp:61-68 -/
def PD_For_N {σ : Type} (N_b N_e : Nat) (fn : Nat → M σ Unit) : M σ Unit :=
  forU N_b N_e fn

/-- A C++ reference `T &` to a variable somewhere in the state. -/
structure Ref (σ T : Type) where
  get : σ → T
  set : T → σ → σ

/-- read through the reference -/
def Ref.read {σ T : Type} (r : Ref σ T) : M σ T := fun s => .ok (r.get s) s
/-- write through the reference -/
def Ref.write {σ T : Type} (r : Ref σ T) (v : T) : M σ Unit := fun s => .ok () (r.set v s)

/-- `PD_Reduce_N` — PointData.hpp:70-79.  `temp` is a local copy; a reducer
`reduce(x, xx)` modifies its second argument in place, modelled by returning the new
value. -/
def PD_Reduce_N {σ T : Type} (N_b N_e : Nat) (ans : Ref σ T)
    (reduce : T → T → M σ T) (fn : Nat → M σ T) : M σ Unit := do
  let t0 ← ans.read
  let temp ← forUAcc N_b N_e t0 (fun n t => do let x ← fn n; reduce x t)
  let a ← ans.read
  let a ← reduce temp a
  ans.write a

/-! The reducer macros `PD_RF_*` — PointData.hpp:91-98.  `x` is the new value, `xx`
the accumulator; the result is the new accumulator. -/
section Reducers
variable {T : Type}
/-- PointData.hpp:91 -/
def PD_RF_SUM [Add T] (x xx : T) : T := xx + x
/-- PointData.hpp:92 -/
def PD_RF_SUM_ABS [Add T] [Neg T] [OfNat T 0] [LE T] [DecidableLE T] (x xx : T) : T :=
  xx + (if 0 ≤ x then x else -x)
/-- PointData.hpp:93 -/
def PD_RF_PRO [Mul T] (x xx : T) : T := xx * x
/-- PointData.hpp:94 -/
def PD_RF_PRO_ABS [Mul T] [Neg T] [OfNat T 0] [LE T] [DecidableLE T] (x xx : T) : T :=
  xx * (if 0 ≤ x then x else -x)
/-- PointData.hpp:95 -/
def PD_RF_MAX [LT T] [DecidableLT T] (x xx : T) : T := if xx < x then x else xx
/-- PointData.hpp:96 -/
def PD_RF_MAX_ABS [Neg T] [OfNat T 0] [LE T] [DecidableLE T] [LT T] [DecidableLT T] (x xx : T) : T :=
  let x_abs := if 0 ≤ x then x else -x
  if xx < x_abs then x_abs else xx
/-- PointData.hpp:97 -/
def PD_RF_MIN [LT T] [DecidableLT T] (x xx : T) : T := if x < xx then x else xx
/-- PointData.hpp:98 -/
def PD_RF_MIN_ABS [Neg T] [OfNat T 0] [LE T] [DecidableLE T] [LT T] [DecidableLT T] (x xx : T) : T :=
  let x_abs := if 0 ≤ x then x else -x
  if x_abs < xx then x_abs else xx
end Reducers

end Verif
