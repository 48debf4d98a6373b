import Verif.Model.Tec.Basic
/-!
# `liton_sp::time::get_time` — lion_snippets.hpp:44-60

The clock and the time zone are the environment: the function is modelled from the broken-down local time on that
`localtime_r` (or `localtime_s`) stores.  `std::strftime` is modelled after the C standard; the conversions that the
default format does not use are a parameter.
-/
namespace Verif.Sp
open Tec

/-- `struct tm`; the fields `tm_wday`, `tm_yday`, `tm_isdst` matter for other conversions only and are in `more` -/
structure Tm where
  tm_sec : Nat
  tm_min : Nat
  tm_hour : Nat
  tm_mday : Nat
  /-- months since January -/
  tm_mon : Nat
  /-- years since 1900 -/
  tm_year : Int
  more : Nat := 0
  deriving DecidableEq, Repr

/-- a number with at least two digits -/
def two (n : Nat) : Str := if n < 10 then 48 :: decNat n else decNat n

/-- what a conversion `%c` is replaced by; `none`: not a conversion, undefined -/
def conv (other : UInt8 → Tm → Option Str) (c : UInt8) (t : Tm) : Option Str :=
  if c = 89 then some (dec (t.tm_year + 1900))
  else if c = 109 then some (two (t.tm_mon + 1))
  else if c = 100 then some (two t.tm_mday)
  else if c = 72 then some (two t.tm_hour)
  else if c = 77 then some (two t.tm_min)
  else if c = 83 then some (two t.tm_sec)
  else if c = 37 then some [37]
  else other c t

/-- all characters of a format -/
def expand (other : UInt8 → Tm → Option Str) (t : Tm) : Str → Option Str
  | [] => some []
  | 37 :: [] => none
  | 37 :: c :: f => do
    let a ← conv other c t
    let b ← expand other t f
    pure (a ++ b)
  | c :: f => do
    let b ← expand other t f
    pure (c :: b)

/-- `get_time(format)` — lion_snippets.hpp:47-59.  `strftime(buf, 100, ...)` leaves the text in `buf` if there is room for it and
the final NUL; otherwise the contents of `buf` are indeterminate.  The result of `strftime` is not looked at: `return buf`
reads the array in any case. -/
def get_time (other : UInt8 → Tm → Option Str) (format : Str) (t : Tm) : Out Str :=
  match expand other t (cstr format) with
  | none => .ub .uninit
  | some s => if s.length + 1 ≤ 100 then .ok (cstr s) else .ub .uninit

/-- the default argument — lion_snippets.hpp:47 -/
def defaultFormat : Str := lit "%Y%m%dT%H%M%S"

end Verif.Sp
