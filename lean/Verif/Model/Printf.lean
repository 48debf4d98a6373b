import Verif.Model.Tec.Log
/-!
# Model: `printf` of `double` values

The conversions `%le`, `%lf` and `%.5lf` that the library uses to print `double` values (ordered_tec.cpp), as ISO C
(C17 7.21.6.1) describes them for IEEE-754 numbers in the "C" locale: the exact value is rounded to the given number of digits, ties to
the even digit (glibc in the default rounding mode).  The other modules of the model take these conversions as
parameter (`Fmt`); this is the one value of the parameter that describes a real library.
-/
namespace Verif.Tec

/-- `a / b` rounded to the nearest integer, ties to even -/
def roundEven (a b : Nat) : Nat :=
  if 2 * (a % b) < b then a / b
  else if b < 2 * (a % b) then a / b + 1
  else a / b + a / b % 2

namespace F64

/-- sign bit -/
def neg (x : F64) : Bool := decide (2 ^ 63 ≤ x.toNat)

/-- biased exponent -/
def expo (x : F64) : Nat := x.toNat / 2 ^ 52 % 2 ^ 11

/-- fraction -/
def frac (x : F64) : Nat := x.toNat % 2 ^ 52

/-- magnitude of a finite number in units of 2^-1074 -/
def abs (x : F64) : Nat := if x.expo = 0 then x.frac else (2 ^ 52 + x.frac) * 2 ^ (x.expo - 1)

/-- NaN or infinite -/
def special (x : F64) : Bool := x.expo == 2047

end F64

/-- 2^1074 -/
def unit64 : Nat := 2 ^ 1074

/-- the last `k` decimal digits of `n` -/
def padded : Nat → Nat → Str
  | 0, _ => []
  | k + 1, n => padded k (n / 10) ++ [UInt8.ofNat (48 + n % 10)]

/-- `-` or nothing -/
def minus (x : F64) : Str := if x.neg then [45] else []

/-- infinities and NaNs -/
def specialText (x : F64) : Str := minus x ++ (if x.frac = 0 then lit "inf" else lit "nan")

/-- `%.plf` with `p > 0` -/
def printF (p : Nat) (x : F64) : Str :=
  if x.special then specialText x
  else
    let d := roundEven (x.abs * 10 ^ p) unit64
    minus x ++ (decNat (d / 10 ^ p) ++ (46 :: padded p d))

/-- exponent with sign and at least two digits -/
def expText (e : Int) : Str :=
  101 :: ((if e < 0 then 45 else 43) :: (if e.natAbs < 10 then 48 :: decNat e.natAbs else decNat e.natAbs))

/-- number of digits of |x| * 10^324 before the point; for `x ≠ 0` the first digit of `x` belongs to 10^(n - 325) -/
def magnitude (x : F64) : Nat := (decNat (x.abs * 10 ^ 324 / unit64)).length

/-- the seven digits of `%le` as a number and the exponent, before a carry -/
def sciDigits (x : F64) : Nat := roundEven (x.abs * 10 ^ 330) (unit64 * 10 ^ (magnitude x - 1))

/-- `d.dddddde±dd` -/
def sciText (d : Nat) (e : Int) : Str := decNat (d / 10 ^ 6) ++ (46 :: (padded 6 d ++ expText e))

/-- `%le` -/
def printE (x : F64) : Str :=
  if x.special then specialText x
  else if x.abs = 0 then minus x ++ sciText 0 0
  else if sciDigits x = 10 ^ 7 then minus x ++ sciText (10 ^ 6) ((magnitude x : Int) - 324)
  else minus x ++ sciText (sciDigits x) ((magnitude x : Int) - 325)

/-- the conversions of glibc -/
def glibc : Fmt where
  le := printE
  f5 := printF 5
  lf := printF 6

end Verif.Tec
