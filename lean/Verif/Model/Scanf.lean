import Verif.Model.Printf
/-!
# Model: `sscanf` with `%lf`

`XMLUtil::ToDouble` (tinyxml2.cpp:636-642) calls `sscanf(str, "%lf", value)` and looks at whether it answers 1.  The
conversion as in glibc, "C" locale, default rounding mode: white space, a sign, then a decimal number or `inf` or
`nan`; the number is rounded to the nearest `double`, ties to even, to an infinity if it is too large.

Simplification: hexadecimal numbers are read as the digit 0, and of `infinity` and `nan(...)` the first three characters are read.
-/
namespace Verif.Tec

def isDigitB (b : Byte) : Bool := 48 ≤ b && b ≤ 57
/-- `isspace` -/
def isSpaceB (b : Byte) : Bool := b == 32 || (9 ≤ b && b ≤ 13)
/-- `tolower` -/
def lowerB (b : Byte) : Byte := if 65 ≤ b ∧ b ≤ 90 then b + 32 else b

/-- the number with these digits -/
def numOf (s : Str) : Nat := s.foldl (fun a b => 10 * a + (b.toNat - 48)) 0

/-- the pattern of the `double` nearest to `n / q`, without sign, in units of 2^-1074; `e` is chosen so that 53 bits remain -/
def nearest (n q : Nat) : Nat :=
  let e := Nat.log2 (n * unit64 / q) - 52
  min (e * 2 ^ 52 + roundEven (n * unit64) (q * 2 ^ e)) (2047 * 2 ^ 52)

/-- the pattern of the `double` nearest to `n * 10^k`, without sign -/
def nearest10 (n : Nat) (k : Int) : Nat := if 0 ≤ k then nearest (n * 10 ^ k.toNat) 1 else nearest n (10 ^ (-k).toNat)

def withSign (neg : Bool) (n : Nat) : F64 := BitVec.ofNat 64 (if neg then 2 ^ 63 + n else n)

/-- a sign, or none -/
def scanSign : Str → Bool × Str
  | 45 :: r => (true, r)
  | 43 :: r => (false, r)
  | r => (false, r)

/-- the exponent; `none`: there is an `e`, but no digits -/
def scanExp : Str → Option Int
  | b :: r =>
    if lowerB b = 101 then
      let (neg, r) := scanSign r
      let d := r.takeWhile isDigitB
      if d = [] then none else some (if neg then -(numOf d : Int) else (numOf d : Int))
    else some 0
  | [] => some 0

/-- `sscanf(s, "%lf", &v)`; `none`: it does not answer 1 -/
def scanLf (s : Str) : Option F64 :=
  let (neg, s) := scanSign (s.dropWhile isSpaceB)
  if (s.take 3).map lowerB = lit "inf" then some (withSign neg 0x7FF0000000000000)
  else if (s.take 3).map lowerB = lit "nan" then some (withSign neg 0x7FF8000000000000)
  else
    let i := s.takeWhile isDigitB
    let r := s.dropWhile isDigitB
    let f := match r with
      | 46 :: t => t.takeWhile isDigitB
      | _ => []
    let r := match r with
      | 46 :: t => t.dropWhile isDigitB
      | r => r
    if i ++ f = [] then none
    else (scanExp r).map fun k => withSign neg (nearest10 (numOf (i ++ f)) (k - f.length))

end Verif.Tec
