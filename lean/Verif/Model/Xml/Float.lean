import Verif.Model.Xml.Number
/-!
# Reading of `float` — tinyxml2.cpp:627-633, 1412-1418, 1559-1564, 1699-1709, 1746-1751, tinyxml2.h:1356-1362

`XMLUtil::ToFloat` calls `sscanf(str, "%f", value)` and looks at whether it answers 1.  The conversion is as in glibc, "C" locale, default
rounding mode; a `float` is the number of its pattern of 32 bits, as in Model/Xml/Number.

Simplifications: as of `scanLf` in Model/Scanf: hexadecimal numbers are read as the digit 0, and of `infinity` and `nan(...)` the first three
characters are read.
-/
namespace Verif.Tec

/-- the smallest positive `float` is the reciprocal of this -/
def unit32 : Nat := 2 ^ 149

/-- the pattern of the `float` nearest to `n / q`, without sign, in units of 2^-149; `e` is chosen so that 24 bits remain -/
def nearest32 (n q : Nat) : Nat :=
  let e := Nat.log2 (n * unit32 / q) - 23
  min (e * 2 ^ 23 + roundEven (n * unit32) (q * 2 ^ e)) (255 * 2 ^ 23)

/-- the pattern of the `float` nearest to `n * 10^k`, without sign -/
def nearest32Ten (n : Nat) (k : Int) : Nat := if 0 ≤ k then nearest32 (n * 10 ^ k.toNat) 1 else nearest32 n (10 ^ (-k).toNat)

def withSign32 (neg : Bool) (n : Nat) : Nat := if neg then 2 ^ 31 + n else n

/-- `sscanf(s, "%f", &v)`; `none`: it does not answer 1 -/
def scanF (s : Str) : Option Nat :=
  let (neg, s) := scanSign (s.dropWhile isSpaceB)
  if (s.take 3).map lowerB = lit "inf" then some (withSign32 neg 0x7F800000)
  else if (s.take 3).map lowerB = lit "nan" then some (withSign32 neg 0x7FC00000)
  else
    let i := s.takeWhile isDigitB
    let r := s.dropWhile isDigitB
    let f := match r with
      | 46 :: t => t.takeWhile isDigitB
      | _ => []
    let r := match r with
      | 46 :: t => t.dropWhile isDigitB
      | r => r
    if i ++ f = [] then none
    else (scanExp r).map fun k => withSign32 neg (nearest32Ten (numOf (i ++ f)) (k - f.length))

end Verif.Tec

namespace Verif.Xml
open Tec

namespace Node

/-- `QueryFloatAttribute(n, &v)`: the answer and the new content of `v` — tinyxml2.h:1356-1362, tinyxml2.cpp:1412-1418 -/
def queryFloatAttribute (x : Node) (n : Str) (v : Nat) : Answer × Nat :=
  match x.findAttribute n with
  | none => (.noAttribute, v)
  | some s =>
    match scanF s with
    | some r => (.success, r)
    | none => (.wrongAttributeType, v)

/-- `QueryFloatText(&v)` — tinyxml2.cpp:1699-1709 -/
def queryFloatText (x : Node) (v : Nat) : Answer × Nat :=
  match x.getText with
  | none => (.noTextNode, v)
  | some s =>
    match scanF s with
    | some r => (.success, r)
    | none => (.canNotConvertText, v)

/-- `FloatAttribute(n, d)` — tinyxml2.cpp:1559-1564 -/
def floatAttributeOr (x : Node) (n : Str) (d : Nat) : Nat := (x.queryFloatAttribute n d).2

/-- `FloatText(d)` — tinyxml2.cpp:1746-1751 -/
def floatTextOr (x : Node) (d : Nat) : Nat := (x.queryFloatText d).2

end Node

end Verif.Xml
