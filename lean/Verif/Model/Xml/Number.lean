import Verif.Model.Scanf
import Verif.Model.Xml.Query
/-!
# Numbers in the texts and attributes of tinyxml2 — tinyxml2.cpp:369-382, 552-653, 1376-1482, 1501-1750, tinyxml2.h:1198-1210, 1290-1442, 1500-1610

`XMLUtil::ToStr` and `XMLUtil::ToInt` etc., and the functions of attributes and elements that are made of them: `SetAttribute`, `SetText`,
`Query...Attribute`, `Query...Text`, `...Attribute`, `...Text`.

Simplifications: the attributes of an element are a list (as in the other modules); reading of `float` is in Model/Xml/Float; the conversion `%g` is as in
glibc, "C" locale, default rounding mode.
-/
namespace Verif.Tec

/-- the first `p + 1` digits of `x` as a number, before a carry -/
def gDigits (p : Nat) (x : F64) : Nat := roundEven (x.abs * 10 ^ (324 + p)) (unit64 * 10 ^ (magnitude x - 1))

/-- the `p + 1` digits and the exponent of the first of them -/
def gParts (p : Nat) (x : F64) : Nat × Int :=
  if x.abs = 0 then (0, 0)
  else if gDigits p x = 10 ^ (p + 1) then (10 ^ p, (magnitude x : Int) - 324)
  else (gDigits p x, (magnitude x : Int) - 325)

/-- without the zeros at the end -/
def trimZeros (s : Str) : Str := (s.reverse.dropWhile (· == 48)).reverse

/-- point and digits, or nothing if all of them are zero -/
def fraction (s : Str) : Str := if trimZeros s = [] then [] else 46 :: trimZeros s

/-- `%.Pg` with `P = p + 1` -/
def printG (p : Nat) (x : F64) : Str :=
  if x.special then specialText x
  else if (gParts p x).2 < -4 ∨ (p : Int) < (gParts p x).2 then
    minus x ++ (decNat ((gParts p x).1 / 10 ^ p) ++ (fraction (padded p (gParts p x).1) ++ expText (gParts p x).2))
  else
    minus x ++ (decNat ((gParts p x).1 / 10 ^ ((p : Int) - (gParts p x).2).toNat) ++ fraction (padded ((p : Int) - (gParts p x).2).toNat (gParts p x).1))

end Verif.Tec

namespace Verif.Xml
open Tec

/-- `TIXML_SNPRINTF` into a buffer of `n` bytes -/
def snprintf (n : Nat) (t : Str) : Str := t.take (n - 1)

/-- `BUF_SIZE` — tinyxml2.h:1213, 1615, 2253 -/
def bufSize : Nat := 200

/-- the types of numbers -/
inductive Ty where
  | int | unsigned | int64 | bool | double
  deriving DecidableEq, Repr

/-- a value of one of these types -/
inductive Scalar where
  | int (v : Int)
  | unsigned (v : Nat)
  | int64 (v : Int)
  | bool (v : Bool)
  | double (v : F64)
  deriving DecidableEq, Repr

def Scalar.ty : Scalar → Ty
  | .int _ => .int
  | .unsigned _ => .unsigned
  | .int64 _ => .int64
  | .bool _ => .bool
  | .double _ => .double

/-- `writeBoolTrue` and `writeBoolFalse` — tinyxml2.cpp:372-373 -/
structure Words where
  t : Str := lit "true"
  f : Str := lit "false"

/-- `SetBoolSerialization`; `none` is the null pointer — tinyxml2.cpp:375-382 -/
def setBoolSerialization (t f : Option Str) : Words := ⟨t.getD (lit "true"), f.getD (lit "false")⟩

/-- `XMLUtil::ToStr` — tinyxml2.cpp:552-588 -/
def Scalar.text (w : Words) : Scalar → Str
  | .int v => snprintf bufSize (dec v)
  | .unsigned v => snprintf bufSize (dec v)
  | .int64 v => snprintf bufSize (dec v)
  | .bool v => snprintf bufSize (if v then w.t else w.f)
  | .double v => snprintf bufSize (printG 16 v)

/-- `XMLUtil::ToStr(float)`; the pattern of a `float` — tinyxml2.cpp:573-576 -/
def floatText (n : Nat) : Str := snprintf bufSize (printG 7 (f64OfF32 n))

/-- `sscanf(t, "%lld", &v)` — tinyxml2.cpp:645-653 -/
def scanInt64 (t : Str) : Out (Option Int) :=
  match signedDigits t with
  | none => .ok none
  | some x => if -9223372036854775808 ≤ sgn x ∧ sgn x ≤ 9223372036854775807 then .ok (some (sgn x)) else .ub .overflow

/-- `XMLUtil::ToBool` — tinyxml2.cpp:608-624 -/
def scanBool (t : Str) : Out (Option Bool) := do
  match ← scanInt t with
  | some v => .ok (some (if v = 0 then false else true))
  | none => .ok (if t = lit "true" then some true else if t = lit "false" then some false else none)

/-- `XMLUtil::ToInt`, `ToUnsigned`, `ToInt64`, `ToBool`, `ToDouble`; `none`: the answer is `false` and nothing is assigned — tinyxml2.cpp:592-653 -/
def Ty.conv (t : Ty) (s : Str) : Out (Option Scalar) :=
  match t with
  | .int => do let r ← scanInt s; .ok (r.map .int)
  | .unsigned => do let r ← scanUnsigned s; .ok (r.map .unsigned)
  | .int64 => do let r ← scanInt64 s; .ok (r.map .int64)
  | .bool => do let r ← scanBool s; .ok (r.map .bool)
  | .double => .ok ((scanLf s).map .double)

/-- the answers of the queries — tinyxml2.h:510-533 -/
inductive Answer where
  | success | noAttribute | wrongAttributeType | canNotConvertText | noTextNode
  deriving DecidableEq, Repr

/-- `FindOrCreateAttribute(n)->SetAttribute(v)` — tinyxml2.cpp:1753-1778, tinyxml2.h:1407-1442 -/
def setAttr (n v : Str) : List (Str × Str) → List (Str × Str)
  | [] => [(n, v)]
  | a :: l => if a.1 = n then (a.1, v) :: l else a :: setAttr n v l

namespace Node

/-- `SetAttribute(n, v)` with a text -/
def setAttribute (x : Node) (n v : Str) : Node :=
  match x with
  | .elem m as cs => .elem m (setAttr n v as) cs
  | x => x

/-- `SetText(v)` with a text — tinyxml2.cpp:1575-1583 -/
def setText (x : Node) (v : Str) : Node :=
  match x with
  | .elem m as (.text c _ :: cs) => .elem m as (.text c v :: cs)
  | .elem m as cs => .elem m as (.text false v :: cs)
  | x => x

/-- `FindAttribute(n)`, the value of the attribute — tinyxml2.cpp:1501-1509 -/
def findAttribute (x : Node) (n : Str) : Option Str := (x.attrs.find? fun a => a.1 == n).map (·.2)

/-- `Query<Type>Attribute(n, &v)`: the answer and the new content of `v` — tinyxml2.h:1313-1363, tinyxml2.cpp:1376-1427 -/
def queryAttribute (x : Node) (t : Ty) (n : Str) (v : Scalar) : Out (Answer × Scalar) :=
  match x.findAttribute n with
  | none => .ok (.noAttribute, v)
  | some s => do
    match ← t.conv s with
    | some r => .ok (.success, r)
    | none => .ok (.wrongAttributeType, v)

/-- `Query<Type>Text(&v)` — tinyxml2.cpp:1634-1709 -/
def queryText (x : Node) (t : Ty) (v : Scalar) : Out (Answer × Scalar) :=
  match x.getText with
  | none => .ok (.noTextNode, v)
  | some s => do
    match ← t.conv s with
    | some r => .ok (.success, r)
    | none => .ok (.canNotConvertText, v)

/-- `<Type>Attribute(n, d)` — tinyxml2.cpp:1524-1564 -/
def attributeOr (x : Node) (t : Ty) (n : Str) (d : Scalar) : Out Scalar := do
  let r ← x.queryAttribute t n d
  .ok r.2

/-- `<Type>Text(d)` — tinyxml2.cpp:1711-1750 -/
def textOr (x : Node) (t : Ty) (d : Scalar) : Out Scalar := do
  let r ← x.queryText t d
  .ok r.2

end Node

end Verif.Xml
