import Verif.Model.Xml.Tiny
import Verif.Model.Tec.File
/-!
# Questions to a node of `tinyxml2`, and `liton_sp::xml` — tinyxml2.cpp, tinyxml2.h, lion_snippets.hpp:153-196

A `const XMLElement *` is `Option Node`; using a null pointer is undefined.  Loops with `NextSiblingElement()` run through the
list of child elements.
-/
namespace Verif.Xml
open Tec

namespace Node

def isElem : Node → Bool
  | .elem .. => true
  | _ => false

/-- `Name()` of an element -/
def name : Node → Str
  | .elem n _ _ => n
  | _ => []

def children : Node → List Node
  | .elem _ _ cs => cs
  | _ => []

def attrs : Node → List (Str × Str)
  | .elem _ as _ => as
  | _ => []

/-- `ToElementWithName(name)` succeeds — tinyxml2.cpp:1117-1130 -/
def named (n : Str) (x : Node) : Bool := x.isElem && x.name == n

end Node

/-- `FirstChildElement(name)` of a node with these children — tinyxml2.cpp:940-949 -/
def firstNamed (n : Str) (cs : List Node) : Option Node := cs.find? (Node.named n)

/-- use of a pointer -/
def deref : Option Node → Out Node
  | some x => .ok x
  | none => .ub .null

namespace Node

/-- `x->FirstChildElement(n)->` -/
def child (x : Node) (n : String) : Out Node := deref (firstNamed (lit n) x.children)

/-- the elements that `temp = x->FirstChildElement(); while (temp) { ...; temp = temp->NextSiblingElement(); }` visits -/
def elems (x : Node) : List Node := x.children.filter isElem

/-- `GetText()`: `none` is the null pointer — tinyxml2.cpp:1566-1572 -/
def getText (x : Node) : Option Str :=
  match x.children with
  | .text _ v :: _ => some v
  | _ => none

/-- `Attribute(name)`: `none` is the null pointer — tinyxml2.cpp:1501-1522 -/
def attr (x : Node) (n : String) : Option Str := (x.attrs.find? fun a => a.1 == lit n).map (·.2)

end Node

/-- construction or assignment of a `std::string` from a `const char *` -/
def toStr : Option Str → Out Str
  | some t => .ok t
  | none => .ub .null

/-! ## Numbers -/

/-- value of decimal digits -/
def digitsVal (l : Str) : Nat := l.foldl (fun n b => 10 * n + (b.toNat - 48)) 0

/-- an optional sign -/
def sign : Str → Bool × Str
  | 45 :: l => (true, l)
  | 43 :: l => (false, l)
  | l => (false, l)

/-- white space, a sign, digits: the sign and the number; `none`: no digits -/
def signedDigits (t : Str) : Option (Bool × Nat) :=
  let s := sign (skipSpace t)
  let ds := s.2.takeWhile isDigit
  if ds = [] then none else some (s.1, digitsVal ds)

def sgn (x : Bool × Nat) : Int := if x.1 then -(x.2 : Int) else x.2

/-- `sscanf(t, "%d", &v)`; `none`: nothing is assigned.  A number that is not an `int` is undefined — tinyxml2.cpp:592-598 -/
def scanInt (t : Str) : Out (Option Int) :=
  match signedDigits t with
  | none => .ok none
  | some x => if InI32 (sgn x) then .ok (some (sgn x)) else .ub .overflow

/-- `sscanf(t, "%u", &v)`; a negative number is negated in `unsigned`, as by `strtoul` — tinyxml2.cpp:600-606 -/
def scanUnsigned (t : Str) : Out (Option Nat) :=
  match signedDigits t with
  | none => .ok none
  | some x => if x.2 < 4294967296 then .ok (some (if x.1 then u32 (4294967296 - x.2) else x.2)) else .ub .overflow

/-- `std::strtol(t, 0, 10)`: the nearest `long` -/
def strtol (t : Str) : Int :=
  match signedDigits t with
  | none => 0
  | some x => max (-9223372036854775808) (min 9223372036854775807 (sgn x))

namespace Node

/-- `QueryIntText(&v)` — tinyxml2.cpp:1634-1644; the result is the new content of `v` (`none`: not initialised).  The error code is not used. -/
def queryInt (x : Node) (v : Option Int) : Out (Option Int) :=
  match x.getText with
  | none => .ok v
  | some t => do
    let r ← scanInt t
    .ok (r.orElse fun _ => v)

/-- `QueryDoubleText(&v)` — tinyxml2.cpp:1686-1696; `rd` is `sscanf` with `%lf` -/
def queryDouble (rd : Str → Option F64) (x : Node) (v : Option F64) : Option F64 :=
  match x.getText with
  | none => v
  | some t => (rd t).orElse fun _ => v

/-- `QueryIntAttribute(n, &v)` — tinyxml2.h:1313-1319 -/
def queryIntAttr (x : Node) (n : String) (v : Option Int) : Out (Option Int) :=
  match x.attr n with
  | none => .ok v
  | some t => do
    let r ← scanInt t
    .ok (r.orElse fun _ => v)

/-- `QueryUnsignedAttribute(n, &v)` — tinyxml2.h:1322-1328 -/
def queryUnsignedAttr (x : Node) (n : String) (v : Option Nat) : Out (Option Nat) :=
  match x.attr n with
  | none => .ok v
  | some t => do
    let r ← scanUnsigned t
    .ok (r.orElse fun _ => v)

/-- `QueryDoubleAttribute(n, &v)` — tinyxml2.h:1348-1354 -/
def queryDoubleAttr (rd : Str → Option F64) (x : Node) (n : String) (v : Option F64) : Option F64 :=
  match x.attr n with
  | none => v
  | some t => (rd t).orElse fun _ => v

end Node

/-! ## `liton_sp::xml` -/

/-- `load_xml` — lion_snippets.hpp:157-180.  The state of `xml_file` after an exception is not modelled. -/
def load_xml (fs : Str → Option Str) (file root : Str) : Out Node :=
  match loadFile (fs (cstr file)) with
  | .error .fileNotFound => .err (.text (lit "case file " ++ file ++ lit " not found"))
  | .error e => .err (.text (lit "error when loading file " ++ file ++ lit ": error ID " ++ dec e.num))
  | .ok cs =>
    match firstNamed (cstr root) cs with
    | none => .err (.text (lit "node \"" ++ root ++ lit "\" not found in " ++ file))
    | some x => .ok x

/-- `check_xmlnode` — lion_snippets.hpp:182-188 -/
def check_xmlnode (x : Option Node) (n : Str) : Out Unit := do
  let x ← deref x
  match firstNamed (cstr n) x.children with
  | none => .err (.text (lit "node \"" ++ n ++ lit "\" not found in node \"" ++ x.name ++ lit "\""))
  | some _ => .ok ()

/-- `get_xmlnode` — lion_snippets.hpp:190-194 -/
def get_xmlnode (x : Option Node) (n : Str) : Out (Option Node) := do
  check_xmlnode x n
  let x ← deref x
  .ok (firstNamed (cstr n) x.children)

end Verif.Xml
