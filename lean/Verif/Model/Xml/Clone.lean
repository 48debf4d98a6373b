import Verif.Model.Xml.Dom
import Verif.Model.Xml.Number
/-!
# Copying and comparing nodes — tinyxml2.cpp:781-792, 1160-1176, 1209-1224, 1258-1273, 1306-1321, 1913-1950, 2066-2120, tinyxml2.h:1843-1848

The tree of `Dom.lean` with what each node holds.

Simplifications.  The attributes of an element are the list of their names and values (`Attr.lean` has the pointers).  The place of a new node is chosen by `pick` from those in use.
Copies have their own texts (`SetStr`), so a text is a value here.  Line numbers are left out.
-/
namespace Verif.Xml.Dom
open Tec (Str)

/-- what a node holds: its kind, its `_value`, attributes, `CData()` -/
inductive Content where
  | document
  | element (name : Str) (attrs : List (Str × Str))
  | text (cdata : Bool) (value : Str)
  | comment (value : Str)
  | declaration (value : Str)
  | unknown (value : Str)
  deriving DecidableEq

/-- nodes and what they hold -/
structure CDom where
  dom : Dom
  what : Nat → Content

/-- a call that concerns the links only -/
def onDom {α : Type} (m : M Dom α) : M CDom α := fun s =>
  match m s.dom with
  | .ok a d => .ok a { s with dom := d }
  | .err e d => .err e { s with dom := d }
  | .ub u => .ub u

/-- what the node holds -/
def hold (c : Nat) : M CDom Content := fun s => if s.dom.live c then .ok (s.what c) s else .ub .dangling

/-- the attributes of a copy: `SetAttribute` with the name and value of each — tinyxml2.cpp:1919-1921 -/
def copyAttributes (as : List (Str × Str)) : List (Str × Str) := as.foldl (fun l a => setAttr a.1 a.2 l) []

/-- what a copy holds; there is none of a document — tinyxml2.cpp:1160-1168, 1209-1216, 1258-1265, 1306-1313, 1913-1923, tinyxml2.h:1843-1845 -/
def Content.copy : Content → Option Content
  | .document => none
  | .element n as => some (.element n (copyAttributes as))
  | .text c v => some (.text c v)
  | .comment v => some (.comment v)
  | .declaration v => some (.declaration v)
  | .unknown v => some (.unknown v)

/-- where a new node goes, given the places in use -/
abbrev Place := (Nat → Bool) → Nat

/-- `ShallowClone( doc )`; without `doc` (null) the copy belongs to the document of the node -/
def ShallowClone (pick : Place) (target : P) (c : Nat) : M CDom P := do
  let x ← hold c
  match x.copy with
  | none => pure none
  | some y => do
    let d ← match target with
      | some d => pure d
      | none => onDom (rd Dom.doc (some c))
    let s ← M.get
    let r := pick s.dom.live
    onDom (newNode d r)
    M.modify fun s => { s with what := put s.what r y }
    pure (some r)

mutual
/-- `DeepClone( target )` — tinyxml2.cpp:781-792; the first argument bounds the depth of calls and the passes of the loop -/
def DeepClone (pick : Place) : Nat → P → Nat → M CDom P
  | 0, _, _ => M.undef .overflow
  | k + 1, target, c => do
    let clone ← ShallowClone pick target c
    match clone with
    | none => pure none
    | some r => do
      let child ← onDom (rd Dom.first (some c))
      cloneChildren pick k target r child
      pure (some r)

/-- its loop over the children, and that of `DeepCopy` — tinyxml2.cpp:786-790, 2074-2076 -/
def cloneChildren (pick : Place) : Nat → P → Nat → P → M CDom Unit
  | 0, _, _, _ => M.undef .overflow
  | _ + 1, _, _, none => pure ()
  | k + 1, target, clone, some child => do
    let cc ← DeepClone pick k target child
    match cc with
    | none => M.undef .null
    | some a => do
      let _ ← onDom (InsertEndChild clone a)
      let q ← onDom (rd Dom.next (some child))
      cloneChildren pick k target clone q
end

/-- `XMLDocument::DeepCopy( target )` — tinyxml2.cpp:2066-2077 -/
def DeepCopy (pick : Place) (k this target : Nat) : M CDom Unit := do
  if target = this then pure ()
  else do
    onDom (Clear k target)
    let child ← onDom (rd Dom.first (some this))
    cloneChildren pick k (some target) target child

/-- the loop of `XMLElement::ShallowEqual`, with what follows it — tinyxml2.cpp:1935-1946 -/
def sameValues : List (Str × Str) → List (Str × Str) → Bool
  | a :: as, b :: bs => if a.2 ≠ b.2 then false else sameValues as bs
  | [], [] => true
  | _, _ => false

/-- `this->ShallowEqual( compare )` — tinyxml2.cpp:1171-1176, 1219-1224, 1268-1273, 1316-1321, 1926-1950, tinyxml2.h:1846-1848 -/
def Content.shallowEqual (this compare : Content) : Bool :=
  match this, compare with
  | .element n as, .element m bs => if m = n then sameValues as bs else false
  | .text _ v, .text _ w => w == v
  | .comment v, .comment w => w == v
  | .declaration v, .declaration w => w == v
  | .unknown v, .unknown w => w == v
  | _, _ => false

end Verif.Xml.Dom
