import Verif.Base
/-!
# The attributes of elements — tinyxml2.cpp:169-190, 1482-1522, 1754-1798, 1801-1880, 1370-1373, 1430-1433, tinyxml2.h:1407-1410, 1455-1459

Elements and attributes are numbered; a pointer to an attribute is null (`none`) or its number.  The attributes of an element are a list linked by `_next`.

Texts.  A `StrPair` owns its text (`NEEDS_DELETE`, after `SetStr`) or points into the text the document was loaded from.  An argument `const char*` of a
call may point to a text of the program or to the name or value of an attribute; reading it after that text has been freed is undefined.

Simplifications.  Names shorter than `INT_MAX` (`StringEqual` compares no more, tinyxml2.h:582-590).  The pool is described on its own (`Pool.lean`); here `pick` chooses the place of a new attribute
from the places in use.  Line numbers are left out.
-/
namespace Verif.Xml.Attr

/-- texts -/
abbrev Str := List UInt8

/-- a pointer to an attribute -/
abbrev P := Option Nat

/-- all elements and attributes — tinyxml2.h:1226-1231 (`XMLAttribute`), 1623 (`_rootAttribute`) -/
structure Attrs where
  /-- the elements there are -/
  elem : Nat → Bool
  /-- `_rootAttribute` -/
  root : Nat → P
  /-- the attributes there are -/
  live : Nat → Bool
  name : Nat → Str
  /-- `_value`; `none` if there is no text or it has been freed -/
  value : Nat → Option Str
  /-- `_value` has to delete its text -/
  owned : Nat → Bool
  next : Nat → P

/-- `f` with the value `v` at `c` -/
def put {α : Type} (f : Nat → α) (c : Nat) (v : α) : Nat → α := fun q => if q = c then v else f q

/-- `a->field` -/
def rd {α : Type} (field : Attrs → Nat → α) (p : P) : M Attrs α := fun s =>
  match p with
  | none => .ub .null
  | some a => if s.live a then .ok (field s a) s else .ub .dangling

/-- an assignment to a field of `*a`; `f` performs it -/
def wr (p : P) (f : Nat → Attrs → Attrs) : M Attrs Unit := fun s =>
  match p with
  | none => .ub .null
  | some a => if s.live a then .ok () (f a s) else .ub .dangling

/-- `e->_rootAttribute` -/
def rdRoot (e : Nat) : M Attrs P := fun s => if s.elem e then .ok (s.root e) s else .ub .dangling

/-- `e->_rootAttribute = p` -/
def setRoot (e : Nat) (p : P) : M Attrs Unit := fun s => if s.elem e then .ok () { s with root := put s.root e p } else .ub .dangling

/-- `const char*`: a text of the program, the name or the value of an attribute -/
inductive CStr where
  | text (t : Str)
  | nameOf (a : Nat)
  | valueOf (a : Nat)

/-- the text it points to -/
def deref : CStr → M Attrs Str
  | .text t => pure t
  | .nameOf a => rd Attrs.name (some a)
  | .valueOf a => do
    let v ← rd Attrs.value (some a)
    match v with
    | some t => pure t
    | none => M.undef .dangling

/-- `XMLUtil::StringEqual( a->Name(), name )` — tinyxml2.h:582-590 -/
def nameIs (name : CStr) (a : Nat) : M Attrs Bool := do
  let m ← rd Attrs.name (some a)
  let t ← deref name
  pure (m == t)

/-- the loop of `FindAttribute`; the number bounds the passes -/
def findLoop (name : CStr) : Nat → P → M Attrs P
  | 0, _ => M.undef .overflow
  | _ + 1, none => pure none
  | n + 1, some a => do
    if ← nameIs name a then pure (some a)
    else do
      let q ← rd Attrs.next (some a)
      findLoop name n q

/-- `FindAttribute` — tinyxml2.cpp:1501-1509 -/
def FindAttribute (n e : Nat) (name : CStr) : M Attrs P := do
  let r ← rdRoot e
  findLoop name n r

/-- `Attribute( name, value )` — tinyxml2.cpp:1512-1522 -/
def Attribute (n e : Nat) (name : CStr) (value : Option CStr) : M Attrs (Option CStr) := do
  let a ← FindAttribute n e name
  match a with
  | none => pure none
  | some a =>
    match value with
    | none => pure (some (.valueOf a))
    | some v => do
      let t ← deref (.valueOf a)
      let u ← deref v
      pure (if t = u then some (.valueOf a) else none)

/-- The loop `for( a = FirstAttribute(); a; a = a->Next() )`, which collects the names and values it passes — tinyxml2.cpp:1919, 2748-2752 -/
def walkAttributes : Nat → P → M Attrs (List (Str × Str))
  | 0, _ => M.undef .overflow
  | _ + 1, none => pure []
  | n + 1, some a => do
    let m ← deref (.nameOf a)
    let v ← deref (.valueOf a)
    let q ← rd Attrs.next (some a)
    let r ← walkAttributes n q
    pure ((m, v) :: r)

/-- the attributes of an element, in their order -/
def AllAttributes (n e : Nat) : M Attrs (List (Str × Str)) := do
  let r ← rdRoot e
  walkAttributes n r

/-- the loops of `FindOrCreateAttribute` and `DeleteAttribute`: the attribute with the name and the one before it -/
def seek (name : CStr) : Nat → P → P → M Attrs (P × P)
  | 0, _, _ => M.undef .overflow
  | _ + 1, last, none => pure (last, none)
  | n + 1, last, some a => do
    if ← nameIs name a then pure (last, some a)
    else do
      let q ← rd Attrs.next (some a)
      seek name n (some a) q

/-- where a new attribute goes, given the places in use -/
abbrev Pick := (Nat → Bool) → Nat

/-- `CreateAttribute` — tinyxml2.cpp:1870-1880 -/
def CreateAttribute (pick : Pick) : M Attrs P := fun s =>
  let a := pick s.live
  .ok (some a) { s with live := put s.live a true, name := put s.name a [], value := put s.value a none, owned := put s.owned a false
                        next := put s.next a none }

/-- `attrib->SetName( name )`; the name of a new attribute is empty — tinyxml2.cpp:1370-1373, 180-190 -/
def SetName (p : P) (name : CStr) : M Attrs Unit := do
  let t ← deref name
  wr p fun a s => { s with name := put s.name a t }

/-- `_value.SetStr( v )`: the old text is freed first — tinyxml2.cpp:169-190, 1430-1433 -/
def SetValue (p : P) (v : CStr) : M Attrs Unit := do
  let o ← rd Attrs.owned p
  if o then wr p fun a s => { s with value := put s.value a none } else pure ()
  let t ← deref v
  wr p fun a s => { s with value := put s.value a (some t), owned := put s.owned a true }

/-- `FindOrCreateAttribute` — tinyxml2.cpp:1754-1778 -/
def FindOrCreateAttribute (pick : Pick) (n e : Nat) (name : CStr) : M Attrs P := do
  let r ← rdRoot e
  let (last, attrib) ← seek name n none r
  match attrib with
  | some x => pure (some x)
  | none => do
    let attrib ← CreateAttribute pick
    match last with
    | some l => wr (some l) fun l s => { s with next := put s.next l attrib }
    | none => setRoot e attrib
    SetName attrib name
    pure attrib

/-- `SetAttribute( name, value )` — tinyxml2.h:1407-1410 -/
def SetAttribute (pick : Pick) (n e : Nat) (name value : CStr) : M Attrs Unit := do
  let x ← FindOrCreateAttribute pick n e name
  SetValue x value

/-- `DeleteAttribute( XMLAttribute* )` — tinyxml2.cpp:1860-1868 -/
def freeAttribute (p : P) : M Attrs Unit := fun s =>
  match p with
  | none => .ok () s
  | some a => if s.live a then .ok () { s with live := put s.live a false } else .ub .dangling

/-- `DeleteAttribute( name )` — tinyxml2.cpp:1782-1798 -/
def DeleteAttribute (n e : Nat) (name : CStr) : M Attrs Unit := do
  let r ← rdRoot e
  let (prev, a) ← seek name n none r
  match a with
  | none => pure ()
  | some a => do
    let q ← rd Attrs.next (some a)
    match prev with
    | some p => wr (some p) fun p s => { s with next := put s.next p q }
    | none => setRoot e q
    freeAttribute (some a)

/-- the linking of `ParseAttributes`: the attributes of the text in their order with their names and values, which point into it.
`false` if a name has been seen before — tinyxml2.cpp:1801-1835. -/
def ParseAttributes (pick : Pick) (n e : Nat) : P → List (Str × Str) → M Attrs Bool
  | _, [] => pure true
  | prev, (name, value) :: l => do
    let attrib ← CreateAttribute pick
    wr attrib fun a s => { s with name := put s.name a name, value := put s.value a (some value) }
    let same ← Attribute n e (.nameOf (attrib.getD 0)) none
    if same.isSome then do
      freeAttribute attrib
      pure false
    else do
      match prev with
      | some p => wr (some p) fun p s => { s with next := put s.next p attrib }
      | none => setRoot e attrib
      ParseAttributes pick n e attrib l

/-- `XMLElement::XMLElement` — tinyxml2.cpp:1484-1488; `e` is its place, at which none is -/
def newElement (e : Nat) : M Attrs Unit := M.modify fun s => { s with elem := put s.elem e true, root := put s.root e none }

/-- `XMLElement::~XMLElement`, the loop — tinyxml2.cpp:1491-1498 -/
def destroyLoop (e : Nat) : Nat → M Attrs Unit
  | 0 => M.undef .overflow
  | n + 1 => do
    let r ← rdRoot e
    if r.isSome then do
      let q ← rd Attrs.next r
      freeAttribute r
      setRoot e q
      destroyLoop e n
    else pure ()

/-- the destructor; the place of the element is given back -/
def deleteElement (n e : Nat) : M Attrs Unit := do
  destroyLoop e n
  M.modify fun s => { s with elem := put s.elem e false }

end Verif.Xml.Attr
