import Verif.Model.Xml.Attr
import Mathlib.Data.List.Forall2
/-!
# Specification of the attributes of elements

An element has a list of attributes with different names.  A call changes the list of one element.
-/
namespace Verif.Spec
open Xml.Attr (Str CStr)

/-- an attribute: its name, its value, and whether its text was set by a call (not loaded) -/
structure Att where
  name : Str
  value : Str
  set : Bool
  deriving DecidableEq

/-- the attributes of the elements there are -/
abbrev Elems := Nat → Option (List Att)

/-- there is no element -/
def noElems : Elems := fun _ => none

/-- `A` with the list `l` at `e` -/
def Elems.upd (A : Elems) (e : Nat) (l : Option (List Att)) : Elems := fun q => if q = e then l else A q

/-- the attribute with the name -/
def lookup (n : Str) : List Att → Option Att
  | [] => none
  | a :: l => if a.name = n then some a else lookup n l

/-- the value of the attribute with the name is `v` now; a new one is the last -/
def assign (n v : Str) : List Att → List Att
  | [] => [⟨n, v, true⟩]
  | a :: l => if a.name = n then ⟨n, v, true⟩ :: l else a :: assign n v l

/-- without the attribute with the name -/
def without (n : Str) (l : List Att) : List Att := l.filter (fun a => a.name ≠ n)

/-- a text in a call: the program's own, or the name or value of the attribute `n` of `e` as `FindAttribute` shows it -/
inductive Src where
  | own (t : Str)
  | name (e : Nat) (n : Str)
  | value (e : Nat) (n : Str)

/-- the text -/
def Src.get (A : Elems) : Src → Option Str
  | .own t => some t
  | .name e n => ((A e).bind (lookup n)).map (·.name)
  | .value e n => ((A e).bind (lookup n)).map (·.value)

/-- the value of the attribute `n` of `e`, set by a call -/
def Src.isValueOf (A : Elems) (e : Nat) (n : Str) (v : Src) : Prop := ∃ a, v = .value e n ∧ (A e).bind (lookup n) = some a ∧ a.set = true

/-- attributes in the text of an element; only those before the first repetition of a name are taken -/
def taken : List Att → List (Str × Str) → List Att × Bool
  | l, [] => (l, true)
  | l, (n, v) :: r => if (lookup n l).isSome then (l, false) else taken (l ++ [⟨n, v, false⟩]) r

/-- the calls -/
inductive AOp where
  | newElement (e : Nat)
  | parse (e : Nat) (l : List (Str × Str))
  | set (e : Nat) (name value : Src)
  | delete (e : Nat) (name : Src)
  | deleteElement (e : Nat)

/-- The calls a program may make: of elements there are, with texts there are; the value of an attribute set by a call is not assigned to itself;
attributes are parsed into an element without attributes. -/
def AOp.may (A : Elems) : AOp → Prop
  | .newElement e => A e = none
  | .parse e _ => A e = some []
  | .set e n v => ∃ l t u, A e = some l ∧ n.get A = some t ∧ v.get A = some u ∧ ¬ v.isValueOf A e t
  | .delete e n => ∃ l t, A e = some l ∧ n.get A = some t
  | .deleteElement e => ∃ l, A e = some l

/-- what the call changes -/
def AOp.step (A : Elems) : AOp → Elems
  | .newElement e => A.upd e (some [])
  | .parse e l => A.upd e (some (taken [] l).1)
  | .set e n v =>
    match A e, n.get A, v.get A with
    | some l, some t, some u => A.upd e (some (assign t u l))
    | _, _, _ => A
  | .delete e n =>
    match A e, n.get A with
    | some l, some t => A.upd e (some (without t l))
    | _, _ => A
  | .deleteElement e => A.upd e none

/-- a sequence of calls, each of which the program may make -/
inductive ACalls : Elems → List AOp → Elems → Prop where
  | nil {A : Elems} : ACalls A [] A
  | cons {A A' : Elems} {op : AOp} {ops : List AOp} (may : op.may A) (rest : ACalls (op.step A) ops A') : ACalls A (op :: ops) A'

end Verif.Spec

namespace Verif.Spec
open Xml.Attr

/-- the place chosen for a new attribute is free, if finitely many are in use -/
def Picks (pick : Pick) : Prop := ∀ (live : Nat → Bool) (N : Nat), (∀ a, N ≤ a → live a = false) → live (pick live) = false

/-- the pointer for a text: `e->FindAttribute(n)->Name()` and `->Value()` -/
def Src.ptr (k : Nat) : Src → M Attrs CStr
  | .own t => pure (.text t)
  | .name e n => do
    let a ← FindAttribute k e (.text n)
    match a with
    | some a => pure (.nameOf a)
    | none => M.undef .null
  | .value e n => do
    let a ← FindAttribute k e (.text n)
    match a with
    | some a => pure (.valueOf a)
    | none => M.undef .null

/-- the call of the program; `k` bounds the passes of loops -/
def AOp.exec (pick : Pick) (k : Nat) : AOp → M Attrs Unit
  | .newElement e => Xml.Attr.newElement e
  | .parse e l => do let _ ← ParseAttributes pick k e none l; pure ()
  | .set e n v => do
    let n ← n.ptr k
    let v ← v.ptr k
    SetAttribute pick k e n v
  | .delete e n => do
    let n ← n.ptr k
    DeleteAttribute k e n
  | .deleteElement e => Xml.Attr.deleteElement k e

/-- the attribute at a place -/
def Rec (s : Attrs) (a : Nat) (x : Att) : Prop := s.live a = true ∧ s.name a = x.name ∧ s.value a = some x.value ∧ s.owned a = x.set

/-- the attributes at `p` and behind it, at the places `as` -/
def Linked (s : Attrs) : P → List Nat → Prop
  | none, [] => True
  | some a, b :: l => a = b ∧ s.live a = true ∧ Linked s (s.next a) l
  | _, _ => False

/-- The state shows the lists: `L` are the places of the attributes of each element. -/
structure AShows (s : Attrs) (A : Elems) (L : Nat → List Nat) : Prop where
  elem : ∀ e, s.elem e = (A e).isSome
  gone : ∀ e, A e = none → L e = []
  linked : ∀ e, s.elem e = true → Linked s (s.root e) (L e)
  content : ∀ e l, A e = some l → List.Forall₂ (Rec s) (L e) l
  names : ∀ e l, A e = some l → (l.map Att.name).Nodup
  nodup : ∀ e, (L e).Nodup
  apart : ∀ e e' a, a ∈ L e → a ∈ L e' → e = e'
  used : ∀ a, s.live a = true → ∃ e, a ∈ L e
  few : ∃ N, ∀ a, N ≤ a → s.live a = false

/-- the program makes the calls -/
def aExecAll (pick : Pick) (k : Nat) : List AOp → M Attrs Unit
  | [] => pure ()
  | op :: ops => do
    op.exec pick k
    aExecAll pick k ops

/-- no element, no attribute -/
def noAttrs : Attrs := ⟨fun _ => false, fun _ => none, fun _ => false, fun _ => [], fun _ => none, fun _ => false, fun _ => none⟩

end Verif.Spec
