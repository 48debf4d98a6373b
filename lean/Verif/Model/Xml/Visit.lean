import Verif.Model.Xml.Dom
/-!
# Visitors of the tree of nodes

`Accept` of documents, elements and the other nodes, on the links of the nodes.  A visitor is given by its answers: what a callback answers may depend on the
calls it got before, in other words on anything the visitor remembers of them.  Simplifications: the callbacks leave the document as it is ("You should never
change the document from a callback", tinyxml2.h:462) and do not throw; which nodes are documents or elements is given from outside, by the number of the node.
-/
namespace Verif.Xml.Dom

/-- the calls of a visitor — tinyxml2.h:474-506 -/
inductive Call where
  /-- `VisitEnter` of a document or an element -/
  | enter (c : Nat)
  /-- `VisitExit` of a document or an element -/
  | exit (c : Nat)
  /-- `Visit` of a declaration, a text, a comment or an unknown -/
  | visit (c : Nat)
  deriving DecidableEq, Repr

/-- the answer of a visitor to a call, after the calls before it -/
abbrev Visitor := List Call → Call → Bool

/-- the default implementations — tinyxml2.h:474-506 -/
def defaultVisitor : Visitor := fun _ _ => true

/-- the nodes and the calls made so far -/
structure Tour where
  dom : Dom
  log : List Call

/-- `visitor->VisitEnter(*this)` and so on -/
def tell (ans : Visitor) (k : Call) : M Tour Bool := fun t => .ok (ans t.log k) { t with log := t.log ++ [k] }

/-- a field of `*p` is read -/
def look {α : Type} (field : Dom → Nat → α) (p : P) : M Tour α := fun t =>
  match rd field p t.dom with
  | .ok a s => .ok a { t with dom := s }
  | .err e s => .err e { t with dom := s }
  | .ub u => .ub u

mutual
/-- `Accept`: of documents tinyxml2.cpp:726-737, elements 1952-1963 (`inner`); of texts 1179-1183, comments 1227-1231, declarations 1277-1281, unknowns
1324-1328.  The call is virtual: it reads the node.  The first argument bounds the depth of the calls and the passes of the loops; if it does not suffice the
outcome is undefined. -/
def Accept (inner : Nat → Bool) (ans : Visitor) : Nat → Nat → M Tour Bool
  | 0, _ => M.undef .overflow
  | k + 1, c => do
    let _ ← look Dom.doc (some c)
    if inner c then do
      let b ← tell ans (.enter c)
      if b then do
        let f ← look Dom.first (some c)
        acceptRow inner ans k f
      else pure ()
      tell ans (.exit c)
    else tell ans (.visit c)

/-- the loop of `Accept` — tinyxml2.cpp:730-734, 1956-1960 -/
def acceptRow (inner : Nat → Bool) (ans : Visitor) : Nat → P → M Tour Unit
  | 0, _ => M.undef .overflow
  | _ + 1, none => pure ()
  | k + 1, some c => do
    let b ← Accept inner ans k c
    if b then do
      let n ← look Dom.next (some c)
      acceptRow inner ans k n
    else pure ()
end

end Verif.Xml.Dom
