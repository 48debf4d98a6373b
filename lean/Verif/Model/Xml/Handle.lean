import Verif.Model.Xml.Dom
/-!
# `XMLHandle` and `XMLConstHandle` — tinyxml2.h:1953-2102

Both classes wrap a pointer to a node and test it before each step.  Simplifications: those of `Verif.Model.Xml.Dom`; the functions `To...` answer whether the
node is of a kind, which is given from outside, as the names are.
-/
namespace Verif.Xml.Dom

/-- a step of a handle; `isIt` is `ToElementWithName`, or `ToElement`, `ToText`, `ToUnknown`, `ToDeclaration` -/
inductive Step where
  | firstChild | lastChild | nextSibling | previousSibling
  | firstChildElement (isIt : Nat → Bool) | lastChildElement (isIt : Nat → Bool)
  | nextSiblingElement (isIt : Nat → Bool) | previousSiblingElement (isIt : Nat → Bool)
  | toKind (isIt : Nat → Bool)

/-- the step from a node: the member of `XMLNode` — tinyxml2.h:674-760, tinyxml2.cpp:940-985; `n` bounds the passes of the loops -/
def Step.node (n : Nat) (c : Nat) : Step → M Dom P
  | .firstChild => rd Dom.first (some c)
  | .lastChild => rd Dom.last (some c)
  | .nextSibling => rd Dom.next (some c)
  | .previousSibling => rd Dom.prev (some c)
  | .firstChildElement isIt => FirstChildElement n isIt c
  | .lastChildElement isIt => LastChildElement n isIt c
  | .nextSiblingElement isIt => NextSiblingElement n isIt c
  | .previousSiblingElement isIt => PreviousSiblingElement n isIt c
  | .toKind isIt => do
    let _ ← rd Dom.doc (some c)
    pure (if isIt c then some c else none)

/-- `XMLHandle( _node ? _node->... : 0 )` — tinyxml2.h:1972-2022 -/
def Step.handle (n : Nat) (p : P) (st : Step) : M Dom P :=
  match p with
  | none => pure none
  | some c => st.node n c

/-- `XMLHandle( p ).FirstChild().NextSibling()...` -/
def handleChain (n : Nat) : List Step → P → M Dom P
  | [], p => pure p
  | st :: l, p => do
    let q ← st.handle n p
    handleChain n l q

/-- `p->FirstChild()->NextSibling()...`: the same without a test of the pointers -/
def plainChain (n : Nat) : List Step → P → M Dom P
  | [], p => pure p
  | st :: l, p => do
    let c ← fun s => match p with
      | none => .ub .null
      | some c => .ok c s
    let q ← st.node n c
    plainChain n l q

end Verif.Xml.Dom
