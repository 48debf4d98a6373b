import Verif.Spec.XmlAgain
/-!
# What saving with indentation does to the texts outside of the elements

Nothing of the reader or the printer is used here.
-/
namespace Verif.Spec
open Tec Xml

/-- a newline, or nothing -/
def nl (b : Bool) : Str := if b then lit "\n" else []

/-- texts, also those in CDATA -/
def isChars : Node → Bool
  | .text .. => true
  | _ => false

/-- what is printed before these nodes: a newline if there was already a node that is no text and the next one is none -/
def brk (first : Bool) : List Node → Str
  | [] => []
  | x :: _ => nl (!first && !isChars x)

/-- the nodes of a document, of which some are left.  `first`: there were only texts so far.  `behind`: the last one was an element. -/
def topAll (first behind : Bool) : List Node → List Node
  | [] => []
  | .text false v :: l => .text false (nl behind ++ v ++ brk first l) :: topAll first false l
  | .text true v :: l => .text true v :: topAll first false l
  | .elem n as cs :: l => indent 4 0 (.elem n as cs) :: topAll false true l
  | .comment v :: l => .comment v :: topAll false false l
  | .decl v :: l => .decl v :: topAll false false l
  | .unknown v :: l => .unknown v :: topAll false false l

/-- what a document needs in order to be the same when it is saved with indentation, with a byte order mark or without, and loaded again -/
structure StaysIndented (bom : Bool) (l : List Node) : Prop where
  /-- it is the same when it is saved compactly -/
  stays : Stays bom l
  /-- in no element is a text directly before an element -/
  inside : ∀ x ∈ l, Apart x
  /-- no text is directly behind an element, and a text is directly before a text in CDATA if not all nodes before it are texts -/
  outside : ∀ a v b, l = a ++ .text false v :: b → (∀ x ∈ a.getLast?, isElem x = false) ∧ ((∀ x ∈ a, isChars x = true) ∨ ∀ y ∈ b.head?, isChars y = true)

end Verif.Spec
