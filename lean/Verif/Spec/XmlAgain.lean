import Verif.Spec.XmlDoc
/-!
# What is left of a document that is saved and loaded again

Nothing of the reader or the printer is used here.
-/
namespace Verif.Spec
open Tec Xml

instance (s : Str) : Decidable (Blank s) := by unfold Blank; infer_instance

/-- a text between elements that is nothing but white space -/
def isBlank : Node → Bool
  | .text false v => decide (Blank v)
  | _ => false

mutual

/-- every newline in a text or in the value of an attribute is a `\n`; texts of white space are gone -/
def settle : Node → Node
  | .elem n as cs => .elem n (as.map fun a => (a.1, newlines a.2)) (settleAll cs)
  | .text false v => .text false (newlines v)
  | .text true v => .text true v
  | .comment v => .comment v
  | .decl v => .decl v
  | .unknown v => .unknown v

/-- the same for nodes one after the other -/
def settleAll : List Node → List Node
  | [] => []
  | x :: l => if isBlank x then settleAll l else settle x :: settleAll l

end

/-- what a document needs in order to be the same when it is saved compactly, with a byte order mark or without, and loaded again -/
structure Stays (bom : Bool) (l : List Node) : Prop where
  /-- no carriage return in a text or in the value of an attribute, no text of white space -/
  tame : TameAll l
  few : l ≠ []
  /-- it does not end with a text -/
  last : LastNode l
  /-- a text at its start does not start with white space or a byte order mark, unless there is a byte order mark before it -/
  start : bom = false → ∀ v, l.head? = some (.text false v) → (∀ b ∈ v.head?, ¬ White b) ∧ ¬ bomText true <+: v

end Verif.Spec
