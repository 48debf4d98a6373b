import Verif.Model.Xml.Handle
import Verif.Spec.Dom
/-!
# Specification: where the steps of a handle lead
-/
namespace Verif.Spec
open Xml.Dom

/-- a step from node `c` to `q`, or to nothing, where `K` are the lists of children -/
inductive Leads (K : Nat → List Nat) (c : Nat) : Step → Option Nat → Prop
  | firstChild : Leads K c .firstChild (K c).head?
  | lastChild : Leads K c .lastChild (K c).getLast?
  | firstChildElement (isIt : Nat → Bool) : Leads K c (.firstChildElement isIt) ((K c).find? isIt)
  | lastChildElement (isIt : Nat → Bool) : Leads K c (.lastChildElement isIt) ((K c).reverse.find? isIt)
  | nextSibling {p : Nat} {l r : List Nat} : K p = l ++ c :: r → Leads K c .nextSibling r.head?
  | previousSibling {p : Nat} {l r : List Nat} : K p = l ++ c :: r → Leads K c .previousSibling l.getLast?
  | nextSiblingElement {p : Nat} {l r : List Nat} (isIt : Nat → Bool) : K p = l ++ c :: r → Leads K c (.nextSiblingElement isIt) (r.find? isIt)
  | previousSiblingElement {p : Nat} {l r : List Nat} (isIt : Nat → Bool) : K p = l ++ c :: r →
    Leads K c (.previousSiblingElement isIt) (l.reverse.find? isIt)
  | alone {st : Step} : (∀ p, c ∉ K p) → (st = .nextSibling ∨ st = .previousSibling ∨ (∃ i, st = .nextSiblingElement i) ∨ ∃ i, st = .previousSiblingElement i) →
    Leads K c st none
  | toKind (isIt : Nat → Bool) : Leads K c (.toKind isIt) (if isIt c then some c else none)

/-- a chain of steps; from nothing every step leads to nothing -/
inductive Path (K : Nat → List Nat) : List Step → Option Nat → Option Nat → Prop
  | done (p : Option Nat) : Path K [] p p
  | nothing {st : Step} {l : List Step} {q : Option Nat} : Path K l none q → Path K (st :: l) none q
  | step {st : Step} {l : List Step} {c : Nat} {r q : Option Nat} : Leads K c st r → Path K l r q → Path K (st :: l) (some c) q

end Verif.Spec
