import Verif.Model.Xml.Clone
import Verif.Spec.Dom
/-!
# Specification of copies

A tree as it is seen from a node, without the places of the nodes.
-/
namespace Verif.Spec
open Xml.Dom

/-- a tree -/
inductive CTree where
  | node (x : Content) (kids : List CTree)

/-- the tree at a node, to a depth -/
def treeAt (K : Nat → List Nat) (w : Nat → Content) : Nat → Nat → CTree
  | 0, c => .node (w c) []
  | n + 1, c => .node (w c) ((K c).map (treeAt K w n))

/-- two nodes have the same tree below them -/
def SameTree (K : Nat → List Nat) (w : Nat → Content) (c : Nat) (K' : Nat → List Nat) (w' : Nat → Content) (c' : Nat) : Prop :=
  ∀ n, treeAt K w n c = treeAt K' w' n c'

/-- the names of the attributes are different -/
def DistinctNames : Content → Prop
  | .element _ as => (as.map Prod.fst).Nodup
  | _ => True

/-- what the nodes hold is as it should be: documents are documents, and elements have no attribute twice -/
def Sound (F : Forest) (w : Nat → Content) : Prop := ∀ q, F.live q → (w q = .document ↔ F.doc q = q) ∧ DistinctNames (w q)

/-- the nodes there were are as they were -/
def Untouched (F : Forest) (w : Nat → Content) (F' : Forest) (w' : Nat → Content) (q : Nat) : Prop :=
  F'.live q ∧ F'.doc q = F.doc q ∧ F'.K q = F.K q ∧ w' q = w q

/-- What a copy changes: `r` is the copy, in the document `d`.  The nodes there were are as they were; every new node is in that document and below `r`;
no node there was is below a new one; the copy is in no list of children. -/
structure Grown (F : Forest) (w : Nat → Content) (F' : Forest) (w' : Nat → Content) (d r : Nat) : Prop where
  old : ∀ q, F.live q → Untouched F w F' w' q
  fresh : ¬ F.live r
  live : F'.live r
  new : ∀ q, F'.live q → ¬ F.live q → F'.doc q = d ∧ Below F'.K q r
  closed : ∀ q, ¬ F.live q → ∀ x ∈ F'.K q, ¬ F.live x
  top : ∀ p, r ∉ F'.K p
  sound : ∀ q, F'.live q → ¬ F.live q → w' q ≠ .document ∧ DistinctNames (w' q)

/-- what `ShallowEqual` compares: the kind, the name or text, and the values of the attributes in their order -/
inductive Alike : Content → Content → Prop
  | element {n as bs} (h : as.map Prod.snd = bs.map Prod.snd) : Alike (.element n as) (.element n bs)
  | text {c d v} : Alike (.text c v) (.text d v)
  | comment {v} : Alike (.comment v) (.comment v)
  | declaration {v} : Alike (.declaration v) (.declaration v)
  | unknown {v} : Alike (.unknown v) (.unknown v)

/-- the place chosen for a new node is free, if finitely many are in use -/
def NodePlaces (pick : Place) : Prop := ∀ (live : Nat → Bool) (N : Nat), (∀ a, N ≤ a → live a = false) → live (pick live) = false

end Verif.Spec
