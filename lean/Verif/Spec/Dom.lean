import Verif.Model.Xml.Dom
import Mathlib.Logic.Relation
/-!
# Specification of the tree of nodes

The children of every node as a list, and what the links of the nodes have to be.
-/
namespace Verif.Spec
open Xml.Dom

/-- the element before `c` in a list -/
def before (c : Nat) : List Nat → Option Nat
  | x :: y :: r => if y = c then some x else before c (y :: r)
  | _ => none

/-- the element behind `c` in a list -/
def behind (c : Nat) : List Nat → Option Nat
  | x :: y :: r => if x = c then some y else behind c (y :: r)
  | _ => none

/-- The links show the lists `K` of children.  The nodes in `_unlinked` of a document are, each once, its nodes without a parent. -/
structure Links (s : Dom) (K : Nat → List Nat) : Prop where
  nodup : ∀ p, (K p).Nodup
  gone : ∀ p, s.live p = false → K p = []
  ends : ∀ p, s.live p = true → s.first p = (K p).head? ∧ s.last p = (K p).getLast?
  kid : ∀ p c, c ∈ K p → s.live c = true ∧ s.parent c = some p ∧ s.prev c = before c (K p) ∧ s.next c = behind c (K p) ∧
    s.doc c = s.doc p ∧ s.doc c ≠ c
  top : ∀ c, s.live c = true → s.parent c = none → s.prev c = none ∧ s.next c = none
  child : ∀ c p, s.live c = true → s.parent c = some p → c ∈ K p
  own : ∀ c, s.live c = true → s.live (s.doc c) = true ∧ s.doc (s.doc c) = s.doc c
  loose : ∀ d, s.live d = true → s.doc d = d → (s.unlinked d).Nodup ∧
    ∀ u, u ∈ s.unlinked d ↔ s.live u = true ∧ u ≠ d ∧ s.doc u = d ∧ s.parent u = none

/-- `a` inserted behind `x` -/
def insBehind (x a : Nat) : List Nat → List Nat
  | [] => []
  | y :: ys => if y = x then y :: a :: ys else y :: insBehind x a ys

/-- `a` taken from where it is; the list of `p` becomes `f` of what remains -/
def moved (K : Nat → List Nat) (a p : Nat) (f : List Nat → List Nat) (q : Nat) : List Nat :=
  if q = p then f ((K q).erase a) else (K q).erase a

/-- `q` is below `a`, or `a` itself -/
def Below (K : Nat → List Nat) (q a : Nat) : Prop := Relation.ReflTransGen (fun c p => c ∈ K p) q a

open Classical in
/-- the lists without the nodes of `D` -/
noncomputable def pruned (K : Nat → List Nat) (D : Nat → Prop) (q : Nat) : List Nat :=
  if D q then [] else (K q).filter (fun c => ¬ D c)

/-- no node is below itself -/
def Acyclic (K : Nat → List Nat) : Prop := ∀ c, ¬ Relation.TransGen (fun c p => c ∈ K p) c c

end Verif.Spec

namespace Verif.Spec
open Xml.Dom

/-- what there is: the nodes, their documents, the lists of children -/
structure Forest where
  live : Nat → Prop
  doc : Nat → Nat
  K : Nat → List Nat

/-- there is nothing -/
def Forest.empty : Forest := ⟨fun _ => False, fun _ => 0, fun _ => []⟩

/-- without the nodes of `D` -/
noncomputable def Forest.remove (F : Forest) (D : Nat → Prop) : Forest := ⟨fun q => F.live q ∧ ¬ D q, F.doc, pruned F.K D⟩

/-- the calls -/
inductive DOp where
  | newDocument (c : Nat)
  | newNode (d c : Nat)
  | insertEnd (p a : Nat)
  | insertFirst (p a : Nat)
  | insertAfter (p x a : Nat)
  | deleteChildren (p : Nat)
  | deleteChild (p a : Nat)
  | deleteNode (a : Nat)
  | clear (d : Nat)
  | deleteDocument (d : Nat)

/-- The calls a program may make: with pointers to nodes there are; no document is inserted, and no node into itself or a node below it; the last child is not
inserted behind the one before it. -/
def DOp.may (F : Forest) : DOp → Prop
  | .newDocument c => ¬ F.live c
  | .newNode d c => F.live d ∧ F.doc d = d ∧ ¬ F.live c
  | .insertEnd p a => F.live p ∧ F.live a ∧ (F.doc a = F.doc p → F.doc a ≠ a ∧ ¬ Below F.K p a)
  | .insertFirst p a => F.live p ∧ F.live a ∧ (F.doc a = F.doc p → F.doc a ≠ a ∧ ¬ Below F.K p a)
  | .insertAfter p x a => F.live p ∧ F.live a ∧ F.live x ∧
      (F.doc a = F.doc p → x ∈ F.K p → x ≠ a → F.doc a ≠ a ∧ ¬ Below F.K p a ∧ ¬ ∃ pre, F.K p = pre ++ [x, a])
  | .deleteChildren p => F.live p
  | .deleteChild p a => a ∈ F.K p
  | .deleteNode a => F.live a ∧ F.doc a ≠ a
  | .clear d => F.live d ∧ F.doc d = d
  | .deleteDocument d => F.live d ∧ F.doc d = d

open Classical in
/-- what the call changes, and the pointer it returns (null from those that return none) -/
noncomputable def DOp.step (F : Forest) : DOp → Forest × P
  | .newDocument c => (⟨fun q => F.live q ∨ q = c, put F.doc c c, F.K⟩, none)
  | .newNode d c => (⟨fun q => F.live q ∨ q = c, put F.doc c d, F.K⟩, none)
  | .insertEnd p a => if F.doc a = F.doc p then ({ F with K := moved F.K a p (· ++ [a]) }, some a) else (F, none)
  | .insertFirst p a => if F.doc a = F.doc p then ({ F with K := moved F.K a p (a :: ·) }, some a) else (F, none)
  | .insertAfter p x a =>
    if F.doc a = F.doc p ∧ x ∈ F.K p then
      if x = a then (F, some a) else ({ F with K := moved F.K a p (insBehind x a) }, some a)
    else (F, none)
  | .deleteChildren p => (F.remove fun q => ∃ a ∈ F.K p, Below F.K q a, none)
  | .deleteChild _ a => (F.remove fun q => Below F.K q a, none)
  | .deleteNode a => (F.remove fun q => Below F.K q a, none)
  | .clear d => (F.remove fun q => F.doc q = d ∧ q ≠ d, none)
  | .deleteDocument d => (F.remove fun q => F.doc q = d, none)

/-- the call of the program; `k` bounds the depth of calls and the passes of loops -/
def DOp.exec (k : Nat) : DOp → M Dom P
  | .newDocument c => do Xml.Dom.newDocument c; pure none
  | .newNode d c => do Xml.Dom.newNode d c; pure none
  | .insertEnd p a => InsertEndChild p a
  | .insertFirst p a => InsertFirstChild p a
  | .insertAfter p x a => InsertAfterChild p x a
  | .deleteChildren p => do DeleteChildren k p; pure none
  | .deleteChild p a => do DeleteChild k p (some a); pure none
  | .deleteNode a => do docDeleteNode k a; pure none
  | .clear d => do Clear k d; pure none
  | .deleteDocument d => do Xml.Dom.deleteDocument k d; pure none

/-- the state is the forest -/
structure Is (s : Dom) (F : Forest) : Prop where
  shows : Links s F.K
  live : ∀ q, s.live q = true ↔ F.live q
  doc : s.doc = F.doc
  acyclic : Acyclic F.K
  few : ∃ N, ∀ c, F.live c → c < N

/-- a sequence of calls, each of which the program may make -/
inductive Calls : Forest → List DOp → Forest → Prop where
  | nil {F : Forest} : Calls F [] F
  | cons {F F' : Forest} {op : DOp} {ops : List DOp} (may : op.may F) (rest : Calls (op.step F).1 ops F') : Calls F (op :: ops) F'

/-- the program makes the calls -/
def execAll (k : Nat) : List DOp → M Dom Unit
  | [] => pure ()
  | op :: ops => do
    let _ ← op.exec k
    execAll k ops

/-- no node, no document -/
def nothing : Dom := ⟨fun _ => false, fun _ => 0, fun _ => none, fun _ => none, fun _ => none, fun _ => none, fun _ => none, fun _ => []⟩

end Verif.Spec
