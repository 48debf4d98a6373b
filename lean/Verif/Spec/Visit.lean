import Verif.Spec.Dom
import Verif.Model.Xml.Visit
/-!
# Specification of a tour of a visitor

Over the lists of children.  Which call follows a call depends on the answer to it alone.
-/
namespace Verif.Spec
open Xml.Dom

mutual
/-- after the calls `h`, the visit of `c` makes the calls `l` and answers `b` -/
inductive Visits (K : Nat → List Nat) (inner : Nat → Bool) (ans : Visitor) : List Call → Nat → List Call → Bool → Prop where
  | leaf {h : List Call} {c : Nat} (i : inner c = false) : Visits K inner ans h c [.visit c] (ans h (.visit c))
  | skip {h : List Call} {c : Nat} (i : inner c = true) (a : ans h (.enter c) = false) :
      Visits K inner ans h c [.enter c, .exit c] (ans (h ++ [.enter c]) (.exit c))
  | inside {h l : List Call} {c : Nat} (i : inner c = true) (a : ans h (.enter c) = true) (r : Row K inner ans (h ++ [.enter c]) (K c) l) :
      Visits K inner ans h c (.enter c :: (l ++ [.exit c])) (ans (h ++ .enter c :: l) (.exit c))

/-- after the calls `h`, the visits of the siblings `cs` make the calls `l`; the first one that answers `false` is the last one -/
inductive Row (K : Nat → List Nat) (inner : Nat → Bool) (ans : Visitor) : List Call → List Nat → List Call → Prop where
  | nil {h : List Call} : Row K inner ans h [] []
  | stop {h l : List Call} {c : Nat} {cs : List Nat} (v : Visits K inner ans h c l false) : Row K inner ans h (c :: cs) l
  | cons {h l m : List Call} {c : Nat} {cs : List Nat} (v : Visits K inner ans h c l true) (r : Row K inner ans (h ++ l) cs m) :
      Row K inner ans h (c :: cs) (l ++ m)
end

/-- the first call of the visit of a node -/
def opening (inner : Nat → Bool) (c : Nat) : Call := if inner c then .enter c else .visit c

/-- the last call of the visit of a node -/
def closing (inner : Nat → Bool) (c : Nat) : Call := if inner c then .exit c else .visit c

/-- the call behind a call that was answered -/
inductive Follow (K : Nat → List Nat) (inner : Nat → Bool) : Call → Bool → Call → Prop where
  | down {p c : Nat} {r : List Nat} (e : K p = c :: r) : Follow K inner (.enter p) true (opening inner c)
  | empty {p : Nat} (e : K p = []) : Follow K inner (.enter p) true (.exit p)
  | skip {p : Nat} : Follow K inner (.enter p) false (.exit p)
  | next {p c d : Nat} {l r : List Nat} (e : K p = l ++ c :: d :: r) : Follow K inner (closing inner c) true (opening inner d)
  | up {p c : Nat} {l : List Nat} (e : K p = l ++ [c]) : Follow K inner (closing inner c) true (.exit p)
  | stop {p c : Nat} (e : c ∈ K p) : Follow K inner (closing inner c) false (.exit p)

/-- every call is followed as it has to be -/
def Following (K : Nat → List Nat) (inner : Nat → Bool) (ans : Visitor) (h l : List Call) : Prop :=
  ∀ l1 x y l2, l = l1 ++ x :: y :: l2 → Follow K inner x (ans (h ++ l1) x) y

/-- every `VisitEnter` has its `VisitExit` behind it, pair inside pair -/
inductive Paired : List Call → Prop where
  | nil : Paired []
  | visit (c : Nat) {l : List Call} : Paired l → Paired (.visit c :: l)
  | pair (c : Nat) {l m : List Call} : Paired l → Paired m → Paired (.enter c :: l ++ .exit c :: m)

/-- `d` is `c` or below it, under documents and elements only -/
def Toured (K : Nat → List Nat) (inner : Nat → Bool) (d c : Nat) : Prop :=
  Relation.ReflTransGen (fun x p => x ∈ K p ∧ inner p = true) d c

/-- the node of a call -/
def nodeOf : Call → Nat
  | .enter c => c
  | .exit c => c
  | .visit c => c

end Verif.Spec
