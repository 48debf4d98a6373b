import Verif.Spec.Dom
/-!
# How deep nodes stand in each other
-/
namespace Verif.Spec

/-- there are `n` steps from `c` down, each to a child -/
def Deep (K : Nat → List Nat) : Nat → Nat → Prop
  | 0, _ => True
  | n + 1, c => ∃ x ∈ K c, Deep K n x

/-- no node of the document `d` but the document itself has `n` steps below it -/
def Shallow (F : Forest) (n d : Nat) : Prop := ∀ q, F.live q → q ≠ d → F.doc q = d → ¬ Deep F.K n q

end Verif.Spec
