import Verif.Model.Puts
import Verif.Spec.Program
import Verif.Spec.Loops
/-!
# Specification: which assignment a point gets its number from
-/
namespace Verif.Spec
variable {V : Type}

/-- index `y` is one an assignment reaches in a dimension, with flag `f`: the loop goes there, or it is the last one -/
def hits1 (e : Ext) (far : Bool) (f : FL) (y : Int) : Prop :=
  if far then y = e.i + e.p - 1 + f.offset ∧ 0 < e.n + e.i + e.p else -(e.n : Int) + f.offset ≤ y ∧ y < e.i + e.p + f.offset

instance (e : Ext) (far : Bool) (f : FL) (y : Int) : Decidable (hits1 e far f y) := by unfold hits1; infer_instance

/-- the stored point is one the assignment is to, at some point of the loop -/
def hits : List Ext → List Bool → List FL → List Int → Prop
  | [], [], [], [] => True
  | e :: es, b :: bs, f :: fs, y :: ys => hits1 e b f y ∧ hits es bs fs ys
  | _, _, _, _ => False

instance hitsDec : (es : List Ext) → (bs : List Bool) → (fs : List FL) → (ys : List Int) → Decidable (hits es bs fs ys)
  | [], [], [], [] => .isTrue trivial
  | e :: es, b :: bs, f :: fs, y :: ys => by
    have := hitsDec es bs fs ys
    unfold hits; infer_instance
  | [], [], [], _ :: _ | [], [], _ :: _, _ | [], _ :: _, _, _ | _ :: _, [], _, _ | _ :: _, _ :: _, [], _ | _ :: _, _ :: _, _ :: _, [] => .isFalse (by simp [hits])

/-- the last point of the loop at which the assignment is to the stored point -/
def lastIter : List Ext → List Bool → List FL → List Int → List Int
  | e :: es, b :: bs, f :: fs, y :: ys => (if b then e.i + e.p - 1 else y - f.offset) :: lastIter es bs fs ys
  | _, _, _, _ => []

/-- the assignment reaches the stored point -/
def _root_.Verif.Put.Hits (es : List Ext) (p : Put V) (ys : List Int) : Prop := hits es p.far p.fs ys

/-- and last at this point of the loop -/
def _root_.Verif.Put.lastAt (es : List Ext) (p : Put V) (ys : List Int) : List Int := lastIter es p.far p.fs ys

/-- the body is `l`, then the assignment `p`, then `l'`, and `p` is the last one that reaches the stored point: at a point of the loop before which, or in
`l` at which, all others do so for the last time -/
def Wins (es : List Ext) (l : List (Put V)) (p : Put V) (l' : List (Put V)) (ys : List Int) : Prop :=
  p.Hits es ys ∧ (∀ q ∈ l, q.Hits es ys → List.Lex intLt (q.lastAt es ys) (p.lastAt es ys) ∨ q.lastAt es ys = p.lastAt es ys) ∧
  ∀ q ∈ l', q.Hits es ys → List.Lex intLt (q.lastAt es ys) (p.lastAt es ys)

end Verif.Spec
