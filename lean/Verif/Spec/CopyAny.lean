import Verif.Spec.CopyAll
import Verif.Spec.Stray
/-!
# Copies with zones anywhere

What `copy_from` does when the zones need not lie inside the arrays: element by element, by places in the storage.
-/
namespace Verif.Spec
variable {V : Type}

/-- the numbers of the arguments are at most 2^28 in size, which keeps every sum `copy_from` computes from them an `int` -/
def CopyDim.Modest (d : CopyDim) : Prop :=
  ∀ v ∈ [d.R.1, d.R.2, d.r.1, d.r.2, d.I, d.i], -268435456 ≤ v ∧ v ≤ 268435456

instance (d : CopyDim) : Decidable d.Modest := inferInstanceAs (Decidable (∀ v ∈ [_, _, _, _, _, _], _))

/-- each pair of a point and a component in turn: the number at the place of the point becomes the one at the place of its
source; none as soon as one of the two has no place.  `f` are the numbers of the target by place; the source is the same array
(`g = none`) or another one with the numbers `g`. -/
def inTurnAt (tgt src : Nat → List Int → Option Nat) (ds : List CopyDim) (g : Option (Nat → Option V)) :
    (Nat → Option V) → List (List Int × Nat) → Option (Nat → Option V)
  | f, [] => some f
  | f, (ys, n) :: l =>
    match tgt n ys, src n (image ds ys) with
    | some a, some b => inTurnAt tgt src ds g (fun c => if c = a then (g.getD f) b else f c) l
    | _, _ => none

/-- the points in the order of the list, for each point the components in ascending order -/
def perComp (N : Nat) (l : List (List Int)) : List (List Int × Nat) := l.flatMap fun ys => (List.range N).map fun n => (ys, n)

/-- the numbers of an array listed by place -/
def ByPlace (k : Kind) (es : List Ext) (val : Nat → List Int → Option V) (f : Nat → Option V) : Prop :=
  ∀ n < k.N, ∀ ys, HasPt (mkShape es k.locs) ys → f (n * points (mkShape es k.locs) + offset (mkShape es k.locs) ys) = val n ys

end Verif.Spec
