import Verif.Spec.Copy
/-!
# Specification vocabulary: copying zones without checks

What becomes of a call whose zones need not meet, and of a copy inside one array.
-/
namespace Verif.Spec
variable {V : Type}

/-- number of indices from the first common one to the last one written; zero or negative if the zones do not meet -/
def CopyDim.span (d : CopyDim) : Int := d.hi - d.lo + d.loc.toNat

/-- Of the dimensions in which the zones do not meet, the first one has a gap between them. -/
def Gap (ds : List CopyDim) : Prop := ∃ pre d post, ds = pre ++ d :: post ∧ (∀ a ∈ pre, 0 < a.span) ∧ d.span < 0

/-- Of the dimensions in which the zones do not meet, in the first one they touch. -/
def Touch (ds : List CopyDim) : Prop := ∃ pre d post, ds = pre ++ d :: post ∧ (∀ a ∈ pre, 0 < a.span) ∧ d.span = 0

/-- somewhere the zones are so far apart that the distance is no `int` -/
def Far (ds : List CopyDim) : Prop := ∃ d ∈ ds, d.hi - d.lo < -2147483648

/-- the order in which nested loops pass the points -/
def Before : List Int → List Int → Prop
  | x :: xs, y :: ys => x < y ∨ (x = y ∧ Before xs ys)
  | _, _ => False

/-- the elements of a component after each point of the list in turn took the value of its source -/
def inTurn (ds : List CopyDim) (f : List Int → Option V) (l : List (List Int)) : List Int → Option V :=
  l.foldl (fun f p ys => if ys = p then f (image ds p) else f ys) f

end Verif.Spec
