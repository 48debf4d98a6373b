import Verif.Model.Fill
import Verif.Spec.Machine
/-!
# Specification vocabulary: filling virtual points
-/
namespace Verif.Spec

/-- the range tag of the virtual points of one side -/
def sideTag : Side → RA
  | .N => .N
  | .P => .P

/-- the indices lie in the zones of the tags, dimension by dimension -/
def InTags : List Ext → List RA → List Int → Prop
  | [], [], [] => True
  | e :: es, t :: ts, x :: xs => InTag e.n e.i e.p t x ∧ InTags es ts xs
  | _, _, _ => False

/-- The index a virtual point takes its value from.  Mirror: as far inside the boundary point
as `x` is outside.  Periodic: `x` shifted by the distance of the two boundary points. -/
def srcIdx (how : From) (e : Ext) (fl : Side) (x : Int) : Int :=
  match how, fl with
  | .mirror, _ => sideBound e fl + (sideBound e fl - x)
  | .periodic, .N => x + (sideBound e .P - sideBound e .N)
  | .periodic, .P => x - (sideBound e .P - sideBound e .N)

end Verif.Spec
