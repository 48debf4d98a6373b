import Verif.Model.Pointwise
import Verif.Spec.Client
/-!
# Specification: loop bodies that work point by point
-/
namespace Verif.Spec
variable {V : Type}

/-- the numbers at one point: array, component -/
abbrev Env1 (V : Type) := Nat → Nat → Option V

/-- the number an expression denotes at the point `xs` -/
def PExpr.val (xs : List Int) (env : Env1 V) : PExpr V → Option V
  | .num v => some v
  | .conv d f => some (f (xs.getD d 0))
  | .elem y n => env y n
  | .un f a => (PExpr.val xs env a).map f
  | .bin f a b =>
    match PExpr.val xs env a, PExpr.val xs env b with
    | some v, some w => some (f v w)
    | _, _ => none

/-- one number set -/
def Env1.set (env : Env1 V) (x n : Nat) (v : V) : Env1 V := fun y m => if y = x ∧ m = n then some v else env y m

/-- the numbers at the point after the assignments -/
def pointRun (xs : List Int) : List (PAssign V) → Env1 V → Option (Env1 V)
  | [], env => some env
  | a :: rest, env =>
    match PExpr.val xs env a.rhs with
    | some v => pointRun xs rest (env.set a.x a.n v)
    | none => none

/-- the components an expression, a body names -/
def PExpr.comps : PExpr V → List (Nat × Nat)
  | .num _ => []
  | .conv _ _ => []
  | .elem y n => [(y, n)]
  | .un _ a => PExpr.comps a
  | .bin _ a b => PExpr.comps a ++ PExpr.comps b

def bodyComps (body : List (PAssign V)) : List (Nat × Nat) := body.flatMap fun a => (a.x, a.n) :: PExpr.comps a.rhs

/-- the loop indices named exist -/
def PExpr.Idx (D : Nat) : PExpr V → Prop
  | .num _ => True
  | .conv d _ => d < D
  | .elem _ _ => True
  | .un _ a => PExpr.Idx D a
  | .bin _ a b => PExpr.Idx D a ∧ PExpr.Idx D b

/-- component `n` of the array `y`, without half-located dimensions, has all the points -/
def Covers (aw : AWorld V) (P : List Int → Prop) (y n : Nat) : Prop :=
  ∃ k es val, aw.arr y = some (k, .ready es val) ∧ (∀ l ∈ k.locs, l = .center) ∧ n < k.N ∧ ∀ xs, P xs → HasPt (mkShape es k.locs) xs

end Verif.Spec
