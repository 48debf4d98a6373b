import Verif.Spec.Client
/-!
# Specification vocabulary: the explicit scheme for the heat equation
-/
namespace Verif.Spec
variable {V : Type}

/-- the index reflected at the first and last of `N` points -/
def reflect (N : Nat) (i : Int) : Int := if i < 0 then -i else if (N : Int) ≤ i then 2 * (N - 1) - i else i

/-- one step of the explicit scheme on `N` points with reflecting ends -/
def heatStep [Add V] [Sub V] [Mul V] [OfNat V 2] (N : Nat) (a dt : V) (U : Int → V) : Int → V :=
  fun i => U i + dt * (a * (U (reflect N (i - 1)) - 2 * U i + U (reflect N (i + 1))))

/-- `m` steps -/
def heatSteps [Add V] [Sub V] [Mul V] [OfNat V 2] (N : Nat) (a dt : V) : Nat → (Int → V) → Int → V
  | 0, U => U
  | m + 1, U => heatSteps N a dt m (heatStep N a dt U)

/-- numbers on `Nx × Ny` points, continued oddly beyond the ends of the first direction -/
def oddX [Neg V] (Nx : Nat) (U : Int → Int → V) (i j : Int) : V :=
  if i < 0 ∨ (Nx : Int) ≤ i then -(U (reflect Nx i) j) else U i j

/-- one step of the explicit scheme in two directions: odd at the ends of the first, reflecting at those of the second -/
def heatStep2 [Add V] [Sub V] [Mul V] [Neg V] [OfNat V 2] (Nx Ny : Nat) (ax ay dt : V) (U : Int → Int → V) : Int → Int → V :=
  fun i j => U i j + dt * (ax * (oddX Nx U (i - 1) j - 2 * U i j + oddX Nx U (i + 1) j) +
    ay * (U i (reflect Ny (j - 1)) - 2 * U i j + U i (reflect Ny (j + 1))))

/-- `m` steps -/
def heatSteps2 [Add V] [Sub V] [Mul V] [Neg V] [OfNat V 2] (Nx Ny : Nat) (ax ay dt : V) : Nat → (Int → Int → V) → Int → Int → V
  | 0, U => U
  | m + 1, U => heatSteps2 Nx Ny ax ay dt m (heatStep2 Nx Ny ax ay dt U)

end Verif.Spec
