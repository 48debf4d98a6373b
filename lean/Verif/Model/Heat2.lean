import Verif.Model.Export
import Verif.Model.Tec.File
/-!
# Example_D2_heat.cpp

As `Heat1.lean`.  The unary minus of `double` is an arbitrary function as well.
-/
namespace Verif.Heat2
open Tec
variable {V : Type}

/-- `y(n, i + s, j + t)` -/
def elem (y n : Nat) (s t : Int) : Expr V := .elem y n [.plus 0 s, .plus 1 t] [.C, .C]

/-- `x(n, i, j) = rhs` -/
def set (x n : Nat) (rhs : Expr V) : Assign V := ⟨x, n, [.plus 0 0, .plus 1 0], [.C, .C], rhs⟩

/-- one pass of the `for (;;)` — Example_D2_heat.cpp:88-101 -/
def pass [Add V] [Sub V] [Mul V] [Neg V] [OfNat V 2] (u dudt : Nat) (ax ay dt : V) : List (Loop V) :=
  [⟨u, [.IN, .N], [set u 0 (.elem u 0 [.plus 0 0, .src u .mirror 1 .N 1] [.C, .C])]⟩,
   ⟨u, [.IN, .P], [set u 0 (.elem u 0 [.plus 0 0, .src u .mirror 1 .P 1] [.C, .C])]⟩,
   ⟨u, [.N, .IN], [set u 0 (.un (- ·) (.elem u 0 [.src u .mirror 0 .N 0, .plus 1 0] [.C, .C]))]⟩,
   ⟨u, [.P, .IN], [set u 0 (.un (- ·) (.elem u 0 [.src u .mirror 0 .P 0, .plus 1 0] [.C, .C]))]⟩,
   ⟨dudt, [.IN, .IN], [set dudt 0 (.bin (· * ·) (.num ax)
      (.bin (· + ·) (.bin (· - ·) (elem u 0 (-1) 0) (.bin (· * ·) (.num 2) (elem u 0 0 0))) (elem u 0 1 0)))]⟩,
   ⟨dudt, [.IN, .IN], [set dudt 0 (.bin (· + ·) (elem dudt 0 0 0) (.bin (· * ·) (.num ay)
      (.bin (· + ·) (.bin (· - ·) (elem u 0 0 (-1)) (.bin (· * ·) (.num 2) (elem u 0 0 0))) (elem u 0 0 1))))]⟩,
   ⟨u, [.IN, .IN], [set u 0 (.bin (· + ·) (elem u 0 0 0) (.bin (· * ·) (.num dt) (elem dudt 0 0 0)))]⟩]

/-- `m` passes -/
def passes [Add V] [Sub V] [Mul V] [Neg V] [OfNat V 2] (u dudt : Nat) (ax ay dt : V) : Nat → List (Loop V)
  | 0 => []
  | m + 1 => pass u dudt ax ay dt ++ passes u dudt ax ay dt m

/-- all loops; `f` stands for `sin(x)*cos(y / 2.0)`, `exac` for the exact solution as a function of the coordinates; `exec_time(1, ..)`
calls the lambda once — Example_D2_heat.cpp:65-68, 78-119 -/
def loops [Add V] [Sub V] [Mul V] [Neg V] [OfNat V 2] (x u dudt : Nat) (x0 hx y0 hy : V) (toV : Int → V) (f exac : V → V → V) (ax ay dt : V)
    (m : Nat) : List (Loop V) :=
  [⟨x, [.IN, .IN], [set x 0 (.bin (· + ·) (.num x0) (.bin (· * ·) (.conv 0 toV) (.num hx))),
      set x 1 (.bin (· + ·) (.num y0) (.bin (· * ·) (.conv 1 toV) (.num hy)))]⟩,
   ⟨u, [.IN, .IN], [set u 0 (.bin f (elem x 0 0 0) (elem x 1 0 0))]⟩] ++
  passes u dudt ax ay dt m ++
  [⟨u, [.IN, .IN], [set u 1 (.bin exac (elem x 0 0 0) (elem x 1 0 0))]⟩]

/-- the three arrays — Example_D2_heat.cpp:45-47 -/
def decls (x u dudt Nx Ny : Nat) (junk : Nat → Nat → Ptr) : List (Op V) :=
  [.makeSized x ⟨2, [.center, .center]⟩ (junk 0) [⟨1, Nx, 1⟩, ⟨1, Ny, 1⟩],
   .makeSized u ⟨2, [.center, .center]⟩ (junk 1) [⟨1, Nx, 1⟩, ⟨1, Ny, 1⟩],
   .makeSized dudt ⟨1, [.center, .center]⟩ (junk 2) [⟨0, Nx, 0⟩, ⟨0, Ny, 0⟩]]

/-- the description of the zone: the loop over `d` has two passes — Example_D2_heat.cpp:54-63 -/
def setUp (x u : Nat) : List SetUp :=
  [.dims x 2 0, .data x 0, .dims x 2 1, .data x 1, .data u 0, .data u 1]

/-- the program up to the last loop; names are 0 for `x`, 1 for `u`, 2 for `dudt`; the second component of the state is
`tecfile.Zones[0]`, after its construction.  The times, their output and the number of passes `m` they lead to are not
modelled — Example_D2_heat.cpp:45-119 -/
def main [Add V] [Sub V] [Mul V] [Neg V] [OfNat V 2] (chk : Bool) (Nx Ny : Nat) (junk : Nat → Nat → Ptr) (x0 hx y0 hy : V) (toV : Int → V)
    (f exac : V → V → V) (ax ay dt : V) (m : Nat) : M (World V × Tec.Zone) Unit := do
  onWorld (runOps chk (decls 0 1 2 Nx Ny junk))
  runSetUp chk ⟨.double, false, false⟩ (setUp 0 1)
  onWorld (runLoops chk (loops 0 1 2 x0 hx y0 hy toV f exac ax ay dt m))

/-- `tecfile`, its zone being `z` — Example_D2_heat.cpp:49-54 -/
def tecfile (z : Tec.Zone) : Tec.TecFile :=
  { Tec.TecFile.new (lit "untitled_file") (lit ".") (lit "untitled") with
    Variables := [lit "x", lit "y", lit "u1", lit "u2"], Zones := [z] }

end Verif.Heat2
