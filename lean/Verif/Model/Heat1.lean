import Verif.Model.Client
/-!
# Example_D1_heat.cpp

The calls the program makes to the library, on arrays named by numbers.  The arithmetic of `double` is an arbitrary type
with `+`, `-`, `*`; `cos` and `exp(-a*tiem_stop)` are a function and a constant.  Not modelled: the printing, the clock, and
the comparison of `flowtime` with `tiem_stop`, which decides how many passes the `for (;;)` makes — that number is a
parameter.
-/
namespace Verif.Heat1
variable {V : Type}

/-- `y(n, i + s)` -/
def elem (y n : Nat) (s : Int) : Expr V := .elem y n [.plus 0 s] [.C]

/-- `x(n, i) = rhs` -/
def set (x n : Nat) (rhs : Expr V) : Assign V := ⟨x, n, [.plus 0 0], [.C], rhs⟩

/-- one pass of the `for (;;)` — Example_D1_heat.cpp:53-61 -/
def pass [Add V] [Sub V] [Mul V] [OfNat V 2] (u dudt : Nat) (a_hh dt : V) : List (Loop V) :=
  [⟨u, [.N], [set u 0 (.elem u 0 [.src u .mirror 0 .N 0] [.C])]⟩,
   ⟨u, [.P], [set u 0 (.elem u 0 [.src u .mirror 0 .P 0] [.C])]⟩,
   ⟨dudt, [.IN], [set dudt 0 (.bin (· * ·) (.num a_hh)
      (.bin (· + ·) (.bin (· - ·) (elem u 0 (-1)) (.bin (· * ·) (.num 2) (elem u 0 0))) (elem u 0 1)))]⟩,
   ⟨u, [.IN], [set u 0 (.bin (· + ·) (elem u 0 0) (.bin (· * ·) (.num dt) (elem dudt 0 0)))]⟩]

/-- `m` passes -/
def passes [Add V] [Sub V] [Mul V] [OfNat V 2] (u dudt : Nat) (a_hh dt : V) : Nat → List (Loop V)
  | 0 => []
  | m + 1 => pass u dudt a_hh dt ++ passes u dudt a_hh dt m

/-- the lambda passed to `exec_time`: initial values, then `m` passes — Example_D1_heat.cpp:45-74 -/
def solve [Add V] [Sub V] [Mul V] [OfNat V 2] (x u dudt : Nat) (cos : V → V) (a_hh dt : V) (m : Nat) : List (Loop V) :=
  ⟨u, [.IN], [set u 0 (.un cos (elem x 0 0))]⟩ :: passes u dudt a_hh dt m

/-- all loops of the program; `exec_time(2, ..)` calls the lambda twice, with `m` and `m'` passes —
Example_D1_heat.cpp:35, 45-77 -/
def loops [Add V] [Sub V] [Mul V] [OfNat V 2] (x u dudt : Nat) (x0 h : V) (toV : Int → V) (cos : V → V) (ex a_hh dt : V)
    (m m' : Nat) : List (Loop V) :=
  [⟨x, [.IN], [set x 0 (.bin (· + ·) (.num x0) (.bin (· * ·) (.conv 0 toV) (.num h)))]⟩] ++
  solve x u dudt cos a_hh dt m ++ solve x u dudt cos a_hh dt m' ++
  [⟨u, [.IN], [set u 1 (.bin (· * ·) (.num ex) (.un cos (elem x 0 0)))]⟩]

/-- the three arrays — Example_D1_heat.cpp:31-33 -/
def decls (x u dudt N : Nat) (junk : Nat → Nat → Ptr) : List (Op V) :=
  [.makeSized x ⟨1, [.center]⟩ (junk 0) [⟨0, N, 0⟩], .makeSized u ⟨2, [.center]⟩ (junk 1) [⟨1, N, 1⟩],
   .makeSized dudt ⟨1, [.center]⟩ (junk 2) [⟨0, N, 0⟩]]

/-- the whole program up to the last loop: arrays 0, 1, 2 are `x`, `u`, `dudt` — Example_D1_heat.cpp:31-77 -/
def main [Add V] [Sub V] [Mul V] [OfNat V 2] (chk : Bool) (N : Nat) (junk : Nat → Nat → Ptr) (x0 h : V) (toV : Int → V) (cos : V → V)
    (ex a_hh dt : V) (m m' : Nat) : M (World V) Unit := do
  runOps chk (decls 0 1 2 N junk)
  runLoops chk (loops 0 1 2 x0 h toV cos ex a_hh dt m m')

end Verif.Heat1
