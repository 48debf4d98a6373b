import Verif.Model.Reduction
import Verif.Model.Heat1
import Verif.Model.Snippets
/-!
# Example_D1_integration.cpp

The arithmetic of `double` is a type with `+`, `*`, `0`; `pow(x, 0.5)` is a function, `toV` is `static_cast<double>` of an `int`, `div`
is the division by `N - 1`.  Not modelled: the printing except for the two numbers of every call, and the clock.
-/
namespace Verif.Integration
variable {V : Type}

/-- the variables of the lambda: `sum[0]`, `sum[1]`, and the numbers printed so far -/
structure Vars (V : Type) where
  sum : List V
  out : List V

/-- the arrays — Example_D1_integration.cpp:28-29 -/
def decls (x f N : Nat) (junk : Nat → Nat → Ptr) : List (Op V) :=
  [.makeSized x ⟨1, [.center]⟩ (junk 0) [⟨0, N, 0⟩], .makeSized f ⟨2, [.center]⟩ (junk 1) [⟨0, N, 0⟩]]

/-- the loop — Example_D1_integration.cpp:30-35 -/
def fill [Mul V] (x f : Nat) (h : V) (toV : Int → V) (root : V → V) : Loop V :=
  ⟨x, [.ALL], [Heat1.set x 0 (.bin (· * ·) (.conv 0 toV) (.num h)), Heat1.set f 0 (Heat1.elem x 0 0),
    Heat1.set f 1 (.un root (Heat1.elem x 0 0))]⟩

/-- `sum[n]`; there are two -/
def sumRef (zero : V) (n : Nat) : Ref (Vars V) V := ⟨fun v => v.sum.getD n zero, fun a v => { v with sum := v.sum.set n a }⟩

/-- an access to `sum[n]` -/
def inSum (n : Nat) : M (World V × Vars V) Unit := fun s => if n < s.2.sum.length then .ok () s else .ub .oob

/-- the body of `PD_For_N` — Example_D1_integration.cpp:43-49 -/
def component [Add V] [OfNat V 0] (chk : Bool) (f : Nat) (div : V → V) (n : Nat) : M (World V × Vars V) Unit := do
  inSum n
  reduceExpr chk f [.ALL] (sumRef 0 n) PD_RF_SUM (Heat1.elem f n 0)
  M.modify fun s => (s.1, (sumRef 0 n).set (div ((sumRef 0 n).get s.2)) s.2)
  M.modify fun s => (s.1, { s.2 with out := s.2.out ++ [(sumRef 0 n).get s.2] })

/-- the lambda passed to `exec_time` — Example_D1_integration.cpp:39-51 -/
def lambda [Add V] [OfNat V 0] (chk : Bool) (f N : Nat) (div : V → V) : M (World V × Vars V) Unit := do
  M.modify fun s => (s.1, { s.2 with sum := [0, 0] })
  PD_For_N 0 N (component chk f div)

/-- the program; arrays 0 and 1 are `x` and `f`; the result is the average time — Example_D1_integration.cpp:23-52 -/
def main [Add V] [Mul V] [OfNat V 0] {D : Type} (o : Sp.DOps D) (dt : Nat → D) (chk : Bool) (N : Nat) (junk : Nat → Nat → Ptr) (h : V) (toV : Int → V)
    (root div : V → V) : M (World V × Vars V) D := do
  onArrays (runOps chk (decls 0 1 N junk))
  onArrays ((fill 0 1 h toV root).exec chk)
  Sp.exec_time o dt 100 (lambda chk 1 2 div)

end Verif.Integration
