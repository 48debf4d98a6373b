import Verif.Model.Client
/-!
# Loop bodies that work point by point

Bodies in which every element is `y(n, i, j, k)` at the loop indices themselves:
Example_D1_integration.cpp:30-35, Test_D1_tecfile.cpp:40-45, Test_D2_tecfile.cpp:45-51, Test_D3_tecfile.cpp:45-52.
-/
namespace Verif
variable {V : Type}

/-- an expression of the elements at the loop indices -/
inductive PExpr (V : Type)
  | num (v : V)
  | conv (d : Nat) (f : Int → V)
  | elem (y n : Nat)
  | un (f : V → V) (a : PExpr V)
  | bin (f : V → V → V) (a b : PExpr V)

/-- `x(n, i, j, k) = rhs` -/
structure PAssign (V : Type) where
  x : Nat
  n : Nat
  rhs : PExpr V

/-- the loop indices -/
def here (D : Nat) : List Idx := (List.range D).map fun (d : Nat) => Idx.plus d 0

/-- in a loop over `D` indices -/
def PExpr.toExpr (D : Nat) : PExpr V → Expr V
  | .num v => .num v
  | .conv d f => .conv d f
  | .elem y n => .elem y n (here D) (List.replicate D .C)
  | .un f a => .un f (a.toExpr D)
  | .bin f a b => .bin f (a.toExpr D) (b.toExpr D)

def PAssign.toAssign (D : Nat) (a : PAssign V) : Assign V := ⟨a.x, a.n, here D, List.replicate D .C, a.rhs.toExpr D⟩

/-- the loop -/
def pointLoop (x : Nat) (ts : List RA) (body : List (PAssign V)) : Loop V := ⟨x, ts, body.map (PAssign.toAssign ts.length)⟩

end Verif
