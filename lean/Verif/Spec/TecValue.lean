import Verif.Model.Tec.Zone
import Verif.Spec.TecMinMax
/-!
# The values of Tecplot elements
-/
namespace Verif.Tec

/-- the mathematical value of an element in units of 2^-1074, the smallest positive `double` -/
def value (t : TecType) (n : Nat) : Int :=
  match t with
  | .float => scaled 32 23 n * 2 ^ 925
  | .double => scaled 64 52 n
  | t => signed t.bytes n * 2 ^ 1074

/-- neither NaN nor infinite -/
def Finite (t : TecType) (n : Nat) : Prop :=
  match t with
  | .float => finite 32 23 n
  | .double => finite 64 52 n
  | _ => True

end Verif.Tec
