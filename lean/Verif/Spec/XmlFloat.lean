import Verif.Spec.XmlNumber
import Verif.Spec.TecMinMax
/-!
# Specification: numbers of type `float`
-/
namespace Verif.Spec
open Tec

/-- the number with the given pattern of 32 bits, if it is neither infinite nor NaN -/
def floatVal (n : Nat) : ℚ := (scaled 32 23 n : ℚ) / 2 ^ 149

/-- a pattern of a `float` that is neither infinite nor NaN -/
def IsFloat (n : Nat) : Prop := n < 2 ^ 32 ∧ finite 32 23 n

/-- the sign bit -/
def FloatNeg (n : Nat) : Prop := 2 ^ 31 ≤ n

instance (n : Nat) : Decidable (IsFloat n) := by unfold IsFloat finite; infer_instance
instance (n : Nat) : Decidable (FloatNeg n) := by unfold FloatNeg; infer_instance

end Verif.Spec
