import Verif.Spec.Decimal
import Verif.Spec.XmlDoc
import Verif.Model.Xml.Number
/-!
# Specification: numbers in documents
-/
namespace Verif.Spec
open Tec Xml

/-- sign, digits, perhaps a point and digits, perhaps an exponent; the sign and the number shown -/
def ShowsNum (s : Str) (neg : Bool) (v : ℚ) : Prop :=
  ∃ (i f q e : Str) (k : Int), s = (if neg then lit "-" else []) ++ (i ++ (q ++ e)) ∧
    JDigits i ∧ (∀ b ∈ f, JDigit b) ∧ ((q = [] ∧ f = []) ∨ q = lit "." ++ f) ∧ ExpOf e k ∧
    v = (if neg then -1 else 1) * (digitsVal (i ++ f) : ℚ) * (10 : ℚ) ^ (k - (f.length : Int))

/-- not a number -/
def IsNaN (x : F64) : Prop := 0x7FF0000000000000 < x.toNat % 2 ^ 63

instance (x : F64) : Decidable (IsNaN x) := by unfold IsNaN; infer_instance

/-- the value is one of its type; a `double` may be infinite, but not NaN -/
def Fits : Scalar → Prop
  | .int v => -2 ^ 31 ≤ v ∧ v < 2 ^ 31
  | .unsigned v => v < 2 ^ 32
  | .int64 v => -2 ^ 63 ≤ v ∧ v < 2 ^ 63
  | .bool _ => True
  | .double x => ¬ IsNaN x

/-- the node at a place: the indices of the elements around it, then its own -/
def nodeAt : List Nat → Nat → List Node → Option Node
  | [], i, l => l[i]?
  | j :: p, i, l => match l[j]? with
    | some (.elem _ _ cs) => nodeAt p i cs
    | _ => none

/-- another node at this place -/
def replaceAt (y : Node) : List Nat → Nat → List Node → List Node
  | [], i, l => l.set i y
  | j :: p, i, l => match l[j]? with
    | some (.elem n as cs) => l.set j (.elem n as (replaceAt y p i cs))
    | _ => l

/-- the white space that C knows -/
def BlankC (s : Str) : Prop := ∀ b ∈ s, b = 32 ∨ (9 ≤ b ∧ b ≤ 13)

end Verif.Spec
