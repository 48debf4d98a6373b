import Verif.Spec.Json
import Verif.Spec.TecMinMax
import Mathlib.Data.Rat.Defs
import Mathlib.Algebra.Order.Ring.Rat
import Mathlib.Algebra.Order.Field.Basic
/-!
# Specification: decimal texts and the numbers they show
-/
namespace Verif.Spec
open Tec

/-- the number shown by digits -/
def digitsVal (s : Str) : Nat := s.foldl (fun a b => 10 * a + (b.toNat - 48)) 0

/-- an exponent, or nothing -/
def ExpOf (s : Str) (k : Int) : Prop :=
  (s = [] ∧ k = 0) ∨ ∃ d, JDigits d ∧ ((s = lit "e+" ++ d ∧ k = digitsVal d) ∨ (s = lit "e-" ++ d ∧ k = -(digitsVal d : Int)))

/-- sign, digits, point, digits, exponent; `v` is the number this text shows -/
def Denotes (s : Str) (v : ℚ) : Prop :=
  ∃ (neg : Bool) (i f e : Str) (k : Int), s = (if neg then lit "-" else []) ++ (i ++ (lit "." ++ (f ++ e))) ∧
    JDigits i ∧ JDigits f ∧ ExpOf e k ∧
    v = (if neg then -1 else 1) * (digitsVal (i ++ f) : ℚ) * (10 : ℚ) ^ (k - (f.length : Int))

/-- the number with the given pattern, if it is neither infinite nor NaN -/
def realVal (x : F64) : ℚ := (scaled 64 52 x.toNat : ℚ) / 2 ^ 1074

/-- neither infinite nor NaN -/
def IsFinite (x : F64) : Prop := finite 64 52 x.toNat

end Verif.Spec
