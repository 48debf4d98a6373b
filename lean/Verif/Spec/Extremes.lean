import Verif.Spec.Decimal
import Verif.Spec.TecValue
import Verif.Spec.TecBody
import Verif.Spec.TecPre
import Verif.Spec.Tec
/-!
# Specification: the selected values of a variable, their minimum and maximum
-/
namespace Verif.Spec
open Tec

/-- the number with bits `n` in an element of type `t` -/
def pointValue (t : TecType) (n : Nat) : ℚ := (value t n : ℚ) / 2 ^ 1074

/-- the bits of the selected points, `data` being the bytes of all points -/
def picked (z : Zone) (size : Nat) (data : Str) : List Nat :=
  (selection (z.sel 0) (z.sel 1) (z.sel 2)).map fun p => little (item size data (place (z.sel 0) (z.sel 1) p))

/-- `lo` and `hi` are the smallest and the largest of the numbers -/
structure Extremes (t : TecType) (v : List Nat) (lo hi : ℚ) : Prop where
  lo_mem : ∃ n ∈ v, pointValue t n = lo
  hi_mem : ∃ n ∈ v, pointValue t n = hi
  bound : ∀ n ∈ v, lo ≤ pointValue t n ∧ pointValue t n ≤ hi

end Verif.Spec
