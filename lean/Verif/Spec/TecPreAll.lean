import Verif.Spec.TecPre
import Verif.Spec.TecSizeAll
/-!
# Specification: the checks on a file object with arbitrary `int` settings
-/
namespace Verif.Tec
open Spec

/-- a zone that the checks let pass; negative numbers are not excluded -/
structure Zone.Passes (vars : List Str) (z : Zone) : Prop where
  dims : ∀ i < 3, (z.sel i).verdict = .pass
  span : ∀ i < 3, (z.sel i).SpanFits
  len : z.Data.length = vars.length
  set : ∀ d ∈ z.Data, d.IsSet

/-- the checks of a zone overflow: in the sum of the first dimension that does not pass, or in the sizes -/
def Zone.Overflows (z : Zone) : Prop :=
  (∃ i < 3, (∀ j < i, (z.sel j).verdict = .pass) ∧ (z.sel i).verdict = .overflow) ∨
  ((∀ i < 3, (z.sel i).verdict = .pass) ∧ ∃ i < 3, ¬(z.sel i).SpanFits)

end Verif.Tec
