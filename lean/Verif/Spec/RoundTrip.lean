import Verif.Spec.ReadPlt
import Verif.Spec.TecPre
/-!
# Specification of a round trip: writing the interior of an array, reading it back
-/
namespace Verif.Spec
open Tec
variable {V V' : Type}

/-- the selection of the interior points of one dimension: the virtual points (and the additional point of a
half-located dimension) are left out -/
def interiorSel (d : Dim) : DimSel := ⟨d.width, 1, d.ext.n, d.ext.p + d.loc.toNat⟩

/-- a dimension that is not used -/
def unitSel : DimSel := ⟨1, 1, 0, 0⟩

/-- the zone is set up for the interior of an array: the last index of the array runs along the first dimension -/
def ZoneFor (sh : Shape) (z : Zone) : Prop :=
  match sh with
  | [d0] => z.sel 0 = interiorSel d0 ∧ z.sel 1 = unitSel ∧ z.sel 2 = unitSel
  | [d0, d1] => z.sel 0 = interiorSel d1 ∧ z.sel 1 = interiorSel d0 ∧ z.sel 2 = unitSel
  | [d0, d1, d2] => z.sel 0 = interiorSel d2 ∧ z.sel 1 = interiorSel d1 ∧ z.sel 2 = interiorSel d0
  | _ => False

/-- numbers of type `V` are stored as bytes, and reading these bytes as `float` or `double` and assigning to `V'`
is the conversion `conv` -/
structure Codec (t : TecType) (enc : V → Str) (C : Num V') (conv : V → V') : Prop where
  known : t = .float ∨ t = .double
  len : ∀ u, (enc u).length = t.bytes
  dec : ∀ u, fileVal C t (enc u) 0 = some (conv u)

/-- these bytes are a component of an array of this shape, as it lies in memory (`offset`): the bytes of every
interior point are the stored value; bytes of other points are arbitrary -/
def ImageOf (sh : Shape) (size : Nat) (enc : V → Str) (val : List Int → Option V) (bytes : Str) : Prop :=
  ∀ ys, InBlock (sh.map fun d => (d.ext.i : Int)) ys → ∃ u, val ys = some u ∧ item size bytes (offset sh ys) = enc u

end Verif.Spec
