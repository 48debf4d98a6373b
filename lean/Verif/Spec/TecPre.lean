import Verif.Model.Tec.File
import Verif.Spec.Tec
import Verif.Proof.Tec1
/-!
# Specification: which file objects can be written
-/
namespace Verif.Tec
open Spec

/-- numbers without overflow: `int` values, no negative stride or excluded part -/
structure DimPlain (d : DimSel) : Prop where
  max : InI32 d.max
  skip : InI32 d.skip
  pos : 0 ≤ d.skip
  head : 0 ≤ d.head
  tail : 0 ≤ d.tail
  sum : InI32 (d.head + d.tail)

/-- a variable is set -/
def TecData.IsSet (d : TecData) : Prop := d.DataP ≠ .null ∧ d.type ≠ .null ∧ d.size ≠ 0

/-- a zone can be written next to these variables -/
structure Zone.Valid (vars : List Str) (z : Zone) : Prop where
  /-- the strides are not zero -/
  skip : ∀ i < 3, (z.sel i).skip ≠ 0
  /-- points remain in every dimension -/
  acc : ∀ i < 3, (z.sel i).Accepted
  /-- as many variables as names -/
  len : z.Data.length = vars.length
  /-- all of them set -/
  set : ∀ d ∈ z.Data, d.IsSet

/-- a file can be written -/
structure TecFile.Valid (f : TecFile) : Prop where
  vars : f.Variables ≠ []
  zones : f.Zones ≠ []
  each : ∀ z ∈ f.Zones, z.Valid f.Variables

end Verif.Tec
