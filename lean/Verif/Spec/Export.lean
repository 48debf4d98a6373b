import Verif.Spec.Client
import Verif.Spec.TecMem
import Verif.Model.Export
import Verif.Model.Tec.File
import Verif.Spec.TecBody
/-!
# Specification: arrays in a Tecplot file
-/
namespace Verif.Spec
open Tec
variable {V : Type}

/-- the memory `b` of bytes is the memory `h` of numbers: every block of numbers has its bytes, those of an assigned
element are `enc` of its value, those of an unassigned one are arbitrary -/
structure ByteView (size : Nat) (enc : V → Str) (h : Heap V) (b : Heap Byte) : Prop where
  fresh : Fresh b
  vals : ∀ B len c, h.blk B = some (.vals len c) → ∃ d : Nat → Byte, b.blk B = some (.vals (len * size) fun i => some (d i)) ∧
    ∀ i < len, ∀ v, c i = some v → window d (i * size) size = enc v

/-- the points of a block, the last index fastest -/
def blockPts : List Nat → List (List Int)
  | [] => [[]]
  | n :: ns => (List.range n).flatMap fun (i : Nat) => (blockPts ns).map fun p => (i : Int) :: p

/-- the variables of the set-up in their order: array and component -/
def varsOf : List SetUp → List (Nat × Nat)
  | [] => []
  | .dims .. :: ss => varsOf ss
  | .data y n :: ss => (y, n) :: varsOf ss

/-- `p` is what `y.data_pt(n)` returns, in bytes -/
def IsDataPt (chk : Bool) (w : World V) (size y n : Nat) (p : Ptr) : Prop :=
  ∃ k o q, w.objs y = some (k, o) ∧ o.data_pt chk k n w.h = .ok q w.h ∧ p = q.bytes size

/-- the variables of the zone point to the arrays -/
def VarsAre (chk : Bool) (w : World V) (t : TecType) (size : Nat) (vs : List (Nat × Nat)) (ds : List TecData) : Prop :=
  ds.length = vs.length ∧ ∀ (j y n : Nat), vs[j]? = some (y, n) → ∃ p, IsDataPt chk w size y n p ∧
    ds[j]? = some { type := t, size := size, DataP := p, buf := .null }

/-- the statement is about an existing array and component; the sizes are those of `x`, dimension by dimension -/
def SetUp.Ok (aw : AWorld V) (x DIM : Nat) : SetUp → Prop
  | .dims x' D d => x' = x ∧ D = DIM ∧ d < DIM
  | .data y n => ∃ k es val, aw.arr y = some (k, .ready es val) ∧ n < k.N

/-- arrays of the same sizes as `x`, whose interiors hold the numbers `F`; the sizes are the same in both states -/
def Filled (aw₀ aw₁ : AWorld V) (es : List Ext) (locs : List Loc) (vs : List (Nat × Nat)) (F : Nat → List Int → V) : Prop :=
  ∀ (j y n : Nat), vs[j]? = some (y, n) → ∃ k v₀ v₁, aw₀.arr y = some (k, .ready es v₀) ∧ aw₁.arr y = some (k, .ready es v₁) ∧
    k.locs = locs ∧ n < k.N ∧ ∀ p ∈ blockPts (es.map fun e => e.i), v₁ n p = some (F j p)

/-- what the values of the file must be: those of the interior points, the last index fastest -/
def FileHolds (enc : V → Str) (es : List Ext) (vs : List (Nat × Nat)) (F : Nat → List Int → V) (b : ZoneBody) : Prop :=
  b.values.length = vs.length ∧
  ∀ j < vs.length, b.values[j]? = some ((blockPts (es.map fun e => e.i)).map fun p => little (enc (F j p)))

/-- the single zone of the file is the zone described, and there are as many names as variables -/
structure OneZone (f : TecFile) (z : Zone) : Prop where
  zones : f.Zones = [z]
  vars : f.Variables ≠ []
  names : z.Data.length = f.Variables.length

end Verif.Spec
