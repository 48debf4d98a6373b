import Verif.Model.Tec.ReadPlt
import Verif.Spec.Machine
import Verif.Spec.TecMinMax
/-!
# Specification of `read_plt`
-/
namespace Verif.Spec
open Tec
variable {V : Type}

/-- the numbers of points of a zone in the order of the indices of a `D`-dimensional array
(the last index of the array runs along the first dimension of the zone) -/
def fileSizes (D : Nat) (z : ZoneLog) : List Int :=
  match D with
  | 1 => [z.Real_Max.x]
  | 2 => [z.Real_Max.y, z.Real_Max.x]
  | _ => [z.Real_Max.z, z.Real_Max.y, z.Real_Max.x]

/-- the numbers of interior points of an array -/
def interior (k : Kind) (a : AArr V) : List Int := (sizesOf k a).map fun s => s.2.1

/-- every number is positive and not bigger than its bound -/
def Within : List Int → List Int → Prop
  | r :: rs, i :: is => 0 < r ∧ r ≤ i ∧ Within rs is
  | [], [] => True
  | _, _ => False

instance : ∀ rs is, Decidable (Within rs is)
  | [], [] => .isTrue trivial
  | [], _ :: _ => .isFalse id
  | _ :: _, [] => .isFalse id
  | r :: rs, i :: is =>
    have := instDecidableWithin rs is
    by unfold Within; infer_instance

/-- number of points -/
def prod : List Int → Nat
  | [] => 1
  | r :: rs => r.toNat * prod rs

/-- the name of the file -/
def pltName (A : ReadArgs) : Str := A.root ++ lit "/" ++ A.log.FileName ++ lit ".plt"

/-- the exception `read_plt` has to throw, if any; `room n`: there is memory for `n` bytes -/
def readErr (chk : Bool) (N : Nat) (ins : List Int) (A : ReadArgs) (room : Nat → Bool) (nn : Nat) : Option Err :=
  if chk = true ∧ N ≤ nn then some (.nRange nn N)
  else match A.log.Zones[A.zone]? with
  | none => some (.text (lit "zone number is too big"))
  | some z =>
    if ¬ Within (fileSizes ins.length z) ins then some (.text (lit "N_file is bigger than N_in or equal to 0"))
    else match A.log.Variables.idxOf? A.name with
    | none => some (.text (lit "error when finding variables " ++ A.name ++ lit " in: " ++ A.log.FileName))
    | some v =>
      match z.Data[v]? with
      | none => none
      | some d =>
        let n := prod (fileSizes ins.length z) * d.size
        match A.fs (cstr (pltName A)), d.file_pt with
        | _, none => none
        | none, _ => some (.text (lit "error when opening file: " ++ pltName A))
        | some c, some pt =>
          if pt < 0 then some (.text (lit "error when opening file: " ++ pltName A))
          else if room n = false then some .noMemory
          else if (c.drop pt.toNat).length < n then some (.text (lit "error when reading file " ++ pltName A))
          else if d.type = .float ∨ d.type = .double then none
          else some (.text (lit "tec_file data type error"))

/-- the log describes every variable of every zone; its numbers are those of the types in the code -/
structure LogOk (log : FileLog) : Prop where
  data : ∀ z ∈ log.Zones, z.Data.length = log.Variables.length
  size : ∀ z ∈ log.Zones, ∀ d ∈ z.Data, d.size < 2147483648
  at_ : ∀ z ∈ log.Zones, ∀ d ∈ z.Data, d.file_pt.isSome = true
  ints : ∀ z ∈ log.Zones, InI32 z.Real_Max.x ∧ InI32 z.Real_Max.y ∧ InI32 z.Real_Max.z

/-- the indices of a point of a block with these numbers of points -/
def InBlock : List Int → List Int → Prop
  | r :: rs, y :: ys => 0 ≤ y ∧ y < r ∧ InBlock rs ys
  | [], [] => True
  | _, _ => False

/-- position of a point in the block, last index fastest -/
def rowOf : List Int → List Int → Nat
  | _ :: rs, y :: ys => y.toNat * prod rs + rowOf rs ys
  | _, _ => 0

/-- the `a`-th number of the bytes `l`, converted; `none` if the conversion is undefined -/
def fileVal (C : Num V) (t : TecType) (l : Str) (a : Nat) : Option V :=
  if t = .double then C.f64 (BitVec.ofNat 64 (elem 8 l a)) else C.f32 (BitVec.ofNat 32 (elem 4 l a))

end Verif.Spec
