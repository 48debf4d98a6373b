import Verif.Spec.XmlBack
import Verif.Spec.XmlDoc
import Verif.Spec.Decimal
/-!
# What `read_xml` finds in any tree

Not only in the trees of logs that were written: which trees can be read, and as what.  Nothing of the reader is used here.
-/
namespace Verif.Spec
open Tec Xml

/-- the text shows an integer: white space, perhaps a sign, digits, then anything but a digit -/
def ShowsInt (t : Str) (v : Int) : Prop :=
  ∃ w sg ds r, t = w ++ (sg ++ (ds ++ r)) ∧ Blank w ∧ JDigits ds ∧ (∀ b ∈ r.head?, ¬ JDigit b) ∧
    ((sg = [] ∨ sg = lit "+") ∧ v = (digitsVal ds : Int) ∨ sg = lit "-" ∧ v = -(digitsVal ds : Int))

/-- the first child element with this name -/
def Kid (x : Node) (n : Str) (y : Node) : Prop :=
  ∃ m as l1 l2 as' cs', x = .elem m as (l1 ++ y :: l2) ∧ y = .elem n as' cs' ∧ ∀ z ∈ l1, ∀ as cs, z ≠ .elem n as cs

/-- the child elements -/
def kids : Node → List Node
  | .elem _ _ cs => cs.filter isElem
  | _ => []

/-- the name of the element -/
def Named (x : Node) (n : Str) : Prop := ∃ as cs, x = .elem n as cs

/-- the first child is this text -/
def ShowsText (x : Node) (t : Str) : Prop := ∃ m as c cs, x = .elem m as (.text c t :: cs)

/-- the first attribute with this name has this value -/
def AttrIs (x : Node) (n v : Str) : Prop := ∃ m l1 l2 cs, x = .elem m (l1 ++ (n, v) :: l2) cs ∧ ∀ a ∈ l1, a.1 ≠ n

/-- the text of the element shows an `int` -/
def HoldsInt (x : Node) (v : Int) : Prop := ∃ t, ShowsText x t ∧ ShowsInt t v ∧ InI32 v

/-- the element has no text or one that shows no integer -/
def HoldsNone (x : Node) : Prop := ∀ t, ShowsText x t → ∀ v, ¬ ShowsInt t v

/-- the first three child elements of the child `n` hold `int`s; there may be a fourth that holds none -/
def HoldsThree (root : Node) (n : Str) (a : I3) : Prop :=
  ∃ y e1 e2 e3 rest, Kid root n y ∧ kids y = e1 :: e2 :: e3 :: rest ∧ HoldsInt e1 a.x ∧ HoldsInt e2 a.y ∧ HoldsInt e3 a.z ∧
    (rest = [] ∨ ∃ e, rest = [e] ∧ HoldsNone e)

/-- auxiliary data: the texts of the child elements of `Auxiliary`, if it is there; of several with the same name the last one counts -/
def HoldsAux (root : Node) (m : AuxMap) : Prop :=
  (∀ y, ¬ Kid root (lit "Auxiliary") y) ∧ m = [] ∨
  ∃ y, Kid root (lit "Auxiliary") y ∧ m.Ordered ∧ (∀ e ∈ kids y, ∃ t, ShowsText e t) ∧
    ∀ k v, (k, v) ∈ m ↔ ∃ l1 e l2, kids y = l1 ++ e :: l2 ∧ Named e k ∧ ShowsText e v ∧ ∀ e' ∈ l2, ¬ Named e' k

/-- a number in an attribute: what `sscanf` reads, or nothing -/
def HoldsReal (rd : Str → Option F64) (x : Node) (n : Str) (v : Option F64) : Prop :=
  (∃ t, AttrIs x n t ∧ v = rd t) ∨ (∀ t, ¬ AttrIs x n t) ∧ v = none

/-- a variable -/
structure HoldsData (rd : Str → Option F64) (e : Node) (d : DataLog) : Prop where
  type : ∃ t, AttrIs e (lit "type") t ∧ ShowsInt t d.type.code
  size : ∃ t v, AttrIs e (lit "size_i") t ∧ ShowsInt t v ∧ v.natAbs < 4294967296 ∧ (d.size : Int) = v % 4294967296
  pt : ∃ t, AttrIs e (lit "file_pt") t ∧
    ((∃ v, ShowsInt t v ∧ d.file_pt = some (max (-9223372036854775808) (min 9223372036854775807 v))) ∨ (∀ v, ¬ ShowsInt t v) ∧ d.file_pt = some 0)
  min : HoldsReal rd e (lit "min") d.min
  max : HoldsReal rd e (lit "max") d.max

/-- a zone -/
structure HoldsZone (rd : Str → Option F64) (j : Junk) (root : Node) (z : ZoneLog) : Prop where
  name : ∃ y, Kid root (lit "ZoneName") y ∧ ShowsText y z.ZoneName
  strand : ∃ y, Kid root (lit "StrandId") y ∧ HoldsInt y z.StrandId
  time : z.StrandId = -1 ∧ z.SolutionTime = j.time ∨
    z.StrandId ≠ -1 ∧ ∃ y t, Kid root (lit "SolutionTime") y ∧ ShowsText y t ∧ rd t = some z.SolutionTime
  dim : ∃ y, Kid root (lit "Org_Dim") y ∧ HoldsInt y z.Dim
  real : ∃ y, Kid root (lit "Real_Dim") y ∧ HoldsInt y z.Real_Dim
  max : HoldsThree root (lit "Org_Max") z.Max
  skip : HoldsThree root (lit "Skip") z.Skip
  head : HoldsThree root (lit "Begin") z.Begin
  tail : HoldsThree root (lit "End") z.End
  realMax : HoldsThree root (lit "Real_Max") z.Real_Max
  aux : HoldsAux root z.Auxiliary
  data : ∃ y, Kid root (lit "Datas") y ∧ List.Forall₂ (HoldsData rd) (kids y) z.Data
  rest : z.noskip = j.noskip ∧ z.noexc = j.noexc ∧ z.Size = none ∧ z.Echo_Text = [] ∧ z.Json_Text = [] ∧ z.Xml_Text = []

/-- zones, from the `i`-th on -/
inductive HoldsZones (rd : Str → Option F64) (junk : Nat → Junk) : Nat → List Node → List ZoneLog → Prop
  | nil {i : Nat} : HoldsZones rd junk i [] []
  | cons {i : Nat} {e : Node} {l : List Node} {z : ZoneLog} {zs : List ZoneLog} (head : HoldsZone rd (junk i) e z) (tail : HoldsZones rd junk (i + 1) l zs) :
      HoldsZones rd junk i (e :: l) (z :: zs)

/-- a file that is read into a new log -/
structure HoldsFile (rd : Str → Option F64) (junk : Nat → Junk) (root : Node) (l : FileLog) : Prop where
  name : AttrIs root (lit "FileName") l.FileName
  path : ∃ y, Kid root (lit "FilePath") y ∧ ShowsText y l.FilePath
  time : ∃ y, Kid root (lit "Time") y ∧ ShowsText y l.Time_Begin
  used : ∃ y, Kid root (lit "UsingTime") y ∧
    ((∃ t x, ShowsText y t ∧ rd t = some x ∧ l.UsingTime = some x) ∨ (∀ t, ShowsText y t → rd t = none) ∧ l.UsingTime = some 0)
  title : ∃ y, Kid root (lit "Title") y ∧ ShowsText y l.Title
  type : ∃ y, Kid root (lit "FileType") y ∧ (HoldsInt y l.FileType ∨ HoldsNone y ∧ l.FileType = -1)
  vars : ∃ y, Kid root (lit "Variables") y ∧ List.Forall₂ Named (kids y) l.Variables
  aux : HoldsAux root l.Auxiliary
  zones : ∃ y, Kid root (lit "Zones") y ∧ HoldsZones rd junk 0 (kids y) l.Zones
  rest : l.Time_End = [] ∧ l.Size = some 0 ∧ l.Error = [] ∧ l.Echo_Text = [] ∧ l.Json_Text = [] ∧ l.Xml_Text = []

end Verif.Spec
