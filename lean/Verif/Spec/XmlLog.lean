import Verif.Spec.Xml
import Verif.Spec.TecText
import Verif.Spec.TecAux
/-!
# The tree a log stands for
-/
namespace Verif.Spec
open Tec Xml

/-- a text as content of an element: nothing but white space is no content -/
def content (v : Str) : List Node := if Visible v then [.text false v] else []

/-- `<n>v</n>` -/
def field (n v : Str) : Node := .elem n [] (content v)

/-- three numbers -/
def triple (n : String) (a : I3) : Node :=
  .elem (lit n) [] [field (lit "I") (dec a.x), field (lit "J") (dec a.y), field (lit "K") (dec a.z)]

/-- auxiliary data, if there are any -/
def auxNodes (m : AuxMap) : List Node :=
  if m = [] then [] else [.elem (lit "Auxiliary") [] (m.map fun e => field e.1 e.2)]

/-- variable number `i` of a zone -/
def dataNode (F : Fmt) (d : DataLog) (i : Nat) : Node :=
  .elem (lit "Data_" ++ dec i)
    [(lit "type", dec d.type.code), (lit "size_i", dec d.size), (lit "file_pt", dec (d.file_pt.getD 0)),
     (lit "min", F.le (d.min.getD 0)), (lit "max", F.le (d.max.getD 0))] []

/-- a zone -/
def zoneNode (F : Fmt) (z : ZoneLog) : Node :=
  .elem (lit "Zone") [(lit "ZoneName", z.ZoneName)]
    ([field (lit "ZoneName") z.ZoneName, field (lit "StrandId") (dec z.StrandId)]
      ++ (if z.StrandId = -1 then [] else [field (lit "SolutionTime") (F.le z.SolutionTime)])
      ++ [field (lit "Org_Dim") (dec z.Dim), field (lit "Real_Dim") (dec z.Real_Dim), triple "Org_Max" z.Max, triple "Skip" z.Skip,
          triple "Begin" z.Begin, triple "End" z.End, triple "Real_Max" z.Real_Max]
      ++ auxNodes z.Auxiliary
      ++ [.comment (lit "1=Float, 2=Double, 3=LongInt, 4=ShortInt, 5=Byte, 6=Bit"),
          .elem (lit "Datas") [] (z.Data.zipIdx.map fun d => dataNode F d.1 d.2)])

/-- a file -/
def fileNode (F : Fmt) (l : FileLog) : Node :=
  .elem (lit "File") [(lit "FileName", l.FileName)]
    ([field (lit "FileName") (l.FileName ++ lit ".plt"), field (lit "FilePath") l.FilePath, field (lit "Time") l.Time_Begin,
      field (lit "UsingTime") (F.f5 (l.UsingTime.getD 0)), field (lit "Title") l.Title,
      .comment (lit "0 = FULL, 1 = GRID, 2 = SOLUTION"), field (lit "FileType") (dec l.FileType),
      .elem (lit "Variables") [] (l.Variables.zipIdx.map fun v => .elem v.1 [(lit "i", dec v.2)] [])]
      ++ auxNodes l.Auxiliary
      ++ [.elem (lit "Zones") [] (l.Zones.map (zoneNode F))])

/-! ## Logs whose texts need no escaping -/

/-- printed numbers: at least one character, all of them visible ASCII characters other than `"`, `&`, `<` -/
def Printed (s : Str) : Prop := s ≠ [] ∧ ∀ b ∈ s, 33 ≤ b ∧ b ≤ 126 ∧ b ≠ 34 ∧ b ≠ 38 ∧ b ≠ 60

/-- `%le` and `%.5lf` print such numbers -/
def PrintsNumbers (F : Fmt) : Prop := ∀ x, Printed (F.le x) ∧ Printed (F.f5 x)

/-- auxiliary data: the names are xml names, the values need no escaping -/
def AuxTidy (m : AuxMap) : Prop := ∀ e ∈ m, IsName e.1 ∧ Plain e.2

/-- nothing is in need of escaping, no counter leaves the range of `int` -/
structure ZoneTidy (z : ZoneLog) : Prop where
  name : Plain z.ZoneName ∧ Quotable z.ZoneName
  aux : AuxTidy z.Auxiliary
  data : ∀ d ∈ z.Data, d.size < 2147483648
  few : z.Data.length ≤ 2147483648

structure FileTidy (l : FileLog) : Prop where
  name : Plain l.FileName ∧ Quotable l.FileName
  path : Plain l.FilePath
  time : Plain l.Time_Begin
  title : Plain l.Title
  vars : ∀ v ∈ l.Variables, IsName v
  few : l.Variables.length ≤ 2147483648
  aux : AuxTidy l.Auxiliary
  zones : ∀ z ∈ l.Zones, ZoneTidy z

end Verif.Spec
