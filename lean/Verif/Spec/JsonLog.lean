import Verif.Spec.Json
import Verif.Spec.TecText
/-!
# The JSON value a log stands for
-/
namespace Verif.Spec
open Tec

def jtext (n : String) (s : Str) : Str × JVal := (lit n, .str s)
def jnum (n : String) (token : Str) : Str × JVal := (lit n, .num token)
def jint (n : String) (x : Int) : Str × JVal := jnum n (dec x)

/-- three numbers -/
def jtriple (n : String) (a : I3) : Str × JVal := (lit n, .arr [.num (dec a.x), .num (dec a.y), .num (dec a.z)])

/-- auxiliary data, if there are any -/
def jaux (m : AuxMap) : List (Str × JVal) := if m = [] then [] else [(lit "Auxiliary", .obj (m.map fun e => (e.1, .str e.2)))]

/-- a variable of a zone -/
def dataValue (F : Fmt) (d : DataLog) : JVal :=
  .obj [jint "type" d.type.code, jint "size_i" d.size, jint "file_pt" (d.file_pt.getD 0), jnum "min" (F.le (d.min.getD 0)),
    jnum "max" (F.le (d.max.getD 0))]

/-- a zone -/
def zoneValue (F : Fmt) (z : ZoneLog) : JVal :=
  .obj ([jtext "ZoneName" z.ZoneName, jint "StrandId" z.StrandId]
    ++ (if z.StrandId = -1 then [] else [jnum "SolutionTime" (F.le z.SolutionTime)])
    ++ [jint "Org_Dim" z.Dim, jint "Real_Dim" z.Real_Dim, jtriple "Org_Max" z.Max, jtriple "Skip" z.Skip, jtriple "Begin" z.Begin,
        jtriple "End" z.End, jtriple "Real_Max" z.Real_Max]
    ++ jaux z.Auxiliary
    ++ [jtext "Data_type_comment" (lit "1=Float, 2=Double, 3=LongInt, 4=ShortInt, 5=Byte, 6=Bit"), (lit "Data", .arr (z.Data.map (dataValue F)))])

/-- a file -/
def fileValue (F : Fmt) (l : FileLog) : JVal :=
  .obj ([jtext "FileName" (l.FileName ++ lit ".plt"), jtext "FilePath" l.FilePath, jtext "Time" l.Time_Begin,
      jnum "UsingTime" (F.f5 (l.UsingTime.getD 0)), jtext "Title" l.Title, jtext "FileType_comment" (lit "0 = FULL, 1 = GRID, 2 = SOLUTION"),
      jint "FileType" l.FileType, (lit "Variables", .arr (l.Variables.map .str))]
    ++ jaux l.Auxiliary
    ++ [(lit "Zones", .arr (l.Zones.map (zoneValue F)))])

/-! ## Logs whose texts need no escaping and whose numbers are finite -/

/-- no control characters, no `"`, no backslash -/
def Legible (s : Str) : Prop := ∀ b ∈ s, 32 ≤ b ∧ b ≠ 34 ∧ b ≠ 92

instance : DecidablePred Legible := fun s => inferInstanceAs (Decidable (∀ b ∈ s, _))

def AuxLegible (m : AuxMap) : Prop := ∀ e ∈ m, Legible e.1 ∧ Legible e.2

structure ZoneLegible (F : Fmt) (z : ZoneLog) : Prop where
  name : Legible z.ZoneName
  time : z.StrandId ≠ -1 → JNumber (F.le z.SolutionTime)
  aux : AuxLegible z.Auxiliary
  data : ∀ d ∈ z.Data, d.size < 2147483648 ∧ JNumber (F.le (d.min.getD 0)) ∧ JNumber (F.le (d.max.getD 0))

structure FileLegible (F : Fmt) (l : FileLog) : Prop where
  name : Legible l.FileName
  path : Legible l.FilePath
  time : Legible l.Time_Begin
  used : JNumber (F.f5 (l.UsingTime.getD 0))
  title : Legible l.Title
  vars : ∀ v ∈ l.Variables, Legible v
  aux : AuxLegible l.Auxiliary
  zones : ∀ z ∈ l.Zones, ZoneLegible F z

end Verif.Spec
