import Verif.Spec.XmlLog
import Verif.Model.Tec.ReadXml
/-!
# What is left of a log that was written as xml and read again
-/
namespace Verif.Spec
open Tec Xml

/-- `sscanf` with `%lf` reads what `printf` printed: `%le` of `x` is read as `le x`, `%.5lf` as `f5 x` -/
structure Scans (F : Fmt) (rd : Str → Option F64) (le f5 : F64 → F64) : Prop where
  le : ∀ x, rd (F.le x) = some (le x)
  f5 : ∀ x, rd (F.f5 x) = some (f5 x)

/-- a variable: the numbers went through text -/
def dataBack (le : F64 → F64) (d : DataLog) : DataLog := { d with min := d.min.map le, max := d.max.map le }

/-- a zone: without its texts and its size; `SolutionTime` only if it was written -/
def zoneBack (le : F64 → F64) (j : Junk) (z : ZoneLog) : ZoneLog :=
  { z with SolutionTime := if z.StrandId = -1 then j.time else le z.SolutionTime
           noskip := j.noskip, noexc := j.noexc, Data := z.Data.map (dataBack le)
           Size := none, Echo_Text := [], Json_Text := [], Xml_Text := [] }

/-- a file read into a new log -/
def fileBack (le f5 : F64 → F64) (junk : Nat → Junk) (l : FileLog) : FileLog :=
  { FileLog.new with FileName := l.FileName, FilePath := l.FilePath, Time_Begin := l.Time_Begin, UsingTime := l.UsingTime.map f5
                     Title := l.Title, FileType := l.FileType, Variables := l.Variables, Auxiliary := l.Auxiliary
                     Zones := l.Zones.zipIdx.map fun z => zoneBack le (junk z.2) z.1 }

/-- a log without the generated texts -/
def zoneBare (z : ZoneLog) : ZoneLog := { z with Echo_Text := [], Json_Text := [], Xml_Text := [] }

def bare (l : FileLog) : FileLog := { l with Zones := l.Zones.map zoneBare, Echo_Text := [], Json_Text := [], Xml_Text := [] }

/-- the numbers of a variable are there, and in the range of `unsigned` and `long` -/
structure DataNums (d : DataLog) : Prop where
  size : d.size < 2147483648
  pt : ∃ p, d.file_pt = some p ∧ -9223372036854775808 ≤ p ∧ p ≤ 9223372036854775807
  min : d.min.isSome
  max : d.max.isSome

/-- the numbers of a zone are `int`s; the auxiliary data are ordered by name, like every `std::map` -/
structure ZoneNums (z : ZoneLog) : Prop where
  strand : InI32 z.StrandId
  dim : InI32 z.Dim
  real : InI32 z.Real_Dim
  max : z.Max.Fit
  skip : z.Skip.Fit
  head : z.Begin.Fit
  tail : z.End.Fit
  realMax : z.Real_Max.Fit
  aux : z.Auxiliary.Ordered
  data : ∀ d ∈ z.Data, DataNums d

structure FileNums (l : FileLog) : Prop where
  type : InI32 l.FileType
  used : l.UsingTime.isSome
  aux : l.Auxiliary.Ordered
  zones : ∀ z ∈ l.Zones, ZoneNums z

/-- the values of the auxiliary data have visible characters -/
def AuxSeen (m : AuxMap) : Prop := ∀ e ∈ m, Visible e.2

/-- all texts of the log that are read with `GetText` have visible characters -/
structure Seen (l : FileLog) : Prop where
  path : Visible l.FilePath
  time : Visible l.Time_Begin
  title : Visible l.Title
  aux : AuxSeen l.Auxiliary
  zones : ∀ z ∈ l.Zones, Visible z.ZoneName ∧ AuxSeen z.Auxiliary

end Verif.Spec
