import Verif.Model.Tec.File
/-!
# Specification: texts that fit the line buffers of the log
-/
namespace Verif.Tec

/-- conversions with `%le` are short -/
def Fmt.Short (F : Fmt) : Prop := ∀ x, (F.le x).length ≤ 30

def I3.Fit (a : I3) : Prop := InI32 a.x ∧ InI32 a.y ∧ InI32 a.z

/-- auxiliary data whose lines fit: the name appears twice in a line -/
def AuxShort (m : AuxMap) : Prop := ∀ e ∈ m, 2 * e.1.length + e.2.length ≤ 150

/-- the log of a variable after it was written -/
def DataLog.Known (d : DataLog) : Prop := (∃ p, d.file_pt = some p ∧ p.natAbs < 10 ^ 19) ∧ d.min.isSome ∧ d.max.isSome

/-- `int` values, texts of at most 150 characters -/
structure ZoneLog.Short (l : ZoneLog) : Prop where
  name : l.ZoneName.length ≤ 150
  strand : InI32 l.StrandId
  dim : InI32 l.Dim
  real : InI32 l.Real_Dim
  max : l.Max.Fit
  skip : l.Skip.Fit
  head : l.Begin.Fit
  tail : l.End.Fit
  realMax : l.Real_Max.Fit
  aux : AuxShort l.Auxiliary
  data : ∀ d ∈ l.Data, d.Known

structure FileLog.Short (F : Fmt) (l : FileLog) : Prop where
  name : l.FileName.length ≤ 150
  path : l.FilePath.length ≤ 150
  title : l.Title.length ≤ 150
  time : l.Time_Begin.length ≤ 150
  used : ∃ u, l.UsingTime = some u ∧ (F.f5 u).length ≤ 150
  type : InI32 l.FileType
  vars : ∀ v ∈ l.Variables, v.length ≤ 150
  aux : AuxShort l.Auxiliary
  zones : ∀ z ∈ l.Zones, z.Short

end Verif.Tec
