import Verif.Spec.TecText
import Mathlib.Data.Nat.Log
/-!
# Specification: logs whose texts fit, exactly

The bounds are those of a buffer of 200 characters, the longer of the json and the xml line
counting.  Texts count up to their first null character.
-/
namespace Verif.Tec

/-- number of characters that `%s` prints -/
def clen (s : Str) : Nat := (s.takeWhile (· ≠ 0)).length

/-- number of decimal digits -/
def width (n : Nat) : Nat := if n = 0 then 1 else Nat.log 10 n + 1

/-- values that the C++ types can hold -/
structure ZoneLog.Typed (l : ZoneLog) : Prop where
  strand : InI32 l.StrandId
  dim : InI32 l.Dim
  real : InI32 l.Real_Dim
  max : l.Max.Fit
  skip : l.Skip.Fit
  head : l.Begin.Fit
  tail : l.End.Fit
  realMax : l.Real_Max.Fit
  data : ∀ d ∈ l.Data, ∀ p, d.file_pt = some p → p.natAbs < 10 ^ 19

structure FileLog.Typed (l : FileLog) : Prop where
  type : InI32 l.FileType
  vars : l.Variables.length ≤ 2147483648
  zones : ∀ z ∈ l.Zones, z.Typed

/-- auxiliary data: json prints the name once, xml twice -/
def AuxFits (m : AuxMap) : Prop := ∀ e ∈ m, clen e.1 + clen e.2 ≤ 190 ∧ 2 * clen e.1 + clen e.2 ≤ 192

/-- the variable was written: no part of its log is indeterminate -/
def DataLog.Written (d : DataLog) : Prop := d.file_pt.isSome ∧ d.min.isSome ∧ d.max.isSome

structure ZoneLog.Fits (l : ZoneLog) : Prop where
  name : clen l.ZoneName ≤ 177
  aux : AuxFits l.Auxiliary
  data : ∀ d ∈ l.Data, d.Written

structure FileLog.Fits (F : Fmt) (l : FileLog) : Prop where
  name : clen (l.FileName ++ lit ".plt") ≤ 177
  path : clen l.FilePath ≤ 177
  title : clen l.Title ≤ 183
  time : clen l.Time_Begin ≤ 185
  used : ∃ u, l.UsingTime = some u ∧ (F.f5 u).length ≤ 175
  vars : ∀ i, ∀ h : i < l.Variables.length, clen l.Variables[i] + width i ≤ 190
  aux : AuxFits l.Auxiliary
  zones : ∀ z ∈ l.Zones, z.Fits

end Verif.Tec
