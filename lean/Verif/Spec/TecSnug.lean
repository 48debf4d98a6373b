import Verif.Spec.TecFits
import Verif.Spec.TecReport
/-!
# Specification: files whose report and whose log fit the buffers, exactly

A line of the report is put together in 100 bytes, a line of the log in 200.  The lines of the report count only if they are
asked for.
-/
namespace Verif.Tec

/-- values that the C++ types can hold -/
structure TecFile.Typed (E : Env) (f : TecFile) : Prop where
  fmt : E.fmt.Short
  count : f.Zones.length < 2147483648
  type : InI32 f.FileType
  vars : f.Variables.length ≤ 2147483648
  strand : ∀ z ∈ f.Zones, InI32 z.StrandId

/-- the line that announces a zone, if it is asked for, fits: 16 + 2 + 5 characters beside the number and the name -/
def TitlesFit (f : TecFile) : Prop := ∀ (i : Nat) (z : Zone), f.Zones[i]? = some z →
  z.Echo_Mode.getD 0 false = true ∨ z.Echo_Mode.getD 1 false = true → clen z.ZoneName + width (i + 1) ≤ 76

/-- the line of the time used, if it is asked for -/
def UsedFits (E : Env) (f : TecFile) : Prop := f.Echo_Mode.getD 6 false = true → (E.fmt.f5 E.using_).length ≤ 79

structure TecFile.Snug (E : Env) (f : TecFile) : Prop where
  titles : TitlesFit f
  line : UsedFits E f
  name : clen (f.FileName ++ lit ".plt") ≤ 177
  path : clen f.FilePath ≤ 177
  title : clen f.Title ≤ 183
  time : clen E.tBegin ≤ 185
  used : (E.fmt.f5 E.using_).length ≤ 175
  vars : ∀ i, ∀ h : i < f.Variables.length, clen f.Variables[i] + width i ≤ 190
  aux : AuxFits f.Auxiliary
  zones : ∀ z ∈ f.Zones, clen z.ZoneName ≤ 177 ∧ AuxFits z.Auxiliary

end Verif.Tec
