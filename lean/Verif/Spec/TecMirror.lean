import Verif.Spec.TecReport
import Verif.Spec.TecPre
import Verif.Spec.TecAux
import Verif.Spec.Xml
/-!
# What the log of a written file says about the file
-/
namespace Verif.Spec
open Tec

/-- a variable in a file of `n` bytes, `p` points of it selected: its position and its extreme values are known -/
structure DataLogged (n p : Nat) (d : TecData) (l : DataLog) : Prop where
  type : l.type = d.type
  size : l.size = d.size
  pt : ∃ k : Nat, l.file_pt = some (k : Int) ∧ k + p * d.size ≤ n
  min : l.min.isSome
  max : l.max.isSome

/-- a zone in a file of `n` bytes, `p` points selected -/
structure ZoneLogged (n p : Nat) (z : Zone) (l : ZoneLog) : Prop where
  name : l.ZoneName = z.ZoneName
  strand : l.StrandId = z.StrandId
  time : l.SolutionTime = z.SolutionTime
  max : l.Max = z.Max
  skip : l.Skip = z.Skip
  head : l.Begin = z.Begin
  tail : l.End = z.End
  aux : l.Auxiliary = z.Auxiliary
  dim : l.Dim = nonUnit fun i => (z.sel i).max
  real : l.Real_Dim = nonUnit fun i => (z.sel i).count
  realMax : l.Real_Max = ⟨(z.sel 0).count, (z.sel 1).count, (z.sel 2).count⟩
  noskip : l.noskip = true ↔ ∀ i < 3, (z.sel i).skip = 1
  noexc : l.noexc = true ↔ ∀ i < 3, (z.sel i).head = 0 ∧ (z.sel i).tail = 0
  count : l.Data.length = z.Data.length
  data : ∀ (j : Nat) (d : TecData) (k : DataLog), z.Data[j]? = some d → l.Data[j]? = some k → DataLogged n p d k
  size : l.Size = some (z.dataLen p)

/-- a file; `p` tells the number of selected points of a zone -/
structure FileLogged (E : Env) (p : Zone → Nat) (f : TecFile) (l : FileLog) : Prop where
  path : l.FilePath = f.FilePath
  name : l.FileName = f.FileName
  title : l.Title = f.Title
  vars : l.Variables = f.Variables
  type : l.FileType = f.FileType
  aux : l.Auxiliary = f.Auxiliary
  begin_ : l.Time_Begin = E.tBegin
  end_ : l.Time_End = E.tEnd
  used : l.UsingTime = some E.using_
  size : l.Size = some (f.lengthOf p)
  error : l.Error = []
  count : l.Zones.length = f.Zones.length
  zones : ∀ (i : Nat) (z : Zone) (k : ZoneLog), f.Zones[i]? = some z → l.Zones[i]? = some k → ZoneLogged (f.lengthOf p) (p z) z k

/-! ## Files whose log can be written as xml and read again -/

/-- auxiliary data in order; the names are xml names, the values need no escaping and have visible characters -/
def AuxFair (m : AuxMap) : Prop := m.Ordered ∧ ∀ e ∈ m, IsName e.1 ∧ Plain e.2 ∧ Visible e.2

structure ZoneFair (z : Zone) : Prop where
  name : Plain z.ZoneName ∧ Quotable z.ZoneName ∧ Visible z.ZoneName
  aux : AuxFair z.Auxiliary
  sizes : ∀ d ∈ z.Data, d.size < 2147483648

structure FileFair (E : Env) (f : TecFile) : Prop where
  name : Plain f.FileName ∧ Quotable f.FileName
  path : Plain f.FilePath ∧ Visible f.FilePath
  time : Plain E.tBegin ∧ Visible E.tBegin
  title : Plain f.Title ∧ Visible f.Title
  vars : ∀ v ∈ f.Variables, IsName v
  few : f.Variables.length ≤ 2147483648
  aux : AuxFair f.Auxiliary
  zones : ∀ z ∈ f.Zones, ZoneFair z

end Verif.Spec
