import Verif.Model.Tec.File
import Verif.Spec.TecText
/-!
# Specification: the report of `write_plt`

The report is a list of lines.  A line is printed on the standard output (if echo is on) and
kept in the log (always).  The two texts differ for texts that contain a NUL, and in the line of `Begin` and `End`.
-/
namespace Verif.Tec

/-- a line: the text printed and the text kept -/
structure Line where
  shown : Str
  kept : Str

def Line.same (t : Str) : Line := ⟨t, t⟩

/-- the standard output -/
def printed (l : List Line) : Str := l.flatMap fun x => x.shown ++ lit "\n"

/-- the texts in the log -/
def keptLines (l : List Line) : List Str := l.map Line.kept

/-- a line that is present if a flag is set -/
def onFlag (e : List Bool) (k : Nat) (x : Line) : List Line := if e.getD k false then [x] else []

/-- numbers in brackets -/
def bracket (l : List Int) : Str := lit "[" ++ l.flatMap (fun v => lit " " ++ dec v) ++ lit " ]"

def I3.list (a : I3) : List Int := [a.x, a.y, a.z]

/-- names in angle brackets -/
def names (l : List Str) : Str := l.flatMap fun v => lit " <" ++ v ++ lit ">"

/-- a size in megabytes with one digit: `t` tenths, the nearest number of tenths, the even one of two nearest -/
def Tenths (bytes t : Nat) : Prop :=
  2 * (10 * bytes) ≤ (2 * t + 1) * 1048576 ∧ (2 * t - 1) * 1048576 ≤ 2 * (10 * bytes) ∧
  (2 * (10 * bytes) = (2 * t + 1) * 1048576 ∨ (0 < t ∧ 2 * (10 * bytes) = (2 * t - 1) * 1048576) → t % 2 = 0)

/-- a text that gives a size in megabytes -/
def IsMB (bytes : Nat) (text : Str) : Prop := ∃ t : Nat, Tenths bytes t ∧ text = dec (t / 10 : Nat) ++ lit "." ++ dec (t % 10 : Nat)

/-- the lines of a zone; `dim` and `real` are the numbers of the selected part, `mb` is the text of its size -/
def zoneLines (le : F64 → Str) (vars : List Str) (z : Zone) (dim : Int) (real : I3) (mb : Str) : List Line :=
  let e := z.Echo_Mode
  onFlag e 3 (.same (lit "     Dim = " ++ dec dim ++ lit "   Real_Max = " ++ bracket (real.list.take dim.toNat))) ++
  onFlag e 4 (.same (lit "     Org_Max = " ++ bracket z.Max.list)) ++
  onFlag e 5 (.same (lit "     Skip = " ++ bracket z.Skip.list)) ++
  onFlag e 6 ⟨lit "     Begin = " ++ bracket z.Begin.list ++ lit "   End = " ++ bracket z.End.list,
    lit "     Begin = " ++ bracket z.Begin.list ++ lit " End = " ++ bracket z.End.list⟩ ++
  (if z.StrandId = -1 then [] else
    onFlag e 7 (.same (lit "     StrandId = " ++ dec z.StrandId ++ lit " SolutionTime = " ++ le z.SolutionTime))) ++
  onFlag e 2 ⟨lit "     write variables:" ++ names (vars.map cstr), lit "     write variables:" ++ names vars⟩ ++
  onFlag e 8 (.same (lit "     zone size: " ++ mb ++ lit "MB"))

/-- the line before and after a zone, the `i`-th of the file -/
def zoneTitle (i : Nat) (z : Zone) : Line :=
  .same (lit "--   write zone " ++ dec (i + 1) ++ lit ": " ++ cstr z.ZoneName ++ lit "   --")

/-- the first and the last line of the file -/
def fileTitle (f : TecFile) (time : Str) : Line :=
  let stamp (t : Str) : Str := if f.Echo_Mode.getD 5 false then lit "[" ++ t ++ lit "] " else []
  ⟨stamp (cstr time) ++ lit "#### creat file " ++ cstr f.FilePath ++ lit "/" ++ cstr f.FileName ++ lit ".plt ####",
   stamp time ++ lit "#### creat file " ++ f.FilePath ++ lit "/" ++ f.FileName ++ lit ".plt ####"⟩

/-- the lines before the zones -/
def linesBefore (E : Env) (f : TecFile) : List Line :=
  onFlag f.Echo_Mode 0 (fileTitle f E.tBegin) ++
  onFlag f.Echo_Mode 2 ⟨lit "     VAR:" ++ names (f.Variables.map cstr), lit "     VAR:" ++ names f.Variables⟩ ++
  onFlag f.Echo_Mode 3 (.same (lit "-------------------------------------"))

/-- the lines after the zones -/
def linesAfter (E : Env) (f : TecFile) (mb : Str) : List Line :=
  onFlag f.Echo_Mode 4 (.same (lit "     file size: " ++ mb ++ lit " MB")) ++
  onFlag f.Echo_Mode 6 (.same (lit "     using time : " ++ E.fmt.f5 E.using_ ++ lit " s")) ++
  onFlag f.Echo_Mode 1 (fileTitle f E.tEnd)

/-- the line before and after a zone and the lines of the zone -/
def zoneReport (le : F64 → Str) (vars : List Str) (i : Nat) (z : Zone) (dim : Int) (real : I3) (mb : Str) : List Line :=
  onFlag z.Echo_Mode 0 (zoneTitle i z) ++ zoneLines le vars z dim real mb ++ onFlag z.Echo_Mode 1 (zoneTitle i z)

/-- texts as lines of a text file -/
def textFile (l : List Str) : Str := l.flatMap fun t => cstr t ++ lit "\n"

/-! ## Length of the file -/

/-- bytes of a text: four for every character and for the terminator -/
def textLen (t : Str) : Nat := 4 * (t.length + 1)

def auxLen (m : AuxMap) : Nat := (m.map fun e => 8 + textLen e.1 + textLen e.2).sum

/-- bytes of the data section of a zone with `n` selected points -/
def Zone.dataLen (z : Zone) (n : Nat) : Nat := 16 + 20 * z.Data.length + (z.Data.map fun d => n * d.size).sum

/-- bytes of a zone in the header -/
def Zone.headLen (z : Zone) : Nat := 56 + textLen z.ZoneName + auxLen z.Auxiliary

/-- bytes of the file, if `n z` points of zone `z` are selected -/
def TecFile.lengthOf (f : TecFile) (n : Zone → Nat) : Nat :=
  24 + textLen f.Title + (f.Variables.map textLen).sum + (f.Zones.map Zone.headLen).sum + auxLen f.Auxiliary +
  (f.Zones.map fun z => z.dataLen (n z)).sum

/-! ## Texts that fit the buffers -/

/-- texts short enough for all buffers, numbers of type `int` -/
structure TecFile.Brief (E : Env) (f : TecFile) : Prop where
  fmt : E.fmt.Short
  count : f.Zones.length < 2147483648
  used : (E.fmt.f5 E.using_).length ≤ 60
  time : E.tBegin.length ≤ 150
  name : f.FileName.length ≤ 150
  path : f.FilePath.length ≤ 150
  title : f.Title.length ≤ 150
  type : InI32 f.FileType
  vars : ∀ v ∈ f.Variables, v.length ≤ 150
  aux : AuxShort f.Auxiliary
  zones : ∀ z ∈ f.Zones, z.ZoneName.length ≤ 60 ∧ InI32 z.StrandId ∧ AuxShort z.Auxiliary

end Verif.Tec
