import Verif.Proof.TecHead
import Verif.Props.TecFile
/-!
# The header of a file can be read back: C42

The reader is `Spec.readHead` (Verif/Spec/TecHead.lean).
-/
namespace Verif.Props
open Spec Tec

/-- what a reader must find: `size i` is the size of zone `i` -/
def headOf (f : TecFile) (size : Zone → Int × Int × Int) : Head where
  fileType := f.FileType
  title := f.Title
  vars := f.Variables
  zones := f.Zones.map fun z => ⟨z.ZoneName, z.StrandId, z.SolutionTime.toNat, size z, z.Auxiliary⟩
  aux := f.Auxiliary

/-- no NUL characters in the texts of a zone, an `int` as strand -/
structure ZoneTexts (z : Zone) : Prop where
  name : (0 : UInt8) ∉ z.ZoneName
  strand : InI32 z.StrandId
  aux : ∀ e ∈ z.Auxiliary, (0 : UInt8) ∉ e.1 ∧ (0 : UInt8) ∉ e.2

/-- no NUL characters in the texts of a file, an `int` as type, fewer than 2^32 variables -/
structure FileTexts (f : TecFile) : Prop where
  type : InI32 f.FileType
  title : (0 : UInt8) ∉ f.Title
  count : f.Variables.length < 4294967296
  vars : ∀ v ∈ f.Variables, (0 : UInt8) ∉ v
  zones : ∀ z ∈ f.Zones, ZoneTexts z
  aux : ∀ e ∈ f.Auxiliary, (0 : UInt8) ∉ e.1 ∧ (0 : UInt8) ∉ e.2

/-- the zones as they are written have such texts and `int` sizes -/
theorem checked_clean {E : Env} {s : FSt} {data : Nat → Nat → Str} (h : Ready s data) (t : FileTexts s.f) : (s.checked E).f.Clean := by
  refine ⟨t.type, t.title, t.count, t.vars, ?_, t.aux⟩
  intro z hz
  have : z ∈ s.f.Zones.map Zone.gathered := hz
  obtain ⟨y, hy, rfl⟩ := List.mem_map.mp this
  have ty := t.zones y hy
  have ft := h.zones y hy
  have cnt : ∀ i < 3, InI32 (y.sel i).count := fun i hi => by
    have h1 := Sane.count_le (ft.sane i hi)
    have h2 := Sane.count_pos (ft.sane i hi) (ft.acc i hi)
    obtain ⟨h3, h4⟩ := (ft.sane i hi).max
    exact ⟨by omega, by omega⟩
  exact ⟨ty.name, ty.strand, cnt 0 (by decide), cnt 1 (by decide), cnt 2 (by decide), ty.aux⟩

/-- C42: from the file written by `write_plt` the reader recovers title, variable names, zone names, auxiliary
data and the numbers of selected points -/
theorem C42 {E : Env} {echo : Bool} {s s' : FSt} {data : Nat → Nat → Str} (h : Ready s data) (t : FileTexts s.f)
    (r : TecFile.write_plt E echo s = .ok () s') :
    ∃ c rest, s'.fs (cstr s.f.path) = some c ∧
      readHead c = some (headOf s.f (fun z => ((z.sel 0).picks.length, (z.sel 1).picks.length, (z.sel 2).picks.length)), rest) := by
  obtain ⟨-, mm, c, w⟩ := write_plt_inv data h.zones h.fresh h.varOk r
  have hb := w.bytes
  rw [List.append_assoc] at hb
  refine ⟨c, (List.range s.f.Zones.length).flatMap fun i => (s.f.Zones.getD i (Zone.new [] 0)).dataBytes (data i) (mm i), by rw [w.fs]; simp, ?_⟩
  rw [hb, readHead_read (checked_clean h t)]
  congr 2
  show Head.mk _ _ _ ((s.f.Zones.map Zone.gathered).map Zone.head) _ = _
  rw [List.map_map]
  rfl

/-- C42 for `write_plt_head` alone, whatever the sizes: the reader recovers everything, whatever follows -/
theorem C42_head {echo : Bool} {s s' : FSt} (t : FileTexts s.f)
    (hm : ∀ z ∈ s.f.Zones, InI32 z.Real_Max.x ∧ InI32 z.Real_Max.y ∧ InI32 z.Real_Max.z)
    (r : TecFile.write_plt_head echo s = .ok () s') :
    ∃ b, s'.of = s.of ++ b ∧ ∀ rest, readHead (b ++ (leBytes 4 f357 ++ rest)) =
      some (headOf s.f (fun z => (z.Real_Max.x, z.Real_Max.y, z.Real_Max.z)), rest) := by
  have w := head_inv r
  refine ⟨_, w.of, fun rest => ?_⟩
  rw [readHead_read ⟨t.type, t.title, t.count, t.vars, fun z hz =>
    have ty := t.zones z hz
    ⟨ty.name, ty.strand, (hm z hz).1, (hm z hz).2.1, (hm z hz).2.2, ty.aux⟩, t.aux⟩]
  rfl

theorem demoTexts : FileTexts demoFile := by
  refine ⟨by decide, by decide, by decide, by decide, ?_, by decide⟩
  intro z hz
  have : z = demoVars ∨ z = demoSecond := by simpa [demoFile] using hz
  rcases this with rfl | rfl <;> exact ⟨by decide, by decide, by decide⟩

/-- the hypotheses hold for the example, and its header is read from its file -/
example : Ready demoState demoBytes ∧ FileTexts demoState.f ∧
    ((Res.state (TecFile.write_plt demoEnv true demoState)).bind (fun s => s.fs (lit "dir/name.plt"))).bind (fun c => (readHead c).map (fun p => (p.1, p.2.length))) =
    some ({ fileType := 0, title := lit "title", vars := [lit "u", lit "v"]
            zones := [⟨lit "z", -1, 0, (3, 3, 1), []⟩, ⟨lit "second", -1, 0, (3, 3, 1), [(lit "b", lit "2")]⟩]
            aux := [(lit "a", lit "1")] }, 166) :=
  ⟨demoReady, demoTexts, by decide +kernel⟩

/-- With NUL characters different objects have the same header: title "t" with variables "a" and "\1", and title
"t\0\2a" with a variable without name. -/
theorem C42_nul : ∃ (f g : TecFile) (b : Str), f.Title ≠ g.Title ∧ f.Variables.length ≠ g.Variables.length ∧
    (Res.state (TecFile.write_plt_head false { demoState with f := f })).map FSt.of = some b ∧
    (Res.state (TecFile.write_plt_head false { demoState with f := g })).map FSt.of = some b := by
  refine ⟨{ TecFile.new [] [] [116] with
      Variables := [[97], [1]] }, { TecFile.new [] [] [116, 0, 2, 97] with
      Variables := [[]] }, lit "#!TDV112" ++ (int4 1 ++ (int4 0 ++ (int4 116 ++ int4 0 ++ int4 2 ++ int4 97 ++ int4 0 ++ int4 1 ++ int4 0))), by decide, by decide, ?_, ?_⟩
  · decide +kernel
  · decide +kernel

end Verif.Props
