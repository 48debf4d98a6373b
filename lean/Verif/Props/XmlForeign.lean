import Verif.Proof.XmlForeign2
import Verif.Proof.TecText
import Verif.Props.Xml
/-!
# C56: what `read_xml` reads from any tree
-/
namespace Verif.Props
open Tec Xml Spec

/-- C56: `read_xml` of a new log succeeds exactly on the trees that hold a log, and gives that log (the texts that are generated from it fit if
the names are short).  This is a statement about every tree, not only about those that `write_xml` wrote. -/
theorem C56_exact {F : Fmt} (hS : F.Short) {rd : Str → Option F64} {junk : Nat → Junk} {root : Node} {m : FileLog} (short : m.Short F) :
    (∃ l', FileLog.read_xml F rd junk root FileLog.new = .ok l' ∧ bare l' = m) ↔ HoldsFile rd junk root m := by
  constructor
  · rintro ⟨l', h, rfl⟩
    obtain ⟨m, hm, h⟩ := readFile_iff.1 h
    obtain ⟨lx, h1, h2⟩ := bind_iff.1 h
    rw [(fileJson_bare h2).1, fileXml_bare h1, holdsFile_bare hm]
    exact hm
  · intro hm
    obtain ⟨lx, h1⟩ := fileXml_ok hS short
    obtain ⟨l', h2⟩ := fileJson_ok hS (genXml_short h1 short)
    refine ⟨l', readFile_iff.2 ⟨m, hm, bind_iff.2 ⟨lx, h1, h2⟩⟩, ?_⟩
    rw [(fileJson_bare h2).1, fileXml_bare h1, holdsFile_bare hm]

/-- whatever is read was held -/
theorem C56_held {F : Fmt} {rd : Str → Option F64} {junk : Nat → Junk} {root : Node} {l' : FileLog}
    (h : FileLog.read_xml F rd junk root FileLog.new = .ok l') : HoldsFile rd junk root (bare l') := by
  obtain ⟨m, hm, h⟩ := readFile_iff.1 h
  obtain ⟨lx, h1, h2⟩ := bind_iff.1 h
  rw [(fileJson_bare h2).1, fileXml_bare h1, holdsFile_bare hm]
  exact hm

/-- a tree that holds no log is not reported: reading it is undefined -/
theorem C56_undefined {F : Fmt} {rd : Str → Option F64} {junk : Nat → Junk} {root : Node} (h : ¬ ∃ m, HoldsFile rd junk root m) :
    ∃ u, FileLog.read_xml F rd junk root FileLog.new = .ub u := by
  cases e : FileLog.read_xml F rd junk root FileLog.new with
  | ok l' => exact absurd ⟨_, C56_held e⟩ h
  | err x => exact absurd e (C56_noThrow F rd junk root _ x)
  | ub u => exact ⟨u, rfl⟩

/-- a tree holds at most one log -/
theorem C56_one {rd : Str → Option F64} {junk : Nat → Junk} {root : Node} {F : Fmt} (hS : F.Short) {m m' : FileLog} (short : m.Short F) (short' : m'.Short F)
    (h : HoldsFile rd junk root m) (h' : HoldsFile rd junk root m') : m = m' := by
  obtain ⟨l1, e1, rfl⟩ := (C56_exact hS short).2 h
  obtain ⟨l2, e2, rfl⟩ := (C56_exact hS short').2 h'
  rw [e1] at e2
  cases e2
  rfl

/-! ## Trees that nobody wrote -/

/-- an element that shows a text -/
def leafOf (n t : String) : Node := .elem (lit n) [] [.text false (lit t)]

/-- an element with children -/
def boxOf (n : String) (l : List Node) : Node := .elem (lit n) [] l

/-- a zone with comments, other elements, signs, spaces and text behind numbers; two values for the auxiliary name `a` -/
def strangeZone : Node := boxOf "what" [
  .comment (lit "zone"), leafOf "other" "1", leafOf "ZoneName" "z", leafOf "ZoneName" "not this", leafOf "StrandId" " -1 and more",
  leafOf "Org_Dim" "+3", leafOf "Real_Dim" "2.9",
  boxOf "Org_Max" [leafOf "x" "1", leafOf "x" "2", .comment [], leafOf "x" "3", leafOf "y" "no number"],
  boxOf "Skip" [leafOf "a" "4", leafOf "b" "5", leafOf "c" "6"], boxOf "Begin" [leafOf "a" "0", leafOf "b" "0", leafOf "c" "0"],
  boxOf "End" [leafOf "a" "0", leafOf "b" "0", leafOf "c" "0"], boxOf "Real_Max" [leafOf "a" "7", leafOf "b" "8", leafOf "c" "9"],
  boxOf "Auxiliary" [leafOf "b" "2", leafOf "a" "1", leafOf "a" "3"],
  boxOf "Datas" [.elem (lit "d") [(lit "size_i", lit "-1"), (lit "type", lit "2"), (lit "file_pt", lit "far"), (lit "min", lit "0"), (lit "max", lit "0")] []]]

def strangeFile (zones : List Node) : Node := .elem (lit "any") [(lit "FileName", lit "f")] [
  leafOf "FilePath" ".", leafOf "Time" "now", boxOf "UsingTime" [], leafOf "Title" "t", leafOf "FileType" "none",
  boxOf "Variables" [boxOf "u" [], boxOf "v" []], boxOf "Zones" zones]

def strangeLog : FileLog :=
  { FileLog.new with
    FileName := lit "f", FilePath := lit ".", Time_Begin := lit "now", Title := lit "t", Variables := [lit "u", lit "v"]
    Zones := [{ ZoneName := lit "z", StrandId := -1, SolutionTime := 5, Max := ⟨1, 2, 3⟩, Skip := ⟨4, 5, 6⟩, Begin := ⟨0, 0, 0⟩, End := ⟨0, 0, 0⟩
                Dim := 3, Real_Max := ⟨7, 8, 9⟩, Real_Dim := 2, noskip := true, noexc := true, Auxiliary := [(lit "a", lit "3"), (lit "b", lit "2")]
                Data := [{ type := .double, size := 4294967295, file_pt := some 0, min := some 0, max := some 0 }] }] }

def strangeJunk (_ : Nat) : Junk := ⟨5, true, true⟩

deriving instance DecidableEq for DataLog
deriving instance DecidableEq for ZoneLog
deriving instance DecidableEq for FileLog

/-- it is read: the first element of a name counts, of auxiliary data the last; numbers end at the first other character; a fourth number that is none,
a file type, a time or a position that cannot be read are passed over; the size -1 becomes 4294967295 -/
theorem C56_strange : ∃ l', FileLog.read_xml plainFmt plainScan strangeJunk (strangeFile [strangeZone]) FileLog.new = .ok l' ∧ bare l' = strangeLog := by
  have h : (match FileLog.read_xml plainFmt plainScan strangeJunk (strangeFile [strangeZone]) FileLog.new with
    | .ok l' => decide (bare l' = strangeLog)
    | _ => false) = true := by decide +kernel
  cases e : FileLog.read_xml plainFmt plainScan strangeJunk (strangeFile [strangeZone]) FileLog.new with
  | ok l' => rw [e] at h; exact ⟨l', rfl, of_decide_eq_true h⟩
  | err x => rw [e] at h; cases h
  | ub x => rw [e] at h; cases h

/-- so the hypotheses are met: the strange tree holds a log, the empty element holds none -/
example : HoldsFile plainScan strangeJunk (strangeFile [strangeZone]) strangeLog ∧ ¬ ∃ m, HoldsFile plainScan strangeJunk (boxOf "any" []) m := by
  constructor
  · obtain ⟨l', h, e⟩ := C56_strange
    rw [← e]
    exact C56_held h
  · rintro ⟨m, hm⟩
    obtain ⟨_, l1, l2, _, h, -⟩ := hm.name
    cases l1 <;> cases h

example : plainFmt.Short ∧ strangeLog.Short plainFmt := by
  refine ⟨fun _ => by show (plainFmt.le _).length ≤ _; exact (by decide : (lit "0").length ≤ 30), by decide, by decide, by decide, by decide, ⟨0, rfl, (by decide : (lit "0").length ≤ 150)⟩, by decide, by decide, ?_, ?_⟩
  · intro e he; cases he
  · intro z hz
    obtain rfl : z = _ := List.mem_singleton.1 hz
    refine ⟨by decide, by decide, by decide, by decide, ⟨by decide, by decide, by decide⟩, ⟨by decide, by decide, by decide⟩, ⟨by decide, by decide, by decide⟩,
      ⟨by decide, by decide, by decide⟩, ⟨by decide, by decide, by decide⟩, by unfold AuxShort; decide, fun d hd => ?_⟩
    obtain rfl : d = _ := List.mem_singleton.1 hd
    exact ⟨⟨0, rfl, by decide⟩, rfl, rfl⟩

end Verif.Props
