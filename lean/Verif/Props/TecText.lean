import Verif.Proof.TecText
import Verif.Props.TecLog
/-!
# Line buffers of the log: C46
-/
namespace Verif.Props
open Spec Tec

/-- C46, for texts of at most 150 characters (`FileLog.Short` of Verif/Spec/TecText.lean; auxiliary data: twice the name
plus the value): both texts are generated, no line buffer is overrun and nothing uninitialised is read -/
theorem C46_partial (F : Fmt) (hF : F.Short) (l : FileLog) (h : l.Short F) :
    (∃ l', l.gen_json F = .ok l') ∧ ∃ l', l.gen_xml F = .ok l' := ⟨fileJson_ok hF h, fileXml_ok hF h⟩

/-- the log of one zone -/
theorem C46_partial_zone (F : Fmt) (hF : F.Short) (l : ZoneLog) (h : l.Short) :
    (∃ l', l.gen_json F = .ok l') ∧ ∃ l', l.gen_xml F = .ok l' := ⟨zoneJson_ok hF h, zoneXml_ok hF h⟩

def shortLog : FileLog := { FileLog.ofFile demoFile with
  Time_Begin := lit "2026-01-01 00:00:00"
  UsingTime := some 0
  Zones := [{ ZoneLog.ofZone demoSecond with Data := [{ type := .byte, size := 1, file_pt := some 316, min := some 0, max := some 0 }] }] }

/-- the hypotheses are met -/
example : plainFmt.Short ∧ shortLog.Short plainFmt := by
  refine ⟨fun _ => (by decide : (lit "0").length ≤ 30), ?_⟩
  refine ⟨by decide +kernel, by decide +kernel, by decide +kernel, by decide +kernel, ⟨0, rfl, by decide +kernel⟩, by decide +kernel,
    by decide +kernel, by unfold AuxShort; decide +kernel, fun z hz => ?_⟩
  obtain rfl : z = _ := List.mem_singleton.1 hz
  refine ⟨by decide +kernel, by decide +kernel, by decide +kernel, by decide +kernel, ?_, ?_, ?_, ?_, ?_, by unfold AuxShort; decide +kernel, fun d hd => ?_⟩
  iterate 5 exact ⟨by decide +kernel, by decide +kernel, by decide +kernel⟩
  obtain rfl : d = _ := List.mem_singleton.1 hd
  exact ⟨⟨316, rfl, by decide⟩, rfl, rfl⟩

theorem cstr_self {s : Str} (h : (0 : UInt8) ∉ s) : cstr s = s := by
  unfold cstr
  induction s with
  | nil => rfl
  | cons a l ih =>
    rw [List.mem_cons, not_or] at h
    rw [List.takeWhile_cons, if_pos (by simpa using fun c : a = 0 => h.1 c.symm), ih h.2]

/-- C46 is false: a name of 178 characters overruns the buffer, whatever the rest of the log is -/
theorem C46_false (F : Fmt) (l : FileLog) (h0 : (0 : UInt8) ∉ l.FileName) (h : 178 ≤ l.FileName.length) :
    l.gen_json F = .ub .oob ∧ l.gen_xml F = .ub .oob := by
  constructor
  · unfold FileLog.gen_json
    rw [cstr_self (s := l.FileName ++ lit ".plt") (by rw [List.mem_append]; exact fun c => c.elim h0 (by decide)),
      sprintf_long (by lits; omega)]
    rfl
  · unfold FileLog.gen_xml
    rw [cstr_self h0, cstr_self (s := l.FileName ++ lit ".plt") (by rw [List.mem_append]; exact fun c => c.elim h0 (by decide))]
    rw [sprintf_long (n := 200) (s := lit "\t<FileName>" ++ (l.FileName ++ lit ".plt") ++ lit "</FileName>") (by lits; omega)]
    by_cases hb : l.FileName.length ≤ 181
    · rw [sprintf_ok (n := 200) (s := lit "<File FileName=\"" ++ l.FileName ++ lit "\">") (by lits; omega), ok_bind]
      rfl
    · rw [sprintf_long (n := 200) (s := lit "<File FileName=\"" ++ l.FileName ++ lit "\">") (by lits; omega)]
      rfl

/-- the name of a zone -/
theorem C46_false_zone (F : Fmt) (l : ZoneLog) (h0 : (0 : UInt8) ∉ l.ZoneName) (h : 182 ≤ l.ZoneName.length) :
    l.gen_json F = .ub .oob ∧ l.gen_xml F = .ub .oob := by
  constructor
  · unfold ZoneLog.gen_json
    rw [cstr_self h0, sprintf_long (by lits; omega)]
    rfl
  · unfold ZoneLog.gen_xml
    rw [cstr_self h0, sprintf_long (by lits; omega)]
    rfl

def longName : FSt := { demoState with f := { demoFile with FileName := List.replicate 178 97 } }

/-- the whole `write_plt` of a file whose only particularity is a name of 178 letters, and of 173 -/
theorem C46_false_write : Res.isUb (TecFile.write_plt demoEnv true longName) = some .oob ∧
    Res.isUb (TecFile.write_plt demoEnv true { demoState with f := { demoFile with FileName := List.replicate 173 97 } }) = none := by
  constructor <;> decide +kernel

end Verif.Props
