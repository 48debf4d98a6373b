import Verif.Proof.TecFits
import Verif.Props.TecText
/-!
# Line buffers of the log, exactly: C46
-/
namespace Verif.Props
open Spec Tec

/-- C46, both directions: for values that the C++ types hold, the json and the xml text of a file are both generated if and only
if the texts keep the bounds of `FileLog.Fits` (Verif/Spec/TecFits.lean) -/
theorem C46_exact (F : Fmt) (hF : F.Short) (l : FileLog) (h : l.Typed) :
    ((∃ l', l.gen_json F = .ok l') ∧ ∃ l', l.gen_xml F = .ok l') ↔ l.Fits F := file_fits hF h

/-- the texts of one zone -/
theorem C46_exact_zone (F : Fmt) (hF : F.Short) (l : ZoneLog) (h : l.Typed) :
    ((∃ l', l.gen_json F = .ok l') ∧ ∃ l', l.gen_xml F = .ok l') ↔ l.Fits := zone_fits hF h

/-- otherwise a line buffer is overrun or something indeterminate is read; no exception is thrown -/
theorem C46_exact_else (F : Fmt) (hF : F.Short) (l : FileLog) (h : l.Typed) (hn : ¬ l.Fits F) :
    (l.gen_json F = .ub .oob ∨ l.gen_json F = .ub .uninit) ∨ l.gen_xml F = .ub .oob ∨ l.gen_xml F = .ub .uninit := by
  rcases tame_fileJson F l with a | a
  · rcases tame_fileXml F l with b | b
    · exact absurd ((file_fits hF h).1 ⟨a, b⟩) hn
    · exact .inr b
  · exact .inl a

/-- a log at the bounds: a name of 173 letters, a path of 177, a title of 183, a variable of 189 -/
def fullLog (n : Nat) : FileLog := { shortLog with
  FileName := List.replicate n 97
  FilePath := List.replicate 177 98
  Title := List.replicate 183 99
  Variables := [List.replicate 189 100] }

theorem shortLog_typed : shortLog.Typed := by
  refine ⟨by decide +kernel, by decide +kernel, fun z hz => ?_⟩
  obtain rfl : z = _ := List.mem_singleton.1 hz
  refine ⟨by decide +kernel, by decide +kernel, by decide +kernel, ?_, ?_, ?_, ?_, ?_, fun d hd => ?_⟩
  iterate 5 exact ⟨by decide +kernel, by decide +kernel, by decide +kernel⟩
  obtain rfl : d = _ := List.mem_singleton.1 hd
  intro p hp
  obtain rfl := Option.some.inj hp
  decide

theorem fullLog_typed (n : Nat) : (fullLog n).Typed := ⟨shortLog_typed.type, show 1 ≤ 2147483648 by decide, shortLog_typed.zones⟩

/-- the hypotheses are met on both sides of the bound -/
example : plainFmt.Short ∧ (fullLog 173).Typed ∧ (fullLog 173).Fits plainFmt ∧ (fullLog 174).Typed ∧ ¬ (fullLog 174).Fits plainFmt := by
  refine ⟨fun _ => (by decide : (lit "0").length ≤ 30), fullLog_typed _, ?_, fullLog_typed _, fun c => absurd c.name (by decide +kernel)⟩
  refine ⟨by decide +kernel, by decide +kernel, by decide +kernel, by decide +kernel, ⟨0, rfl, by decide +kernel⟩, ?_, by unfold AuxFits; decide +kernel, fun z hz => ?_⟩
  · intro i hi
    obtain rfl : i = 0 := by
      have : i < 1 := hi
      omega
    show clen (List.replicate 189 100) + width 0 ≤ 190
    decide +kernel
  · obtain rfl : z = _ := List.mem_singleton.1 hz
    refine ⟨by decide +kernel, by unfold AuxFits; decide +kernel, fun d hd => ?_⟩
    obtain rfl : d = _ := List.mem_singleton.1 hd
    exact ⟨rfl, rfl, rfl⟩

end Verif.Props
