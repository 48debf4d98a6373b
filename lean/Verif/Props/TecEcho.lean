import Verif.Proof.TecEcho
/-!
# C44: echo mode codes
-/
namespace Verif.Props
open Tec

/-- C44 for the mode of a file: accepted texts set exactly the bits they stand for, others throw and change
nothing -/
theorem C44_file (strict : Bool) (e : Str) (f : TecFile) :
    (Accepted strict fileNamed 7 e → TecFile.echo_mode strict e f = .ok () { f with Echo_Mode := maskOf fileNamed 7 e }) ∧
    (¬ Accepted strict fileNamed 7 e →
      TecFile.echo_mode strict e f = .err (.text (lit "File(" ++ f.FileName ++ lit "): echo code wrong")) f) := by
  unfold TecFile.echo_mode
  exact ⟨fun h => by rw [file_bits h], fun h => by rw [file_bad h]⟩

/-- C44 for the mode of a zone -/
theorem C44_zone (strict : Bool) (e : Str) (z : Zone) :
    (Accepted strict zoneNamed 9 e → Zone.echo_mode strict e z = .ok () { z with Echo_Mode := maskOf zoneNamed 9 e }) ∧
    (¬ Accepted strict zoneNamed 9 e →
      Zone.echo_mode strict e z = .err (.text (lit "Zone(" ++ z.ZoneName ++ lit "): echo code wrong")) z) := by
  unfold Zone.echo_mode
  exact ⟨fun h => by rw [zone_bits h], fun h => by rw [zone_bad h]⟩

/-- bit `k` of the mask of a code is its `k`-th character from the right, after truncation -/
theorem C44_bits {named : List (Str × List Nat)} {n : Nat} {e : Str} (he : e ∉ named.map (·.1)) (k : Nat) (hk : k < n) :
    test (maskOf named n e) k = ((e.take n).reverse[k]? == some 49) := by
  have h : named.find? (fun m => m.1 == e) = none := by
    rw [List.find?_eq_none]
    intro m hm hh
    exact he (List.mem_map.mpr ⟨m, hm, by simpa using hh⟩)
  unfold test maskOf
  rw [h, List.getD_eq_getElem?_getD, List.getElem?_map, List.getElem?_range hk]
  rfl

/-- the state of the file after the file part of `set_echo_mode` -/
def fileModeSet (file : Str) (f : TecFile) : TecFile :=
  if file = lit "leave" then f else { f with Echo_Mode := maskOf fileNamed 7 file }

/-- C44 for `set_echo_mode`.  Partial: a bad zone code is noticed only if there are zones, and then the mode of the
file has been changed already (last two parts). -/
theorem C44_partial (strict : Bool) (file zone : Str) (f : TecFile) :
    (file ≠ lit "leave" → ¬ Accepted strict fileNamed 7 file →
      TecFile.set_echo_mode strict file zone f = .err (.text (lit "File(" ++ f.FileName ++ lit "): echo code wrong")) f) ∧
    (file = lit "leave" ∨ Accepted strict fileNamed 7 file →
      (zone = lit "leave" → TecFile.set_echo_mode strict file zone f = .ok () (fileModeSet file f)) ∧
      (zone ≠ lit "leave" → Accepted strict zoneNamed 9 zone → TecFile.set_echo_mode strict file zone f =
        .ok () { fileModeSet file f with
          Zones := f.Zones.map fun z => { z with Echo_Mode := maskOf zoneNamed 9 zone } }) ∧
      (zone ≠ lit "leave" → ¬ Accepted strict zoneNamed 9 zone → ∀ z l, f.Zones = z :: l →
        TecFile.set_echo_mode strict file zone f =
          .err (.text (lit "Zone(" ++ z.ZoneName ++ lit "): echo code wrong")) (fileModeSet file f)) ∧
      (f.Zones = [] → TecFile.set_echo_mode strict file zone f = .ok () (fileModeSet file f))) := by
  unfold TecFile.set_echo_mode
  constructor
  · intro h1 h2
    rw [ifB, if_pos (by simpa using h1), M.bind_err ((C44_file strict file f).2 h2)]
  · intro h
    have hf : ifB (file ≠ lit "leave") (TecFile.echo_mode strict file) f =
        .ok () (fileModeSet file f) := by
      unfold fileModeSet
      by_cases hl : file = lit "leave"
      · rw [ifB, if_neg (by simpa using hl), if_pos hl]; rfl
      · rw [ifB, if_pos (by simpa using hl), if_neg hl]; exact (C44_file strict file f).1 (h.resolve_left hl)
    have hz : (fileModeSet file f).Zones = f.Zones := by unfold fileModeSet; split <;> rfl
    rw [M.bind_ok hf]
    refine ⟨?_, ?_, ?_, ?_⟩
    · intro h1; rw [ifB, if_neg (by simpa using h1)]; rfl
    · intro h1 h2
      rw [ifB, if_pos (by simpa using h1), M.get_bind_run, hz]
      have := zones_loop strict h2 (fileModeSet file f) [] f.Zones (by rw [hz]; rfl)
      exact this
    · intro h1 h2 z l hzl
      rw [ifB, if_pos (by simpa using h1), M.get_bind_run, hz, hzl, eachIdx]
      apply M.bind_err
      unfold TecFile.onZone
      rw [hz, hzl]
      simp only [List.getElem?_cons_zero]
      rw [(C44_zone strict zone z).2 h2]
      simp only [List.set_cons_zero]
      rw [← hzl, ← hz]
    · intro h0
      by_cases h1 : zone = lit "leave"
      · rw [ifB, if_neg (by simpa using h1)]; rfl
      · rw [ifB, if_pos (by simpa using h1), M.get_bind_run, hz, h0]; rfl

/-- a new object is as after the mode "brief" -/
theorem C44_new (strict : Bool) (name path title : Str) (junk : Int) :
    TecFile.echo_mode strict (lit "brief") (TecFile.new name path title) = .ok () (TecFile.new name path title) ∧
    Zone.echo_mode strict (lit "brief") (Zone.new name junk) = .ok () (Zone.new name junk) := by
  constructor
  · rw [(C44_file strict _ _).1 (.inl (by decide))]; rfl
  · rw [(C44_zone strict _ _).1 (.inl (by decide))]; rfl

/-- As stated the property is false: without zones any zone mode is accepted. -/
theorem C44_false : ¬ Accepted true zoneNamed 9 (lit "bad") ∧
    TecFile.set_echo_mode true (lit "leave") (lit "bad") (TecFile.new [] [] []) = .ok () (TecFile.new [] [] []) := by
  constructor
  · rintro (h | h)
    · revert h; decide
    · have := h 98 (by decide); revert this; decide
  · exact ((C44_partial true _ _ _).2 (.inl rfl)).2.2.2 rfl

/-- a bad zone code leaves the new mode of the file behind -/
theorem C44_false_order (z : Zone) : TecFile.set_echo_mode true (lit "none") (lit "bad") { TecFile.new [] [] [] with Zones := [z] } =
    .err (.text (lit "Zone(" ++ z.ZoneName ++ lit "): echo code wrong"))
      { TecFile.new [] [] [] with Zones := [z], Echo_Mode := [false, false, false, false, false, false, false] } := by
  rw [((C44_partial true (lit "none") (lit "bad") _).2 (.inr (.inl (by decide)))).2.2.1 (by decide) C44_false.1 z [] rfl]
  rfl

/-- a code longer than the mask: only the first seven characters count -/
example : Accepted true fileNamed 7 (lit "00000011") ∧
    maskOf fileNamed 7 (lit "00000011") = [true, false, false, false, false, false, false] := by
  refine ⟨.inr ?_, by decide⟩
  unfold IsBits
  decide

end Verif.Props
