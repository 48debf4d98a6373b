import Verif.Proof.TecLog
import Verif.Props.TecFile
/-!
# The texts of a log: C45
-/
namespace Verif.Props
open Spec Tec

/-- a line of a text at some depth -/
def lineAt (depth : Nat) (t : Str) : Str := List.replicate depth 9 ++ (cstr t ++ lit "\n")

/-- a text of a zone at some depth -/
def textAt (depth : Nat) (ls : List Str) : Str := ls.flatMap (lineAt depth)

theorem zoneText_run {d : Int} (h : 0 ≤ d) (ls : List Str) (s : Str) :
    each ls (fun t => do tabs d; putLine t) s = .ok () (s ++ textAt d.toNat ls) :=
  each_emit _ _ (fun t s => tabLine_run h t s) ls s

/-- C45: after a successful `write_plt`, `write_echo` runs to its end; what it writes is the lines of `Echo_Text`
in their order, the text of one zone log in the place of each mark, the zones in their order, each once -/
theorem C45_echo {E : Env} {echo : Bool} {s s' : FSt} (r : TecFile.write_plt E echo s = .ok () s') (out : Str) :
    ∃ t, s'.f.last_log.write_echo out = .ok () (out ++ t) ∧
      Nonempty (Woven (lit "#ZONE#") (lineAt 0) (fun z : ZoneLog => textAt 0 z.Echo_Text) s'.f.last_log.Echo_Text s'.f.last_log.Zones t) ∧
      s'.f.last_log.Zones.length = s.f.Zones.length := by
  obtain ⟨h1, h2, -, -⟩ := plt_marks r
  obtain ⟨t, ht, w⟩ := splice_run (zone := ZoneLog.write_echo) (line := putLine) (zt := fun z : ZoneLog => textAt 0 z.Echo_Text) (lt := lineAt 0)
    (fun z s => each_emit _ _ (fun t s => putLine_run t s) z.Echo_Text s) (fun t s => putLine_run t s)
    s'.f.last_log.Echo_Text s'.f.last_log.Zones out (by rw [h1, h2])
  exact ⟨t, ht, w, h1⟩

/-- C45 for `write_json`; `depth` tabs before the lines of the file, `depth + 2` before those of the zones -/
theorem C45_json {E : Env} {echo : Bool} {s s' : FSt} (r : TecFile.write_plt E echo s = .ok () s') (out : Str) (depth : Int)
    (hd : 0 ≤ depth) (hm : depth + 2 ≤ 2147483647) :
    ∃ t, s'.f.last_log.write_json depth out = .ok () (out ++ t) ∧
      Nonempty (Woven (lit "#ZONE#") (lineAt depth.toNat) (fun z : ZoneLog => textAt (depth.toNat + 2) z.Json_Text)
        s'.f.last_log.Json_Text s'.f.last_log.Zones t) ∧ s'.f.last_log.Zones.length = s.f.Zones.length := by
  obtain ⟨h1, -, h2, -⟩ := plt_marks r
  obtain ⟨t, ht, w⟩ := splice_run (zone := fun z => do let d ← i32 (depth + 2); z.write_json d) (line := fun t => do tabs depth; putLine t)
    (zt := fun z : ZoneLog => textAt (depth.toNat + 2) z.Json_Text) (lt := lineAt depth.toNat)
    (fun z s => by
      rw [M.liftM_eq, i32_ok ⟨by omega, hm⟩, M.lift_ok, pure_bind]
      have := zoneText_run (show 0 ≤ depth + 2 by omega) z.Json_Text s
      rw [show (depth + 2).toNat = depth.toNat + 2 by omega] at this
      exact this) (fun t s => tabLine_run hd t s)
    s'.f.last_log.Json_Text s'.f.last_log.Zones out (by rw [h1, h2])
  exact ⟨t, ht, w, h1⟩

/-- C45 for `write_xml` -/
theorem C45_xml {E : Env} {echo : Bool} {s s' : FSt} (r : TecFile.write_plt E echo s = .ok () s') (out : Str) (depth : Int)
    (hd : 0 ≤ depth) (hm : depth + 2 ≤ 2147483647) :
    ∃ t, s'.f.last_log.write_xml depth out = .ok () (out ++ t) ∧
      Nonempty (Woven (lit "#ZONE#") (lineAt depth.toNat) (fun z : ZoneLog => textAt (depth.toNat + 2) z.Xml_Text)
        s'.f.last_log.Xml_Text s'.f.last_log.Zones t) ∧ s'.f.last_log.Zones.length = s.f.Zones.length := by
  obtain ⟨h1, -, -, h2⟩ := plt_marks r
  obtain ⟨t, ht, w⟩ := splice_run (zone := fun z => do let d ← i32 (depth + 2); z.write_xml d) (line := fun t => do tabs depth; putLine t)
    (zt := fun z : ZoneLog => textAt (depth.toNat + 2) z.Xml_Text) (lt := lineAt depth.toNat)
    (fun z s => by
      rw [M.liftM_eq, i32_ok ⟨by omega, hm⟩, M.lift_ok, pure_bind]
      have := zoneText_run (show 0 ≤ depth + 2 by omega) z.Xml_Text s
      rw [show (depth + 2).toNat = depth.toNat + 2 by omega] at this
      exact this) (fun t s => tabLine_run hd t s)
    s'.f.last_log.Xml_Text s'.f.last_log.Zones out (by rw [h1, h2])
  exact ⟨t, ht, w, h1⟩

/-- C45 for the functions that create the files: they write the same texts, the xml file after its first line -/
theorem C45_files {E : Env} {echo : Bool} {s s' : FSt} (r : TecFile.write_plt E echo s = .ok () s') (can : Str → Bool) (fs : Str → Option Str)
    (base : Str) (hb : base = s'.f.last_log.FilePath ++ lit "/" ++ s'.f.last_log.FileName) (hc : ∀ e, can (cstr (base ++ e)) = true) :
    (∃ t, s'.f.last_log.write_echo [] = .ok () t ∧ s'.f.last_log.write_echo_file can fs =
      .ok () (fun p => if p = cstr (base ++ lit ".txt") then some t else fs p)) ∧
    (∃ t, s'.f.last_log.write_json 0 [] = .ok () t ∧ s'.f.last_log.write_json_file can 0 fs =
      .ok () (fun p => if p = cstr (base ++ lit ".json") then some t else fs p)) ∧
    (∃ t, s'.f.last_log.write_xml 0 [] = .ok () t ∧ s'.f.last_log.write_xml_file can 0 fs =
      .ok () (fun p => if p = cstr (base ++ lit ".xml") then some (lit "<?xml version=\"1.0\" encoding=\"UTF-8\"?>\n" ++ t) else fs p)) := by
  subst hb
  refine ⟨?_, ?_, ?_⟩
  · obtain ⟨t, ht, -⟩ := C45_echo r []
    refine ⟨t, ht, ?_⟩
    unfold FileLog.write_echo_file toFile
    rw [if_pos (hc _), ht]; rfl
  · obtain ⟨t, ht, -⟩ := C45_json r [] 0 (by decide) (by decide)
    refine ⟨t, ht, ?_⟩
    unfold FileLog.write_json_file toFile
    rw [if_pos (hc _), ht]; rfl
  · obtain ⟨t, ht, w, -⟩ := C45_xml r [] 0 (by decide) (by decide)
    obtain ⟨u, hu, w', -⟩ := C45_xml r (lit "<?xml version=\"1.0\" encoding=\"UTF-8\"?>\n") 0 (by decide) (by decide)
    have e : u = t := by
      obtain ⟨w⟩ := w
      obtain ⟨w'⟩ := w'
      exact woven_unique w' w
    refine ⟨t, ht, ?_⟩
    unfold FileLog.write_xml_file toFile
    rw [if_pos (hc _), hu, e]

/-- The loop over the depth compares with `!=`: a negative depth overflows the counter. -/
theorem C45_depth (l : FileLog) (t : Str) (rest : List Str) (hl : l.Json_Text = t :: rest) (ht : t ≠ lit "#ZONE#") (d : Int) (hd : d < 0) (out : Str) :
    l.write_json d out = .ub .overflow := by
  unfold FileLog.write_json
  rw [hl]
  unfold splice
  rw [if_neg ht]
  have : tabs d out = .ub .overflow := by
    unfold tabs
    rw [forI_inverted 0 d (by omega), M.bind_ok (tabs_all _ _)]
    rfl
  exact M.bind_ub (M.bind_ub this)

def Res.text {α : Type} : Res Str α → Option Str
  | .ok _ t => some t
  | _ => none

/-- the example: three texts are written, these are their lengths and the whole echo -/
example : (Res.state (TecFile.write_plt demoEnv true demoState)).map (fun s =>
    ((Res.text (s.f.last_log.write_json 0 [])).map List.length, (Res.text (s.f.last_log.write_xml 0 [])).map List.length,
     Res.text (s.f.last_log.write_echo []))) = some (some 1247, some 1578, some (lit "[2026-01-01 00:00:00] #### creat file dir/name.plt ####\n     VAR: <u> <v>\n--   write zone 1: z   --\n     Dim = 2   Real_Max = [ 3 3 ]\n--   write zone 2: second   --\n     Dim = 2   Real_Max = [ 3 3 ]\n[2026-01-01 00:00:01] #### creat file dir/name.plt ####\n")) := by
  decide +kernel

end Verif.Props
