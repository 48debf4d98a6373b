import Verif.Proof.Json3
import Verif.Proof.Xml4
/-!
# The json text of a file shows the value of its log
-/
namespace Verif.Json
open Tec Spec
open Xml (tline ttext ttext_append ttext_cons ttext_nil known_inv splice_lines notMark_cons each_lines flatten_map)

def varsLine (vars : List Str) : Str :=
  lit "\t\"Variables\" : [ " ++ ((commas (lit ", ") (vars.map fun v => lit "\"" ++ cstr v ++ lit "\"")).flatten ++ lit " ] ,")

theorem vars_inv {vars : List Str} {t : Str} (h : jsonVars vars = .ok t) : t = varsLine vars := by
  unfold jsonVars at h
  obtain ⟨q, h1, h⟩ := Out.bind_inv h
  cases h
  have e := lines_commas (sep := lit ", ") (g := fun v : Str => lit "\"" ++ cstr v ++ lit "\"") (fun i a b t ht => by
    obtain ⟨u, h2, h3⟩ := Out.bind_inv ht
    rw [sprintf_inv h2] at h3
    cases h3
    rfl) vars 0 q h1
  unfold varsLine
  rw [e, List.append_assoc]

def fileHead (F : Fmt) (l : FileLog) : List Str :=
  [lit "{", strLine "FileName" (cstr (l.FileName ++ lit ".plt")), strLine "FilePath" (cstr l.FilePath), strLine "Time" (cstr l.Time_Begin),
    numLine "UsingTime" (F.f5 (l.UsingTime.getD 0)), strLine "Title" (cstr l.Title),
    strLine "FileType_comment" (lit "0 = FULL, 1 = GRID, 2 = SOLUTION"), numLine "FileType" (dec l.FileType), varsLine l.Variables] ++
    auxLines l.Auxiliary ++ [lit "\t\"" ++ lit "Zones" ++ lit "\" : ["]

def fileTail : List Str := [lit "\t]", lit "}"]

theorem fileGen_inv {F : Fmt} {l l' : FileLog} (h : l.gen_json F = .ok l') :
    l' = { l with Zones := l.Zones.map fun z => { z with Json_Text := z.Json_Text ++ zoneLines F z },
                  Json_Text := l.Json_Text ++ (fileHead F l ++ jsonMarks l.Zones ++ fileTail) } := by
  unfold FileLog.gen_json at h
  obtain ⟨t1, h1, h⟩ := Out.bind_inv h
  obtain ⟨t2, h2, h⟩ := Out.bind_inv h
  obtain ⟨t3, h3, h⟩ := Out.bind_inv h
  obtain ⟨u, hu, h⟩ := Out.bind_inv h
  obtain ⟨t4, h4, h⟩ := Out.bind_inv h
  obtain ⟨t5, h5, h⟩ := Out.bind_inv h
  obtain ⟨t6, h6, h⟩ := Out.bind_inv h
  obtain ⟨t7, h7, h⟩ := Out.bind_inv h
  obtain ⟨a, ha, h⟩ := Out.bind_inv h
  obtain ⟨zs, hz, h⟩ := Out.bind_inv h
  cases h
  rw [sprintf_inv h1, sprintf_inv h2, sprintf_inv h3, sprintf_inv h4, sprintf_inv h5, sprintf_inv h6, vars_inv h7, jsonAux_inv ha,
    Xml.eachZone_inv (fun _ _ => zoneGen_inv) _ _ hz]
  unfold fileHead fileTail
  rw [known_inv hu]
  simp only [List.append_assoc, List.cons_append, List.nil_append]
  rfl

/-- the lines of the log are those that `gen_json` generates for it -/
structure JsonReady (F : Fmt) (l : FileLog) : Prop where
  file : l.Json_Text = fileHead F l ++ jsonMarks l.Zones ++ fileTail
  zones : ∀ z ∈ l.Zones, z.Json_Text = zoneLines F z

/-- texts of the zones and the lines between them -/
def zonesText (sep : Str) (zt : ZoneLog → Str) : List ZoneLog → Str
  | [] => []
  | [z] => zt z
  | z :: y :: l => zt z ++ (sep ++ zonesText sep zt (y :: l))

theorem zonesText_congr {sep : Str} {f g : ZoneLog → Str} (l : List ZoneLog) (h : ∀ z ∈ l, f z = g z) : zonesText sep f l = zonesText sep g l := by
  induction l with
  | nil => rfl
  | cons z l ih =>
    cases l with
    | nil => exact h z (by simp)
    | cons y l => rw [zonesText, zonesText, h z (by simp), ih fun x hx => h x (by simp [hx])]

theorem splice_jmarks {zone : ZoneLog → M Str Unit} {line : Str → M Str Unit} {zt : ZoneLog → Str} {lt : Str → Str}
    (hz : ∀ z s, zone z s = .ok () (s ++ zt z)) (hl : ∀ t s, line t s = .ok () (s ++ lt t)) (R : List Str) (as : List ZoneLog) (zs : List ZoneLog)
    (hlen : as.length = zs.length) (s : Str) :
    splice zone line (jsonMarks as ++ R) zs s = splice zone line R [] (s ++ zonesText (lt (lit "\t\t,")) zt zs) := by
  induction zs generalizing s as with
  | nil =>
    obtain rfl := List.length_eq_zero_iff.1 hlen
    simp [jsonMarks, zonesText]
  | cons z zs ih =>
    cases as with
    | nil => simp at hlen
    | cons a as =>
      cases zs with
      | nil =>
        obtain rfl := List.length_eq_zero_iff.1 (by simpa using hlen : as.length = 0)
        rw [jsonMarks, if_pos (show ([] : List ZoneLog).isEmpty = true from rfl), List.singleton_append, splice, if_pos rfl, M.bind_ok (hz z s)]
        rfl
      | cons y zs =>
        have hlen' : as.length = (y :: zs).length := by simpa using hlen
        have hne : as.isEmpty = false := by cases as <;> simp_all
        rw [jsonMarks, if_neg (by simp [hne]), List.cons_append, List.cons_append, splice, if_pos rfl, M.bind_ok (hz z s), splice.eq_def]
        simp only
        rw [if_neg (by decide), M.bind_ok (hl _ _), ih as hlen', zonesText]
        simp only [List.append_assoc]

/-- the text of a file -/
def fileText (F : Fmt) (d : Nat) (l : FileLog) : Str :=
  ttext d (fileHead F l) ++ zonesText (tline d (lit "\t\t,")) (fun z => ttext (d + 2) (zoneLines F z)) l.Zones ++ ttext d fileTail

theorem auxLines_tab {m : AuxMap} : ∀ t ∈ auxLines m, ∃ l, t = 9 :: l := by
  have hc : ∀ (l : List (Str × Str)), ∀ t ∈ commas (lit ",") (l.map fun e => lit "\t\t" ++ pairText e), ∃ q, t = 9 :: q := by
    intro l
    induction l with
    | nil => intro t ht; cases ht
    | cons a l ih =>
      cases l with
      | nil => intro t ht; rw [List.mem_singleton.1 ht]; exact ⟨_, rfl⟩
      | cons b l =>
        intro t ht
        rcases List.mem_cons.1 ht with rfl | ht
        · exact ⟨_, rfl⟩
        · exact ih t ht
  intro t ht
  unfold auxLines at ht
  split at ht
  · rcases List.mem_append.1 ht with ht | ht
    · rcases List.mem_cons.1 ht with rfl | ht
      · exact ⟨_, rfl⟩
      · exact hc m t ht
    · rw [List.mem_singleton.1 ht]; exact ⟨_, rfl⟩
  · cases ht

theorem fileHead_noMark (F : Fmt) (l : FileLog) : ∀ t ∈ fileHead F l, t ≠ lit "#ZONE#" := by
  intro t ht
  unfold fileHead at ht
  rcases List.mem_append.1 ht with ht | ht
  · rcases List.mem_append.1 ht with ht | ht
    · simp only [List.mem_cons, List.not_mem_nil, or_false] at ht
      rcases ht with rfl | rfl | rfl | rfl | rfl | rfl | rfl | rfl | rfl
      · exact notMark_cons (c := 123) (by decide)
      all_goals exact notMark_cons (c := 9) (by decide)
    · obtain ⟨q, rfl⟩ := auxLines_tab t ht
      exact notMark_cons (by decide)
  · rw [List.mem_singleton.1 ht]; decide

theorem fileTail_noMark : ∀ t ∈ fileTail, t ≠ lit "#ZONE#" := by decide

theorem write_json_run {F : Fmt} {l : FileLog} (h : JsonReady F l) {d : Int} (h0 : 0 ≤ d) (h1 : d + 2 ≤ 2147483647) (s : Str) :
    l.write_json d s = .ok () (s ++ fileText F d.toNat l) := by
  unfold FileLog.write_json
  have hline : ∀ t s, (tabs d >>= fun _ => putLine t) s = .ok () (s ++ tline d.toNat t) := fun t s => tabLine_run h0 t s
  have hzone : ∀ (z : ZoneLog) s, (do let k ← i32 (d + 2); z.write_json k : M Str Unit) s = .ok () (s ++ ttext (d.toNat + 2) z.Json_Text) := by
    intro z s
    rw [M.liftM_eq, i32_ok ⟨by omega, h1⟩, M.lift_ok, pure_bind]
    have := each_lines (fun t s => tabLine_run (show 0 ≤ d + 2 by omega) t s) z.Json_Text s
    rw [show (d + 2).toNat = d.toNat + 2 by omega] at this
    exact this
  rw [h.file, List.append_assoc, splice_lines hline _ _ _ (fileHead_noMark F l), splice_jmarks hzone hline _ l.Zones l.Zones rfl]
  have e := splice_lines (zone := fun z : ZoneLog => (do let k ← i32 (d + 2); z.write_json k : M Str Unit)) hline fileTail [] [] fileTail_noMark
    (s ++ (fileHead F l).flatMap (tline d.toNat) ++ zonesText (tline d.toNat (lit "\t\t,")) (fun z => ttext (d.toNat + 2) z.Json_Text) l.Zones)
  rw [List.append_nil] at e
  rw [e, zonesText_congr l.Zones (f := fun z => ttext (d.toNat + 2) z.Json_Text) (g := fun z => ttext (d.toNat + 2) (zoneLines F z)) fun z hz => by
    show ttext _ z.Json_Text = _; rw [h.zones z hz]]
  show Res.ok () _ = _
  unfold fileText ttext
  simp only [List.append_assoc]

/-- the text written by `write_json` for a zone -/
theorem zone_json_run {z : ZoneLog} {d : Int} (h0 : 0 ≤ d) (s : Str) : z.write_json d s = .ok () (s ++ ttext d.toNat z.Json_Text) :=
  each_lines (fun t s => tabLine_run h0 t s) z.Json_Text s

/-! ## What the text shows -/

theorem vars_elems {vs : List Str} (h : ∀ v ∈ vs, Legible v) :
    Elems (vs.map JVal.str) (commas (lit ", ") (vs.map fun v => lit "\"" ++ cstr v ++ lit "\"")).flatten ∧
      NoZero (commas (lit ", ") (vs.map fun v => lit "\"" ++ cstr v ++ lit "\"")).flatten := by
  induction vs with
  | nil => exact ⟨.inl ⟨rfl, jb_nil⟩, by intro b hb; cases hb⟩
  | cons v vs ih =>
    have hv := h v (by simp)
    have e : lit "\"" ++ cstr v ++ lit "\"" = 34 :: (v ++ [34]) := by rw [legible_cstr hv]; rfl
    have z : NoZero (34 :: (v ++ [34])) := noZero_append (a := [34]) (by decide) (noZero_append (legible_noZero hv) (by decide))
    cases vs with
    | nil =>
      simp only [List.map_cons, List.map_nil, commas, List.flatten_cons, List.flatten_nil, List.append_nil, e]
      refine ⟨.inr ?_, z⟩
      have := JElems.one jb_nil (.str (chars_legible hv)) jb_nil
      simpa using this
    | cons y vs =>
      obtain ⟨i1, i2⟩ := ih fun x hx => h x (by simp [hx])
      simp only [List.map_cons, commas, List.flatten_cons, e] at i1 i2 ⊢
      refine ⟨.inr ?_, noZero_append (noZero_append z (by decide)) i2⟩
      rcases i1 with ⟨h, -⟩ | i1
      · cases h
      have := JElems.cons jb_nil (.str (chars_legible hv)) jb_nil (elems_blank (w := lit " ") (by decide) i1)
      simp only [List.append_assoc, List.nil_append, List.cons_append] at this ⊢
      exact this

theorem pre_vars (d : Nat) {vs : List Str} (h : ∀ v ∈ vs, Legible v) : Pre [(lit "Variables", .arr (vs.map JVal.str))] (tline d (varsLine vs)) := by
  obtain ⟨h1, h2⟩ := vars_elems h
  have e := ((h1.blank (w := lit " ") (by decide)).trail (w := lit " ") (by decide)).value
  have := Pre.one (jb_append (jb_tabs d) (by decide : JBlank (lit "\t"))) (chars_legible (s := lit "Variables") (by decide)) (b := lit " ") (by decide) (c := lit " ") (by decide) e
    (d := lit " ") (by decide) (w := lit "\n") (by decide)
  unfold varsLine
  rw [tline_eq d (noZero_append (by decide) (noZero_append h2 (by decide)))]
  simp only [List.append_assoc, List.cons_append, List.nil_append] at this ⊢
  exact this

theorem zones_elems {F : Fmt} (d : Nat) {zs : List ZoneLog} (h : ∀ z ∈ zs, ZoneLegible F z) :
    Elems (zs.map (zoneValue F)) (zonesText (tline d (lit "\t\t,")) (fun z => ttext (d + 2) (zoneLines F z)) zs) := by
  induction zs with
  | nil => exact .inl ⟨rfl, jb_nil⟩
  | cons z zs ih =>
    obtain ⟨s, h1, h2⟩ := zone_value (d + 2) (h z (by simp))
    right
    cases zs with
    | nil =>
      rw [zonesText, h2]
      exact .one (jb_tabs _) h1 (by decide)
    | cons y zs =>
      rcases ih fun x hx => h x (by simp [hx]) with ⟨h, -⟩ | ih
      · cases h
      rw [zonesText, h2, tline_eq d (by decide)]
      have := JElems.cons (jb_tabs (d + 2)) h1 (jb_append (jb_append (by decide : JBlank (lit "\n")) (jb_tabs d)) (by decide : JBlank (lit "\t\t")))
        (elems_blank (w := lit "\n") (by decide) ih)
      simp only [List.append_assoc, List.cons_append, List.nil_append] at this ⊢
      exact this

theorem file_json {F : Fmt} (d : Nat) {l : FileLog} (h : FileLegible F l) : IsJson (fileValue F l) (fileText F d l) := by
  have pn : Legible (l.FileName ++ lit ".plt") := legible_append h.name (by decide)
  have p1 := (pre_str d (n := "FileName") (by decide) pn).append ((pre_str d (n := "FilePath") (by decide) h.path).append
    ((pre_str d (n := "Time") (by decide) h.time).append ((pre_num d (n := "UsingTime") (by decide) h.used).append
    ((pre_str d (n := "Title") (by decide) h.title).append ((pre_str d (n := "FileType_comment") (by decide) (v := lit "0 = FULL, 1 = GRID, 2 = SOLUTION") (by decide)).append
    ((pre_num d (n := "FileType") (by decide) (dec_number l.FileType)).append ((pre_vars d h.vars).append (pre_aux d h.aux))))))))
  have last := members_array d (n := lit "Zones") (by decide) (zones_elems d h.zones)
  obtain ⟨s, h1, h2⟩ := value_braces d (p1 _ _ last)
  refine ⟨List.replicate d 9, s, lit "\n", ?_, jb_tabs d, ?_, by decide⟩
  · rw [List.append_assoc, ← h2]
    unfold fileText fileHead fileTail
    rw [legible_cstr pn, legible_cstr h.path, legible_cstr h.time, legible_cstr h.title]
    simp only [ttext_append, ttext_cons, ttext_nil, List.append_assoc, List.append_nil]
  · unfold fileValue
    simp only [List.append_assoc, List.cons_append, List.nil_append] at h1 ⊢
    exact h1

theorem gen_ready {F : Fmt} {l l' : FileLog} (h : l.gen_json F = .ok l') (h0 : l.Json_Text = []) (hz : ∀ z ∈ l.Zones, z.Json_Text = []) : JsonReady F l' := by
  have hm : ∀ (zs : List ZoneLog) (f : ZoneLog → ZoneLog), jsonMarks (zs.map f) = jsonMarks zs := by
    intro zs f
    induction zs with
    | nil => rfl
    | cons z zs ih => rw [List.map_cons, jsonMarks, jsonMarks, ih, List.isEmpty_map]
  rw [fileGen_inv h]
  constructor
  · simp only [h0, List.nil_append, hm]
    rfl
  · intro z hmz
    obtain ⟨y, hy, rfl⟩ := List.mem_map.1 hmz
    simp only [hz y hy, List.nil_append]
    rfl

/-- the value depends on the described data only -/
theorem gen_value {F : Fmt} {l l' : FileLog} (h : l.gen_json F = .ok l') : fileValue F l' = fileValue F l := by
  rw [fileGen_inv h]
  unfold fileValue
  simp only [List.map_map]
  rfl

theorem gen_legible {F : Fmt} {l l' : FileLog} (h : l.gen_json F = .ok l') (t : FileLegible F l) : FileLegible F l' := by
  rw [fileGen_inv h]
  refine ⟨t.name, t.path, t.time, t.used, t.title, t.vars, t.aux, fun z hz => ?_⟩
  obtain ⟨y, hy, rfl⟩ := List.mem_map.1 hz
  have := t.zones y hy
  exact ⟨this.name, this.time, this.aux, this.data⟩

end Verif.Json
