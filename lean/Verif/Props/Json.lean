import Verif.Proof.Json6
import Verif.Proof.Xml11
import Verif.Props.Xml
import Verif.Props.TecMirror
/-!
# C59: the json of a log
-/
namespace Verif.Props
open Spec Tec Json

/-- a text is the JSON of one value at most -/
theorem C59_unique {t : Str} {v v' : JVal} (h : IsJson v t) (h' : IsJson v' t) : v = v' :=
  Option.some.inj ((parse_run h).symm.trans (parse_run h'))

/-- C59, for a log whose texts need no escaping and whose real numbers are printed as JSON numbers (`FileLegible` of Verif/Spec/JsonLog.lean):
the text that `write_json` appends is JSON, and its value has the content of the log, whatever the indentation -/
theorem C59_partial {F : Fmt} {l l' : FileLog} (ht : FileLegible F l) (h0 : l.Json_Text = []) (hz : ∀ z ∈ l.Zones, z.Json_Text = [])
    (hg : l.gen_json F = .ok l') {d : Int} (d0 : 0 ≤ d) (d1 : d + 2 ≤ 2147483647) :
    ∃ t, (∀ s, l'.write_json d s = .ok () (s ++ t)) ∧ IsJson (fileValue F l) t := by
  refine ⟨fileText F d.toNat l', fun s => write_json_run (gen_ready hg h0 hz) d0 d1 s, ?_⟩
  rw [← gen_value hg]
  exact file_json d.toNat (gen_legible hg ht)

/-- the same for the log of a zone -/
theorem C59_partial_zone {F : Fmt} {z z' : ZoneLog} (ht : ZoneLegible F z) (h0 : z.Json_Text = []) (hg : z.gen_json F = .ok z')
    {d : Int} (d0 : 0 ≤ d) : ∃ t, (∀ s, z'.write_json d s = .ok () (s ++ t)) ∧ IsJson (zoneValue F z) t := by
  obtain ⟨s, h1, h2⟩ := zone_value d.toNat ht
  refine ⟨_, fun s => zone_json_run d0 s, ?_⟩
  rw [zoneGen_inv hg]
  simp only [h0, List.nil_append]
  exact ⟨List.replicate d.toNat 9, s, lit "\n", by rw [h2, List.append_assoc], jb_tabs _, h1, by decide⟩

/-- C59, exactly: the text that `write_json` appends is the JSON of the content of the log if and only if the log is legible.  Whatever a text that needs
escaping leads to — not JSON, or other strings, names or members — it is never what was meant, no text makes up for another. -/
theorem C59_exact {F : Fmt} {l l' : FileLog} (h0 : l.Json_Text = []) (hz : ∀ z ∈ l.Zones, z.Json_Text = []) (hg : l.gen_json F = .ok l') {d : Int} (d0 : 0 ≤ d)
    (d1 : d + 2 ≤ 2147483647) : ∃ t, (∀ s, l'.write_json d s = .ok () (s ++ t)) ∧ (IsJson (fileValue F l) t ↔ FileLegible F l) := by
  refine ⟨fileText F d.toNat l', fun s => write_json_run (gen_ready hg h0 hz) d0 d1 s, fun h => ?_, fun h => ?_⟩
  · rw [← gen_value hg] at h
    have t := file_json_only d.toNat h
    rw [fileGen_inv hg] at t
    refine ⟨t.name, t.path, t.time, t.used, t.title, t.vars, t.aux, fun z hz => ?_⟩
    have := t.zones _ (List.mem_map_of_mem hz)
    exact ⟨this.name, this.time, this.aux, this.data⟩
  · rw [← gen_value hg]
    exact file_json d.toNat (gen_legible hg h)

/-- the same for the log of a zone -/
theorem C59_exact_zone {F : Fmt} {z z' : ZoneLog} (h0 : z.Json_Text = []) (hg : z.gen_json F = .ok z') {d : Int} (d0 : 0 ≤ d) :
    ∃ t, (∀ s, z'.write_json d s = .ok () (s ++ t)) ∧ (IsJson (zoneValue F z) t ↔ ZoneLegible F z) := by
  refine ⟨_, fun s => zone_json_run d0 s, ?_⟩
  rw [zoneGen_inv hg]
  simp only [h0, List.nil_append]
  refine ⟨fun h => zone_json_only d.toNat h, fun h => ?_⟩
  obtain ⟨s, h1, h2⟩ := zone_value d.toNat h
  exact ⟨List.replicate d.toNat 9, s, lit "\n", by rw [h2, List.append_assoc], jb_tabs _, h1, by decide⟩

/-- the same for the log that `write_plt` leaves -/
theorem C59_partial_written {E : Env} {echo : Bool} {s s' : FSt} {data : Nat → Nat → Str} (w : Ready s data)
    (r : TecFile.write_plt E echo s = .ok () s') (ht : FileLegible E.fmt s'.f.last_log) {d : Int} (d0 : 0 ≤ d) (d1 : d + 2 ≤ 2147483647) :
    ∃ t, (∀ o, s'.f.last_log.write_json d o = .ok () (o ++ t)) ∧ IsJson (fileValue E.fmt s'.f.last_log) t := by
  obtain ⟨v, mm, c, W⟩ := write_plt_inv data w.zones w.fresh w.varOk r
  obtain ⟨l, m, gj, gx, h0, hz⟩ := W.json
  have R : JsonReady E.fmt m := gen_ready gj h0 hz
  have R' : JsonReady E.fmt s'.f.last_log := by
    rw [Xml.fileGen_inv gx]
    have hm : ∀ (zs : List ZoneLog) (f : ZoneLog → ZoneLog), jsonMarks (zs.map f) = jsonMarks zs := by
      intro zs f
      induction zs with
      | nil => rfl
      | cons z zs ih => rw [List.map_cons, jsonMarks, jsonMarks, ih, List.isEmpty_map]
    constructor
    · simp only [hm]
      exact R.file
    · intro z hmz
      obtain ⟨y, hy, rfl⟩ := List.mem_map.1 hmz
      exact R.zones y hy
  exact ⟨_, fun o => write_json_run R' d0 d1 o, file_json d.toNat ht⟩

theorem plainFmt_number (x : F64) : JNumber (plainFmt.le x) ∧ JNumber (plainFmt.f5 x) := by
  have : JNumber (lit "0") := dec_number 0
  exact ⟨this, this⟩

theorem shortLog_legible : FileLegible plainFmt shortLog := by
  refine ⟨by decide +kernel, by decide +kernel, by decide +kernel, (plainFmt_number _).2, by decide +kernel, by decide +kernel, ?_, fun z hz => ?_⟩
  · unfold AuxLegible; decide +kernel
  · obtain rfl : z = _ := List.mem_singleton.1 hz
    refine ⟨by decide +kernel, fun _ => (plainFmt_number _).1, ?_, fun d hd => ?_⟩
    · unfold AuxLegible; decide +kernel
    · obtain rfl : d = _ := List.mem_singleton.1 hd
      exact ⟨by decide, (plainFmt_number _).1, (plainFmt_number _).1⟩

/-- the hypotheses are met -/
example : FileLegible plainFmt shortLog ∧ shortLog.Json_Text = [] ∧ (∀ z ∈ shortLog.Zones, z.Json_Text = []) ∧ shortLog.Zones.length = 1 ∧
    shortLog.Auxiliary.length = 1 ∧ ∃ l', shortLog.gen_json plainFmt = .ok l' := by
  refine ⟨shortLog_legible, rfl, fun z hz => ?_, rfl, by decide +kernel, ?_⟩
  · obtain rfl : z = _ := List.mem_singleton.1 hz
    rfl
  · exact fileJson_ok (fun _ => (by decide : (lit "0").length ≤ 30)) shortLog_short

/-- a log that mirrors a file with legible texts is legible -/
theorem legible_logged {E : Env} {p : Zone → Nat} {f : TecFile} {l : FileLog} (h : FileLogged E p f l) (hF : ∀ x, JNumber (E.fmt.le x) ∧ JNumber (E.fmt.f5 x))
    (name : Legible f.FileName) (path : Legible f.FilePath) (time : Legible E.tBegin) (title : Legible f.Title) (vars : ∀ v ∈ f.Variables, Legible v)
    (aux : AuxLegible f.Auxiliary) (zones : ∀ z ∈ f.Zones, Legible z.ZoneName ∧ AuxLegible z.Auxiliary ∧ ∀ d ∈ z.Data, d.size < 2147483648) :
    FileLegible E.fmt l := by
  refine ⟨by rw [h.name]; exact name, by rw [h.path]; exact path, by rw [h.begin_]; exact time, (hF _).2, by rw [h.title]; exact title, by rw [h.vars]; exact vars,
    by rw [h.aux]; exact aux, fun k hk => ?_⟩
  obtain ⟨z, hz, L⟩ := logged_zone h hk
  obtain ⟨z1, z2, z3⟩ := zones z hz
  refine ⟨by rw [L.name]; exact z1, fun _ => (hF _).1, by rw [L.aux]; exact z2, fun d hd => ?_⟩
  obtain ⟨e, he, D⟩ := logged_data L hd
  exact ⟨by rw [D.size]; exact z3 e he, (hF _).1, (hF _).1⟩

/-- the hypotheses of `C59_partial_written` are met -/
example : Ready tripState (fun _ _ => sourceBytes) ∧ ∃ s', TecFile.write_plt demoEnv true tripState = .ok () s' ∧ FileLegible demoEnv.fmt s'.f.last_log ∧
    s'.f.last_log.Zones.length = 1 := by
  refine ⟨tripReady, ?_⟩
  obtain ⟨s', r⟩ : ∃ s', TecFile.write_plt demoEnv true tripState = .ok () s' := by
    generalize hr : TecFile.write_plt demoEnv true tripState = r
    have : (Res.state r).isSome = true := by rw [← hr]; decide +kernel
    cases r with
    | ok a s' => exact ⟨s', rfl⟩
    | err e s' => cases this
    | ub u => cases this
  have L := C58 tripReady r
  refine ⟨s', r, legible_logged L plainFmt_number (by decide +kernel) (by decide +kernel) (by decide +kernel) (by decide +kernel) (by decide +kernel)
    (by unfold AuxLegible; decide +kernel) fun z hz => ?_, L.count⟩
  obtain rfl : z = tripZone := by simpa [tripState] using hz
  exact ⟨by decide +kernel, by unfold AuxLegible; decide +kernel, by decide +kernel⟩

/-- the json written for a log -/
def jsonOf (F : Fmt) (l : FileLog) : Option Str :=
  match l.gen_json F with
  | .ok l' =>
    match l'.write_json 0 [] with
    | .ok _ t => some t
    | _ => none
  | _ => none

/-- the text of the member `n` of the first object -/
def memberOf (n : String) (t : Option Str) : Option Str :=
  match t.bind Json.parse with
  | some (.obj l) =>
    match l.find? fun e => e.1 = lit n with
    | some (_, .str s) => some s
    | _ => none
  | _ => none

/-- a conversion that prints what `printf` prints for a NaN -/
def nanFmt : Fmt := { plainFmt with le := fun _ => lit "nan" }

theorem not_json {t : Option Str} (h : (t.map fun t => (Json.parse t).isNone) = some true) : ∃ u, t = some u ∧ ∀ v, ¬ IsJson v u := by
  cases t with
  | none => cases h
  | some u =>
    refine ⟨u, rfl, fun v hv => ?_⟩
    rw [Option.map_some, parse_run hv] at h
    cases h

/-- C59 is false: nothing is escaped, so a title with a quotation mark or a line feed and a path with a backslash give texts that are not
JSON, and so does a variable with a NaN as extreme value; a path `out\new` gives JSON with another path -/
theorem C59_false :
    (∃ u, jsonOf plainFmt { shortLog with Title := lit "a \"b\"" } = some u ∧ ∀ v, ¬ IsJson v u) ∧
    (∃ u, jsonOf plainFmt { shortLog with Title := lit "a\nb" } = some u ∧ ∀ v, ¬ IsJson v u) ∧
    (∃ u, jsonOf plainFmt { shortLog with FilePath := lit "C:\\data" } = some u ∧ ∀ v, ¬ IsJson v u) ∧
    (∃ u, jsonOf nanFmt shortLog = some u ∧ ∀ v, ¬ IsJson v u) ∧
    ∃ u, jsonOf plainFmt { shortLog with FilePath := lit "out\\new" } = some u ∧ memberOf "FilePath" (some u) = some (lit "out\new") ∧
      ∀ v, IsJson v u → v ≠ fileValue plainFmt { shortLog with FilePath := lit "out\\new" } := by
  refine ⟨not_json (by decide +kernel), not_json (by decide +kernel), not_json (by decide +kernel), not_json (by decide +kernel), ?_⟩
  have h1 : memberOf "FilePath" (jsonOf plainFmt { shortLog with FilePath := lit "out\\new" }) = some (lit "out\new") := by decide +kernel
  cases h : jsonOf plainFmt { shortLog with FilePath := lit "out\\new" } with
  | none => rw [h] at h1; cases h1
  | some u =>
    rw [h] at h1
    refine ⟨u, rfl, h1, fun v hv e => ?_⟩
    have h2 := parse_run hv
    unfold memberOf at h1
    rw [Option.bind_some, h2, e] at h1
    exact absurd h1 (by decide +kernel)

/-- a title that closes its string and opens another member: the text is JSON, but not of this log -/
example : ¬ FileLegible plainFmt { shortLog with Title := lit "a\" , \"Title\" : \"b" } ∧
    ∃ u, jsonOf plainFmt { shortLog with Title := lit "a\" , \"Title\" : \"b" } = some u ∧ (Json.parse u).isSome = true := by
  refine ⟨fun h => absurd h.title (by decide +kernel), ?_⟩
  have h : ((jsonOf plainFmt { shortLog with Title := lit "a\" , \"Title\" : \"b" }).map fun u => (Json.parse u).isSome) = some true := by decide +kernel
  obtain ⟨u, h1, h2⟩ := Option.map_eq_some_iff.1 h
  exact ⟨u, h1, h2⟩

end Verif.Props
