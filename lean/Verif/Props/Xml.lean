import Verif.Proof.Xml8
import Verif.Proof.Xml9
import Verif.Props.TecText
/-!
# Reading xml: C52 to C54, C56, C57
-/
namespace Verif.Props
open Spec Tec Xml

/-! ## C52 -/

/-- C52: a text that shows a list of nodes, with white space behind it, is loaded as these nodes -/
theorem C52 {l : List Node} {t w : Str} (h : ShowsAll l t) (hl : l ≠ []) (hw : Blank w) : loadFile (some (t ++ w)) = .ok l := by
  have := parse_all h hl hw
  cases e : t ++ w with
  | nil => rw [e] at this; cases this
  | cons a q => rw [e] at this; exact this

/-- with a declaration before them -/
theorem C52_decl {v : Str} (hv : ∀ b ∈ v, b ≠ 0 ∧ b ≠ 13 ∧ b ≠ 63) {l : List Node} {t w : Str} (h : ShowsAll l t) (hw : Blank w) :
    loadFile (some (lit "<?" ++ v ++ lit "?>" ++ t ++ w)) = .ok (.decl v :: l) := by
  have := parse_decl hv h hw
  simp only [List.append_assoc]
  exact this

/-- so a text shows at most one list of nodes -/
theorem C52_unique {l l' : List Node} {t : Str} (h : ShowsAll l t) (h' : ShowsAll l' t) : l = l' := by
  have a := parse_decl (v := []) (by simp) h (w := []) (by intro b hb; cases hb)
  rw [parse_decl (v := []) (by simp) h' (w := []) (by intro b hb; cases hb)] at a
  cases a
  rfl

/-- the bound on the number of rounds in the model of the reader has no effect -/
theorem C52_rounds (f : Nat) (doc : Bool) (cs : List Node) (p : Str) (h : p.length ≤ f) : parseNodes f doc cs p = parseNodes p.length doc cs p :=
  (parseNodes_fuel _ p (le_refl _) doc cs).1 f _ h (le_refl _)

theorem C52_rounds_attrs (f : Nat) (as : List (Str × Str)) (p : Str) (h : p.length < f) : parseAttrs f as p = parseAttrs (p.length + 1) as p :=
  parseAttrs_fuel _ _ _ _ h (Nat.lt_succ_self _)

/-- a comment, an element with two attributes, a text, an element inside -/
example : ShowsAll [.comment (lit " c "), .elem (lit "File") [(lit "a", lit "x<y"), (lit "b", [])] [.elem (lit "i") [] [.text false (lit " 1 > 0 ")], .elem (lit "j") [] []]]
    (lit " " ++ lit "<!-- c -->" ++ (lit "\n" ++ lit "<File a=\"x<y\" b=\"\"> <i> 1 > 0 </i><j/>\t</File>" ++ [])) := by
  refine .cons (by decide) (.comment (v := lit " c ") (by decide)) (.cons (by decide) ?_ .nil)
  refine Shows.node (n := lit "File") (as := [(lit "a", lit "x<y"), (lit "b", [])]) (t := lit " <i> 1 > 0 </i><j/>") (w := lit "\t") (by decide) ⟨by decide, by decide⟩ ?_ (by decide)
  refine ShowsAll.cons (w := lit " ") (s := lit "<i> 1 > 0 </i>") (t := lit "<j/>") (by decide) (.leaf (n := lit "i") (as := []) (v := lit " 1 > 0 ") (by decide) ⟨by decide, by decide⟩ (by decide) (by decide)) ?_
  exact ShowsAll.cons (w := []) (s := lit "<j/>") (t := []) (by decide) (.sealed (n := lit "j") (as := []) (by decide) ⟨by decide, by decide⟩) .nil

/-! ## C57 -/

/-- C57: every text without NUL and carriage return can be written between two tags, if its special characters are escaped -/
theorem C57 {n v : Str} (hn : IsName n) (hv : ∀ b ∈ v, b ≠ 0 ∧ b ≠ 13) (vis : Visible v) :
    loadFile (some (lit "<" ++ n ++ lit ">" ++ escape v ++ lit "</" ++ n ++ lit ">")) = .ok [.elem n [] [.text false v]] := by
  show parse (lit "<" ++ n ++ lit ">" ++ escape v ++ lit "</" ++ n ++ lit ">") = _
  exact parse_escaped hn hv vis

/-- and as the value of an attribute, even if nothing of it is visible -/
theorem C57_attr {n a v : Str} (hn : IsName n) (ha : IsName a) (hv : ∀ b ∈ v, b ≠ 0 ∧ b ≠ 13) :
    loadFile (some (lit "<" ++ n ++ lit " " ++ a ++ lit "=\"" ++ escape v ++ lit "\"/>")) = .ok [.elem n [(a, v)] []] := by
  show parse (lit "<" ++ n ++ lit " " ++ a ++ lit "=\"" ++ escape v ++ lit "\"/>") = _
  exact parse_escaped_attr hn ha hv

example : IsName (lit "Title") ∧ (∀ b ∈ lit "a<b & \"c\"", b ≠ 0 ∧ b ≠ 13) ∧ Visible (lit "a<b & \"c\"") ∧
    escape (lit "a<b & \"c\"") = lit "a&lt;b &amp; &quot;c&quot;" := by decide

/-! ## C53 -/

/-- the file that `write_xml()` creates for a log -/
def xmlPath (l : FileLog) : Str := l.FilePath ++ lit "/" ++ l.FileName ++ lit ".xml"

/-- C53, for a log whose texts need no escaping (`FileTidy` of Verif/Spec/XmlLog.lean): the xml written for it is loaded as the
tree of the log, whatever the indentation -/
theorem C53_partial {F : Fmt} (hF : PrintsNumbers F) {l l' : FileLog} (ht : FileTidy l) (h0 : l.Xml_Text = []) (hz : ∀ z ∈ l.Zones, z.Xml_Text = [])
    (hg : l.gen_xml F = .ok l') {d : Int} (d0 : 0 ≤ d) (d1 : d + 2 ≤ 2147483647) :
    ∃ t, (∀ s, l'.write_xml d s = .ok () (s ++ t)) ∧ loadFile (some t) = .ok [fileNode F l] ∧
      loadFile (some (lit "<?xml version=\"1.0\" encoding=\"UTF-8\"?>\n" ++ t)) = .ok [.decl declText, fileNode F l] := by
  refine ⟨fileText F d.toNat l', fun s => write_xml_run (gen_ready hg h0 hz) d0 d1 s, ?_, ?_⟩
  · obtain ⟨t, w, e, a, b⟩ := block_file hF d.toNat (gen_tidy hg ht)
    rw [e, ← gen_node hg]
    exact C52 a (by simp) b
  · rw [← gen_node hg]
    exact parse_file hF (gen_tidy hg ht) d.toNat

/-- the same with files: `write_xml()` succeeds and `load_xml` finds the root element `File` -/
theorem C53_partial_file {F : Fmt} (hF : PrintsNumbers F) {l l' : FileLog} (ht : FileTidy l) (h0 : l.Xml_Text = []) (hz : ∀ z ∈ l.Zones, z.Xml_Text = [])
    (hg : l.gen_xml F = .ok l') {canOpen : Str → Bool} (ho : canOpen (cstr (xmlPath l)) = true) {d : Int} (d0 : 0 ≤ d) (d1 : d + 2 ≤ 2147483647)
    (fs : Str → Option Str) :
    ∃ fs', l'.write_xml_file canOpen d fs = .ok () fs' ∧ load_xml fs' (xmlPath l) (lit "File") = .ok (fileNode F l) ∧
      ∀ p, p ≠ cstr (xmlPath l) → fs' p = fs p := by
  obtain ⟨t, h1, -, h2⟩ := C53_partial hF ht h0 hz hg d0 d1
  have hp : l'.FilePath ++ lit "/" ++ l'.FileName ++ lit ".xml" = xmlPath l := by rw [fileGen_inv hg]; rfl
  refine ⟨fun p => if p = cstr (xmlPath l) then some (lit "<?xml version=\"1.0\" encoding=\"UTF-8\"?>\n" ++ t) else fs p, ?_, ?_, fun p hp => if_neg hp⟩
  · unfold FileLog.write_xml_file toFile
    rw [hp, if_pos ho, h1]
  · unfold load_xml
    simp only
    rw [if_pos trivial, h2]
    rfl

theorem shortLog_tidy : FileTidy shortLog := by
  refine ⟨by decide +kernel, by decide +kernel, by decide +kernel, by decide +kernel, by decide +kernel, by decide +kernel, ?_, fun z hz => ?_⟩
  · unfold AuxTidy; decide +kernel
  · obtain rfl : z = _ := List.mem_singleton.1 hz
    refine ⟨by decide +kernel, ?_, by decide +kernel, by decide +kernel⟩
    unfold AuxTidy; decide +kernel

theorem shortLog_short : shortLog.Short plainFmt := by
  refine ⟨by decide +kernel, by decide +kernel, by decide +kernel, by decide +kernel, ⟨0, rfl, by decide +kernel⟩, by decide +kernel,
    by decide +kernel, by unfold AuxShort; decide +kernel, fun z hz => ?_⟩
  obtain rfl : z = _ := List.mem_singleton.1 hz
  refine ⟨by decide +kernel, by decide +kernel, by decide +kernel, by decide +kernel, ?_, ?_, ?_, ?_, ?_, by unfold AuxShort; decide +kernel, fun d hd => ?_⟩
  iterate 5 exact ⟨by decide +kernel, by decide +kernel, by decide +kernel⟩
  obtain rfl : d = _ := List.mem_singleton.1 hd
  exact ⟨⟨316, rfl, by decide⟩, rfl, rfl⟩

theorem plainFmt_prints : PrintsNumbers plainFmt := fun _ => by
  constructor <;> exact (by decide : lit "0" ≠ [] ∧ ∀ b ∈ lit "0", 33 ≤ b ∧ b ≤ 126 ∧ b ≠ 34 ∧ b ≠ 38 ∧ b ≠ 60)

/-- the hypotheses are met -/
example : FileTidy shortLog ∧ PrintsNumbers plainFmt ∧ shortLog.Xml_Text = [] ∧ (∀ z ∈ shortLog.Zones, z.Xml_Text = []) ∧
    ∃ l', shortLog.gen_xml plainFmt = .ok l' := by
  refine ⟨shortLog_tidy, plainFmt_prints, rfl, fun z hz => ?_, ?_⟩
  · obtain rfl : z = _ := List.mem_singleton.1 hz
    rfl
  · exact fileXml_ok (fun _ => (by decide : (lit "0").length ≤ 30)) shortLog_short

/-- the text written for a log -/
def textOf (l : FileLog) : Option Str :=
  match l.gen_xml plainFmt with
  | .ok l' =>
    match l'.write_xml 0 [] with
    | .ok _ t => some t
    | _ => none
  | _ => none

/-- the number of the error when a text is loaded -/
def codeOf (t : Option Str) : Option Nat :=
  match loadFile t with
  | .ok _ => none
  | .error e => some e.num

/-- the text of the child `n` of the first element -/
def textIn (n : String) (t : Option Str) : Option Str :=
  match loadFile t with
  | .ok (x :: _) =>
    match firstNamed (lit n) x.children with
    | some c => c.getText
    | none => none
  | _ => none

/-- C53 is false: a title with `<`, a variable whose name has a space or starts with a digit, auxiliary data whose name starts
with a digit give a text that cannot be loaded (the numbers are error IDs of tinyxml2); a title `&lt;` is loaded as `<`, one of blanks is lost -/
theorem C53_false :
    codeOf (textOf shortLog) = none ∧ textIn "Title" (textOf shortLog) = some (lit "title") ∧
    codeOf (textOf { shortLog with Title := lit "a<b" }) = some 7 ∧
    codeOf (textOf { shortLog with Variables := [lit "rho u"] }) = some 8 ∧
    codeOf (textOf { shortLog with Variables := [lit "2nd"] }) = some 17 ∧
    codeOf (textOf { shortLog with Auxiliary := [(lit "1", lit "x")] }) = some 17 ∧
    textIn "Title" (textOf { shortLog with Title := lit "&lt;" }) = some (lit "<") ∧
    textIn "Title" (textOf { shortLog with Title := lit "  " }) = none := by
  decide +kernel

/-! ## C54 -/

/-- C54, for a log with visible texts (`Seen`) and complete numbers (`FileNums`): `read_xml` of its tree returns a log with the same content; real numbers
are what `sscanf` makes of the printed ones -/
theorem C54_partial {F : Fmt} (hF : PrintsNumbers F) (hS : F.Short) {rd : Str → Option F64} {le f5 : F64 → F64} (hs : Scans F rd le f5) (junk : Nat → Junk)
    {l : FileLog} (hn : FileNums l) (seen : Seen l) (short : l.Short F) (hu : ∀ u, l.UsingTime = some u → (F.f5 (f5 u)).length ≤ 150) :
    ∃ l', FileLog.read_xml F rd junk (fileNode F l) FileLog.new = .ok l' ∧ bare l' = fileBack le f5 junk l := by
  obtain ⟨u, eu⟩ := Option.isSome_iff_exists.1 hn.used
  have hb : (fileBack le f5 junk l).Short F := back_short short eu (hu u eu)
  rw [(read_file hF hs junk hn).1 seen]
  obtain ⟨m, hm⟩ := fileXml_ok hS hb
  have hms : m.Short F := genXml_short hm hb
  obtain ⟨l', hl⟩ := fileJson_ok hS hms
  refine ⟨l', by rw [hm]; exact hl, ?_⟩
  rw [(fileJson_bare hl).1, fileXml_bare hm, back_bare]

/-- a text without a visible character: `GetText` gives a null pointer, which is made a `std::string` -/
theorem C54_false {F : Fmt} (hF : PrintsNumbers F) {rd : Str → Option F64} {le f5 : F64 → F64} (hs : Scans F rd le f5) (junk : Nat → Junk)
    {l : FileLog} (hn : FileNums l) (seen : ¬ Seen l) : FileLog.read_xml F rd junk (fileNode F l) FileLog.new = .ub .null :=
  (read_file hF hs junk hn).2 seen

/-- if printing what was scanned prints the same characters again, the log that was read gives the same xml text as the
log that was written -/
theorem C54_again {F : Fmt} (hF : PrintsNumbers F) {rd : Str → Option F64} {le f5 : F64 → F64} (hs : Scans F rd le f5)
    (hp : ∀ x, F.le (le x) = F.le x) (hq : ∀ x, F.f5 (f5 x) = F.f5 x) (junk : Nat → Junk)
    {l l₁ l₂ : FileLog} (hn : FileNums l) (h0 : l.Xml_Text = []) (hz : ∀ z ∈ l.Zones, z.Xml_Text = []) (hg : l.gen_xml F = .ok l₁)
    (hr : FileLog.read_xml F rd junk (fileNode F l) FileLog.new = .ok l₂) {d : Int} (d0 : 0 ≤ d) (d1 : d + 2 ≤ 2147483647) (s : Str) :
    l₂.write_xml d s = l₁.write_xml d s := by
  have seen : Seen l := by
    by_contra c
    rw [C54_false hF hs junk hn c] at hr
    cases hr
  rw [(read_file hF hs junk hn).1 seen] at hr
  obtain ⟨m, hm, hj⟩ := Out.bind_inv hr
  obtain ⟨b1, b2, b3⟩ := fileJson_bare hj
  have r1 : XmlReady F m := gen_ready hm rfl (by
    intro z hz
    obtain ⟨y, -, j, rfl⟩ := back_zone_mem hz
    rfl)
  rw [write_xml_run (ready_bare b1 b2 b3 r1) d0 d1, write_xml_run (gen_ready hg h0 hz) d0 d1]
  rw [← fileText_bare F _ l₂, b1, fileXml_bare hm, fileText_bare, back_text hp hq junk hn, ← fileText_bare F _ l₁, fileXml_bare hg, fileText_bare]

theorem shortLog_nums : FileNums shortLog := by
  refine ⟨by decide +kernel, rfl, ?_, fun z hz => ?_⟩
  · unfold AuxMap.Ordered; decide +kernel
  · obtain rfl : z = _ := List.mem_singleton.1 hz
    refine ⟨by decide +kernel, by decide +kernel, by decide +kernel, ?_, ?_, ?_, ?_, ?_, ?_, fun d hd => ?_⟩
    iterate 5 exact ⟨by decide +kernel, by decide +kernel, by decide +kernel⟩
    · unfold AuxMap.Ordered; decide +kernel
    · obtain rfl : d = _ := List.mem_singleton.1 hd
      exact ⟨by decide, ⟨316, rfl, by decide, by decide⟩, rfl, rfl⟩

theorem shortLog_seen : Seen shortLog := by
  refine ⟨by decide +kernel, by decide +kernel, by decide +kernel, by unfold AuxSeen; decide +kernel, fun z hz => ?_⟩
  obtain rfl : z = _ := List.mem_singleton.1 hz
  exact ⟨by decide +kernel, by unfold AuxSeen; decide +kernel⟩

/-- a way to scan what `plainFmt` prints -/
def plainScan (s : Str) : Option F64 := if s = lit "0" then some 0 else none

/-- the hypotheses are met, by a log that can be read and by one that cannot -/
example : FileNums shortLog ∧ Seen shortLog ∧ Scans plainFmt plainScan (fun _ => 0) (fun _ => 0) ∧
    FileNums { shortLog with Title := [] } ∧ ¬ Seen { shortLog with Title := [] } := by
  refine ⟨shortLog_nums, shortLog_seen, ⟨fun _ => (by decide : plainScan (lit "0") = some 0), fun _ => (by decide : plainScan (lit "0") = some 0)⟩, ⟨shortLog_nums.type, rfl, shortLog_nums.aux, shortLog_nums.zones⟩, ?_⟩
  intro h
  exact absurd h.title (by decide)

/-! ## C56 -/

/-- C56: `load_xml` throws one of three exceptions, told apart by what the file holds; otherwise it returns the first element of the wanted name -/
theorem C56 (fs : Str → Option Str) (file root : Str) :
    load_xml fs file root =
      match loadFile (fs (cstr file)) with
      | .error e =>
        if e = .fileNotFound then .err (.text (lit "case file " ++ file ++ lit " not found"))
        else .err (.text (lit "error when loading file " ++ file ++ lit ": error ID " ++ dec e.num))
      | .ok cs =>
        match cs.find? (fun c => c.isElem && c.name == cstr root) with
        | none => .err (.text (lit "node \"" ++ root ++ lit "\" not found in " ++ file))
        | some x => .ok x := by
  unfold load_xml firstNamed Node.named
  cases loadFile (fs (cstr file)) with
  | ok cs => rfl
  | error e => cases e <;> rfl

/-- the file is not there exactly if "not found" is reported -/
theorem C56_missing (c : Option Str) : loadFile c = .error .fileNotFound ↔ c = none := by
  cases c with
  | none => exact ⟨fun _ => rfl, fun _ => rfl⟩
  | some t =>
    refine ⟨fun h => absurd h ?_, fun h => by cases h⟩
    exact loadFile_found t

/-- `get_xmlnode` returns the first child element of the wanted name, or throws; a null pointer is undefined -/
theorem C56_get (x : Node) (n : Str) :
    get_xmlnode (some x) n =
      match x.children.find? (fun c => c.isElem && c.name == cstr n) with
      | none => .err (.text (lit "node \"" ++ n ++ lit "\" not found in node \"" ++ x.name ++ lit "\""))
      | some c => .ok (some c) := by
  show (check_xmlnode (some x) n >>= fun _ => deref (some x) >>= fun y => Out.ok (firstNamed (cstr n) y.children)) = _
  have e : firstNamed (cstr n) x.children = x.children.find? (fun c => c.isElem && c.name == cstr n) := rfl
  unfold check_xmlnode
  simp only [deref, ok_bind, e]
  cases x.children.find? (fun c => c.isElem && c.name == cstr n) with
  | none => rfl
  | some c => rfl

theorem C56_null (n : Str) : get_xmlnode none n = .ub .null ∧ check_xmlnode none n = .ub .null := ⟨rfl, rfl⟩

/-- `read_xml` never throws -/
theorem C56_noThrow (F : Fmt) (rd : Str → Option F64) (junk : Nat → Junk) (root : Node) (l : FileLog) (e : Err) :
    FileLog.read_xml F rd junk root l ≠ .err e := noErr_file F rd junk root l e

/-- what has to be there: if anything of it is missing, `read_xml` uses a null pointer -/
theorem C56_needs {F : Fmt} {rd : Str → Option F64} {junk : Nat → Junk} {root : Node} {l l' : FileLog}
    (h : FileLog.read_xml F rd junk root l = .ok l') :
    (root.attr "FileName").isSome ∧
    (∀ n ∈ ["FilePath", "Time", "UsingTime", "Title", "FileType", "Variables", "Zones"], HasChild root n) ∧
    ∃ zs, root.child "Zones" = .ok zs ∧
      ∀ e ∈ zs.elems, ∀ n ∈ ["ZoneName", "StrandId", "Org_Dim", "Real_Dim", "Org_Max", "Skip", "Begin", "End", "Real_Max", "Datas"], HasChild e n := by
  obtain ⟨h1, h2, vs, zs, -, h4, -, -, h5⟩ := file_needs h
  exact ⟨h1, h2, zs, h4, h5⟩

/-- `read_xml` does not clear the log: variables and zones are added to those that are there -/
theorem C56_appends {F : Fmt} {rd : Str → Option F64} {junk : Nat → Junk} {root : Node} {l l' : FileLog}
    (h : FileLog.read_xml F rd junk root l = .ok l') :
    ∃ vs zs, root.child "Variables" = .ok vs ∧ root.child "Zones" = .ok zs ∧ l'.Variables = l.Variables ++ vs.elems.map Node.name ∧
      l'.Zones.length = l.Zones.length + zs.elems.length := by
  obtain ⟨-, -, vs, zs, h3, h4, h5, h6, -⟩ := file_needs h
  exact ⟨vs, zs, h3, h4, h5, h6⟩

end Verif.Props
