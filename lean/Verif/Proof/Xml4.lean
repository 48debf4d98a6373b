import Verif.Proof.Xml3
/-!
# The xml text of a file shows the tree of its log
-/
namespace Verif.Xml
open Tec Spec

theorem splice_lines {zone : ZoneLog → M Str Unit} {line : Str → M Str Unit} {lt : Str → Str} (hl : ∀ t s, line t s = .ok () (s ++ lt t))
    (L R : List Str) (zs : List ZoneLog) (h : ∀ t ∈ L, t ≠ lit "#ZONE#") (s : Str) :
    splice zone line (L ++ R) zs s = splice zone line R zs (s ++ L.flatMap lt) := by
  induction L generalizing s with
  | nil => simp
  | cons a L ih =>
    rw [List.cons_append, splice.eq_def]
    simp only
    rw [if_neg (h a (by simp)), M.bind_ok (hl a s), ih (fun t ht => h t (by simp [ht])), List.flatMap_cons, List.append_assoc]

theorem splice_marks {zone : ZoneLog → M Str Unit} {line : Str → M Str Unit} {zt : ZoneLog → Str} (hz : ∀ z s, zone z s = .ok () (s ++ zt z))
    {α : Type} (as : List α) (R : List Str) (zs : List ZoneLog) (hlen : as.length = zs.length) (s : Str) :
    splice zone line (as.map (fun _ => lit "#ZONE#") ++ R) zs s = splice zone line R [] (s ++ zs.flatMap zt) := by
  induction zs generalizing s as with
  | nil =>
    obtain rfl := List.length_eq_zero_iff.1 hlen
    simp
  | cons z zs ih =>
    cases as with
    | nil => simp at hlen
    | cons a as =>
      rw [List.map_cons, List.cons_append, splice, if_pos rfl, M.bind_ok (hz z s), ih as (by simpa using hlen), List.flatMap_cons, List.append_assoc]

/-- the lines of the log are those that `gen_xml` generates for it -/
structure XmlReady (F : Fmt) (l : FileLog) : Prop where
  file : l.Xml_Text = fileHead F l ++ l.Zones.map (fun _ => lit "#ZONE#") ++ fileTail
  zones : ∀ z ∈ l.Zones, z.Xml_Text = zoneLines F z

/-- the text of a file -/
def fileText (F : Fmt) (d : Nat) (l : FileLog) : Str :=
  ttext d (fileHead F l) ++ (l.Zones.flatMap fun z => ttext (d + 2) (zoneLines F z)) ++ ttext d fileTail

theorem notMark_cons {c : UInt8} {l : Str} (h : c ≠ 35) : c :: l ≠ lit "#ZONE#" := by
  intro e
  exact h (List.cons.inj e).1

theorem auxLines_tab {m : AuxMap} : ∀ t ∈ auxLines m, ∃ l, t = 9 :: l := by
  intro t ht
  unfold auxLines at ht
  split at ht
  · rcases List.mem_append.1 ht with ht | ht
    · rcases List.mem_cons.1 ht with rfl | ht
      · exact ⟨_, rfl⟩
      · obtain ⟨x, -, rfl⟩ := List.mem_map.1 ht
        exact ⟨_, rfl⟩
    · rw [List.mem_singleton.1 ht]; exact ⟨_, rfl⟩
  · cases ht

theorem fileHead_noMark (F : Fmt) (l : FileLog) : ∀ t ∈ fileHead F l, t ≠ lit "#ZONE#" := by
  intro t ht
  unfold fileHead at ht
  rcases List.mem_append.1 ht with ht | ht
  · rcases List.mem_append.1 ht with ht | ht
    · simp only [List.mem_cons, List.not_mem_nil, or_false] at ht
      rcases ht with rfl | rfl | rfl | rfl | rfl | rfl | rfl | rfl | rfl
      · exact notMark_cons (c := 60) (by decide)
      all_goals exact notMark_cons (c := 9) (by decide)
    · obtain ⟨q, rfl⟩ := auxLines_tab t ht
      exact notMark_cons (by decide)
  · rw [List.mem_singleton.1 ht]; decide

theorem fileTail_noMark : ∀ t ∈ fileTail, t ≠ lit "#ZONE#" := by decide

theorem flatMap_congr' {α : Type} {f g : α → Str} (l : List α) (h : ∀ x ∈ l, f x = g x) : l.flatMap f = l.flatMap g := by
  induction l with
  | nil => rfl
  | cons a l ih => rw [List.flatMap_cons, List.flatMap_cons, h a (by simp), ih fun x hx => h x (by simp [hx])]

theorem each_lines {m : Str → M Str Unit} {g : Str → Str} (h : ∀ t s, m t s = .ok () (s ++ g t)) (L : List Str) (s : Str) :
    each L m s = .ok () (s ++ L.flatMap g) := by
  induction L generalizing s with
  | nil => show Res.ok () s = _; simp
  | cons a L ih => rw [each, M.bind_ok (h a s), ih, List.flatMap_cons, List.append_assoc]

theorem write_xml_run {F : Fmt} {l : FileLog} (h : XmlReady F l) {d : Int} (h0 : 0 ≤ d) (h1 : d + 2 ≤ 2147483647) (s : Str) :
    l.write_xml d s = .ok () (s ++ fileText F d.toNat l) := by
  unfold FileLog.write_xml
  have hline : ∀ t s, (tabs d >>= fun _ => putLine t) s = .ok () (s ++ tline d.toNat t) := fun t s => tabLine_run h0 t s
  have hzone : ∀ (z : ZoneLog) s, (do let k ← i32 (d + 2); z.write_xml k : M Str Unit) s = .ok () (s ++ ttext (d.toNat + 2) z.Xml_Text) := by
    intro z s
    rw [M.liftM_eq, i32_ok ⟨by omega, h1⟩, M.lift_ok, pure_bind]
    have := each_lines (fun t s => tabLine_run (show 0 ≤ d + 2 by omega) t s) z.Xml_Text s
    rw [show (d + 2).toNat = d.toNat + 2 by omega] at this
    exact this
  rw [h.file, List.append_assoc, splice_lines hline _ _ _ (fileHead_noMark F l), splice_marks hzone l.Zones _ l.Zones rfl]
  have e := splice_lines (zone := fun z : ZoneLog => (do let k ← i32 (d + 2); z.write_xml k : M Str Unit)) hline fileTail [] [] fileTail_noMark
    (s ++ (fileHead F l).flatMap (tline d.toNat) ++ l.Zones.flatMap fun z => ttext (d.toNat + 2) z.Xml_Text)
  rw [List.append_nil] at e
  rw [e, flatMap_congr' l.Zones (f := fun z => ttext (d.toNat + 2) z.Xml_Text) (g := fun z => ttext (d.toNat + 2) (zoneLines F z)) fun z hz => by
    show ttext _ z.Xml_Text = _; rw [h.zones z hz]]
  show Res.ok () _ = _
  unfold fileText ttext
  simp only [List.append_assoc]

theorem flatten_map {α : Type} (l : List α) (g : α → Str) : (l.map g).flatten = l.flatMap g := List.flatMap_def.symm

theorem block_vars (d : Nat) {vs : List Str} (hv : ∀ v ∈ vs, IsName v) (hl : vs.length ≤ 2147483648) :
    Block [.elem (lit "Variables") [] (vs.zipIdx.map fun v => .elem v.1 [(lit "i", dec v.2)] [])] (tline d (varsLine vs)) := by
  have hb : Block (vs.zipIdx.map fun v => .elem v.1 [(lit "i", dec v.2)] [])
      (vs.zipIdx.flatMap fun x => lit " <" ++ cstr x.1 ++ lit " i=\"" ++ dec (toI32 x.2) ++ lit "\"/>") := by
    apply block_map
    intro x hx
    obtain ⟨h1, h2⟩ := mem_zipIdx_lt hx
    have hn := hv _ h1
    have := Block.one (a := lit " ") (b := []) (by decide) (Shows.sealed hn (attr_name (k := lit "i") (v := dec (x.2 : Int)) (by decide) (printed_plain (dec_printed _)).2.1)) blank_nil
    rw [name_cstr hn, toI32_small (Nat.lt_of_lt_of_le h2 hl)]
    simp only [attrsText, List.flatMap_cons, List.flatMap_nil, List.append_nil, List.append_assoc] at this ⊢
    exact this
  have := block_line d tab1 ((hb.append (Block.nil (w := lit " ") (by decide))).shows (n := lit "Variables") (by decide) attrsOk_nil)
  unfold varsLine
  rw [flatten_map]
  simp only [attrsText, List.flatMap_nil, List.append_nil, List.append_assoc] at this ⊢
  exact this

theorem block_file {F : Fmt} (hF : PrintsNumbers F) (d : Nat) {l : FileLog} (h : FileTidy l) : Block [fileNode F l] (fileText F d l) := by
  have pn : Plain (l.FileName ++ lit ".plt") := by
    intro b hb
    rcases List.mem_append.1 hb with hb | hb
    · exact h.name.1 b hb
    · exact (by decide : Plain (lit ".plt")) b hb
  have b1 : Block [field (lit "FileName") (l.FileName ++ lit ".plt"), field (lit "FilePath") l.FilePath, field (lit "Time") l.Time_Begin,
      field (lit "UsingTime") (F.f5 (l.UsingTime.getD 0)), field (lit "Title") l.Title,
      .comment (lit "0 = FULL, 1 = GRID, 2 = SOLUTION"), field (lit "FileType") (dec l.FileType),
      .elem (lit "Variables") [] (l.Variables.zipIdx.map fun v => .elem v.1 [(lit "i", dec v.2)] [])]
      (ttext d [lit "\t<FileName>" ++ cstr (l.FileName ++ lit ".plt") ++ lit "</FileName>",
    lit "\t<FilePath>" ++ cstr l.FilePath ++ lit "</FilePath>", lit "\t<Time>" ++ cstr l.Time_Begin ++ lit "</Time>",
    lit "\t<UsingTime>" ++ F.f5 (l.UsingTime.getD 0) ++ lit "</UsingTime>", lit "\t<Title>" ++ cstr l.Title ++ lit "</Title>",
    lit "\t<!--0 = FULL, 1 = GRID, 2 = SOLUTION-->", lit "\t<FileType>" ++ dec l.FileType ++ lit "</FileType>", varsLine l.Variables]) := by
    have f1 := block_field d (n := lit "FileName") tab1 (by decide) pn
    have f2 := block_field d (n := lit "FilePath") tab1 (by decide) h.path
    have f3 := block_field d (n := lit "Time") tab1 (by decide) h.time
    have f4 := block_field d (n := lit "UsingTime") tab1 (by decide) (printed_plain (hF (l.UsingTime.getD 0)).2).1
    have f5 := block_field d (n := lit "Title") tab1 (by decide) h.title
    have f6 := block_line d tab1 (Shows.comment (v := lit "0 = FULL, 1 = GRID, 2 = SOLUTION") (by decide))
    have f7 := block_field d (n := lit "FileType") tab1 (by decide) (printed_plain (dec_printed l.FileType)).1
    have f8 := block_vars d h.vars h.few
    have := f1.append (f2.append (f3.append (f4.append (f5.append (f6.append (f7.append f8))))))
    rw [plain_cstr pn, plain_cstr h.path, plain_cstr h.time, plain_cstr h.title]
    simp only [ttext_cons, ttext_nil, List.append_nil]
    simp only [List.append_assoc] at this ⊢
    exact this
  have b2 := block_aux d h.aux
  have b3 : Block [.elem (lit "Zones") [] (l.Zones.map (zoneNode F))]
      (tline d (lit "\t<Zones>") ++ (l.Zones.flatMap fun z => ttext (d + 2) (zoneLines F z)) ++ tline d (lit "\t</Zones>")) := by
    have hb : Block (l.Zones.map (zoneNode F)) (l.Zones.flatMap fun z => ttext (d + 2) (zoneLines F z)) :=
      block_map _ fun z hz => block_zone hF (d + 2) (h.zones z hz)
    exact block_wrap d (ind := lit "\t") (n := lit "Zones") tab1 (by decide) attrsOk_nil hb
  have all := (b1.append b2).append b3
  have := block_wrap d (ind := []) (n := lit "File") blank_nil (by decide) (attr_name (k := lit "FileName") (by decide) h.name.2) all
  unfold fileNode fileText fileHead fileTail
  rw [plain_cstr h.name.1]
  simp only [List.nil_append, List.append_assoc, List.cons_append, ttext_append, ttext_cons, ttext_nil, List.append_nil, attrsText,
    List.flatMap_cons, List.flatMap_nil] at this ⊢
  exact this

theorem gen_ready {F : Fmt} {l l' : FileLog} (h : l.gen_xml F = .ok l') (h0 : l.Xml_Text = []) (hz : ∀ z ∈ l.Zones, z.Xml_Text = []) : XmlReady F l' := by
  rw [fileGen_inv h]
  constructor
  · simp only [h0, List.nil_append, List.map_map]
    rfl
  · intro z hm
    obtain ⟨y, hy, rfl⟩ := List.mem_map.1 hm
    simp only [hz y hy, List.nil_append]
    rfl

/-- the tree depends on the described data only -/
theorem gen_node {F : Fmt} {l l' : FileLog} (h : l.gen_xml F = .ok l') : fileNode F l' = fileNode F l := by
  rw [fileGen_inv h]
  unfold fileNode
  simp only [List.map_map]
  rfl

theorem gen_tidy {F : Fmt} {l l' : FileLog} (h : l.gen_xml F = .ok l') (t : FileTidy l) : FileTidy l' := by
  rw [fileGen_inv h]
  refine ⟨t.name, t.path, t.time, t.title, t.vars, t.few, t.aux, fun z hz => ?_⟩
  obtain ⟨y, hy, rfl⟩ := List.mem_map.1 hz
  have := t.zones y hy
  exact ⟨this.name, this.aux, this.data, this.few⟩

def declText : Str := lit "xml version=\"1.0\" encoding=\"UTF-8\""

theorem parse_file {F : Fmt} (hF : PrintsNumbers F) {l : FileLog} (h : FileTidy l) (d : Nat) :
    parse (lit "<?xml version=\"1.0\" encoding=\"UTF-8\"?>\n" ++ fileText F d l) = .ok [.decl declText, fileNode F l] := by
  obtain ⟨t, w, e, ht, hw⟩ := Block.append (Block.nil (w := lit "\n") (by decide)) (block_file hF d h)
  have := parse_decl (v := declText) (by decide) ht hw
  rw [← e] at this
  exact this

end Verif.Xml
