import Verif.Proof.Xml6
/-!
# Reading the tree of a log: files
-/
namespace Verif.Xml
open Tec Spec

theorem file_child (F : Fmt) (l : FileLog) (n : String) (h2 : lit n ≠ lit "Auxiliary") (x : Node)
    (h : firstNamed (lit n) ([field (lit "FileName") (l.FileName ++ lit ".plt"), field (lit "FilePath") l.FilePath, field (lit "Time") l.Time_Begin,
      field (lit "UsingTime") (F.f5 (l.UsingTime.getD 0)), field (lit "Title") l.Title,
      .comment (lit "0 = FULL, 1 = GRID, 2 = SOLUTION"), field (lit "FileType") (dec l.FileType),
      .elem (lit "Variables") [] (l.Variables.zipIdx.map fun v => .elem v.1 [(lit "i", dec v.2)] [])]
      ++ [.elem (lit "Zones") [] (l.Zones.map (zoneNode F))]) = some x) : (fileNode F l).child n = .ok x := by
  unfold Node.child
  rw [← show deref (some x) = Out.ok x from rfl, ← h]
  congr 1
  unfold fileNode
  show firstNamed (lit n) (_ ++ _ ++ _) = _
  simp only [firstNamed_append, firstNamed_aux _ h2, Option.or_none]

theorem file_aux (F : Fmt) (l : FileLog) : firstNamed (lit "Auxiliary") (fileNode F l).children = (auxNodes l.Auxiliary).head? := by
  unfold fileNode
  show firstNamed (lit "Auxiliary") (_ ++ _ ++ _) = _
  simp only [firstNamed_append]
  unfold auxNodes
  split
  · rfl
  · rfl

theorem elems_zones (F : Fmt) (zs : List ZoneLog) : (Node.elem (lit "Zones") [] (zs.map (zoneNode F))).elems = zs.map (zoneNode F) := by
  refine List.filter_eq_self.2 ?_
  intro x hx
  obtain ⟨e, -, rfl⟩ := List.mem_map.1 hx
  rfl

theorem elems_vars (vs : List Str) : (Node.elem (lit "Variables") [] (vs.zipIdx.map fun v => .elem v.1 [(lit "i", dec v.2)] [])).elems.map Node.name = vs := by
  have : (Node.elem (lit "Variables") [] (vs.zipIdx.map fun v => .elem v.1 [(lit "i", dec v.2)] [])).elems = vs.zipIdx.map fun v => Node.elem v.1 [(lit "i", dec v.2)] [] := by
    refine List.filter_eq_self.2 ?_
    intro x hx
    obtain ⟨e, -, rfl⟩ := List.mem_map.1 hx
    rfl
  rw [this, List.map_map]
  have := zipIdx_fst (fun v : Str => v) vs 0
  rw [List.map_id'] at this
  exact this

theorem read_file {F : Fmt} (hF : PrintsNumbers F) {rd : Str → Option F64} {le f5 : F64 → F64} (hs : Scans F rd le f5) (junk : Nat → Junk) {l : FileLog}
    (h : FileNums l) :
    (Seen l → FileLog.read_xml F rd junk (fileNode F l) FileLog.new = ((fileBack le f5 junk l).gen_xml F >>= fun m => m.gen_json F)) ∧
    (¬ Seen l → FileLog.read_xml F rd junk (fileNode F l) FileLog.new = .ub .null) := by
  obtain ⟨u, hu⟩ := Option.isSome_iff_exists.1 h.used
  unfold FileLog.read_xml
  rw [show (fileNode F l).attr "FileName" = some l.FileName from rfl, show toStr (some l.FileName) = .ok l.FileName from rfl, ok_bind,
    file_child F l "FilePath" (by decide) _ rfl, ok_bind, getText_field]
  by_cases h1 : Visible l.FilePath
  swap
  · rw [if_neg h1]; exact ⟨fun c => absurd c.path h1, fun _ => rfl⟩
  rw [if_pos h1, show toStr (some l.FilePath) = .ok l.FilePath from rfl, ok_bind, file_child F l "Time" (by decide) _ rfl, ok_bind, getText_field]
  by_cases h2 : Visible l.Time_Begin
  swap
  · rw [if_neg h2]; exact ⟨fun c => absurd c.time h2, fun _ => rfl⟩
  rw [if_pos h2, show toStr (some l.Time_Begin) = .ok l.Time_Begin from rfl, ok_bind, file_child F l "UsingTime" (by decide) _ rfl, ok_bind,
    queryDouble_field (hF _).2 (hs.f5 _)]
  simp only
  rw [file_child F l "Title" (by decide) _ rfl, ok_bind, getText_field]
  by_cases h3 : Visible l.Title
  swap
  · rw [if_neg h3]; exact ⟨fun c => absurd c.title h3, fun _ => rfl⟩
  rw [if_pos h3, show toStr (some l.Title) = .ok l.Title from rfl, ok_bind, file_child F l "FileType" (by decide) _ rfl, ok_bind, queryInt_field h.type, ok_bind,
    show known (some l.FileType) = .ok l.FileType from rfl, ok_bind, file_child F l "Variables" (by decide) _ rfl, ok_bind, elems_vars]
  have ha : readAux (fileNode F l) FileLog.new.Auxiliary = _ := readAux_nodes h.aux (file_aux F l)
  rw [ha]
  by_cases h4 : AuxSeen l.Auxiliary
  swap
  · rw [if_neg h4]; exact ⟨fun c => absurd c.aux h4, fun _ => rfl⟩
  rw [if_pos h4, ok_bind, file_child F l "Zones" (by decide) _ rfl, ok_bind, elems_zones, read_zones hF hs junk l.Zones 0 h.zones]
  by_cases h5 : ∀ z ∈ l.Zones, Visible z.ZoneName ∧ AuxSeen z.Auxiliary
  swap
  · rw [if_neg h5]; exact ⟨fun c => absurd c.zones h5, fun _ => rfl⟩
  rw [if_pos h5, ok_bind]
  refine ⟨fun _ => ?_, fun c => absurd ⟨h1, h2, h3, h4, h5⟩ c⟩
  unfold fileBack
  rw [hu]
  rfl

/-! ## `gen_json` changes nothing but its own lines -/

theorem zoneJson_bare {F : Fmt} {z z' : ZoneLog} (h : z.gen_json F = .ok z') : zoneBare z' = zoneBare z ∧ z'.Xml_Text = z.Xml_Text := by
  unfold ZoneLog.gen_json at h
  iterate 12 obtain ⟨_, -, h⟩ := Out.bind_inv h
  cases h
  exact ⟨rfl, rfl⟩

theorem eachZone_json {F : Fmt} : ∀ {l r : List ZoneLog}, eachZone (ZoneLog.gen_json F) l = .ok r →
    r.map zoneBare = l.map zoneBare ∧ r.map (·.Xml_Text) = l.map (·.Xml_Text) := by
  intro l
  induction l with
  | nil => intro r h; cases h; exact ⟨rfl, rfl⟩
  | cons a l ih =>
    intro r h
    unfold eachZone at h
    obtain ⟨t, h1, h⟩ := Out.bind_inv h
    obtain ⟨q, h2, h⟩ := Out.bind_inv h
    cases h
    obtain ⟨i1, i2⟩ := ih h2
    obtain ⟨j1, j2⟩ := zoneJson_bare h1
    simp only [List.map_cons, i1, i2, j1, j2]
    exact ⟨trivial, trivial⟩

theorem fileJson_bare {F : Fmt} {l l' : FileLog} (h : l.gen_json F = .ok l') :
    bare l' = bare l ∧ l'.Xml_Text = l.Xml_Text ∧ l'.Zones.map (·.Xml_Text) = l.Zones.map (·.Xml_Text) := by
  unfold FileLog.gen_json at h
  iterate 9 obtain ⟨_, -, h⟩ := Out.bind_inv h
  obtain ⟨zs, hz, h⟩ := Out.bind_inv h
  cases h
  obtain ⟨h1, h2⟩ := eachZone_json hz
  refine ⟨?_, rfl, h2⟩
  unfold bare
  simp only [h1]

theorem fileXml_bare {F : Fmt} {l l' : FileLog} (h : l.gen_xml F = .ok l') : bare l' = bare l := by
  rw [fileGen_inv h]
  unfold bare
  simp only [List.map_map]
  rfl

theorem map_bare_zones (l : FileLog) : (bare l).Zones = l.Zones.map zoneBare := rfl

theorem fileHead_bare (F : Fmt) (l : FileLog) : fileHead F (bare l) = fileHead F l := rfl

theorem zoneLines_bare (F : Fmt) (z : ZoneLog) : zoneLines F (zoneBare z) = zoneLines F z := rfl

theorem fileText_bare (F : Fmt) (d : Nat) (l : FileLog) : fileText F d (bare l) = fileText F d l := by
  unfold fileText
  rw [fileHead_bare, map_bare_zones, List.flatMap_map]
  rfl

theorem fileNode_bare (F : Fmt) (l : FileLog) : fileNode F (bare l) = fileNode F l := by
  unfold fileNode
  rw [map_bare_zones, List.map_map]
  rfl

/-- the lines fit the log: what `XmlReady` says, by positions -/
theorem ready_iff (F : Fmt) (l : FileLog) : XmlReady F l ↔
    l.Xml_Text = fileHead F l ++ l.Zones.map (fun _ => lit "#ZONE#") ++ fileTail ∧ l.Zones.map (·.Xml_Text) = l.Zones.map (zoneLines F) := by
  constructor
  · intro h
    exact ⟨h.file, List.map_congr_left h.zones⟩
  · rintro ⟨h1, h2⟩
    exact ⟨h1, fun z hz => List.map_inj_left.1 h2 z hz⟩

theorem ready_bare {F : Fmt} {l l' : FileLog} (hb : bare l' = bare l) (hx : l'.Xml_Text = l.Xml_Text)
    (hz : l'.Zones.map (·.Xml_Text) = l.Zones.map (·.Xml_Text)) (h : XmlReady F l) : XmlReady F l' := by
  rw [ready_iff] at h ⊢
  obtain ⟨h1, h2⟩ := h
  have hzb : l'.Zones.map zoneBare = l.Zones.map zoneBare := by rw [← map_bare_zones, ← map_bare_zones, hb]
  have e1 : l'.Zones.map (zoneLines F) = l.Zones.map (zoneLines F) := by
    have := congrArg (List.map (zoneLines F)) hzb
    rw [List.map_map, List.map_map] at this
    exact this
  have e2 : l'.Zones.map (fun _ => lit "#ZONE#") = l.Zones.map (fun _ => lit "#ZONE#") := by
    have := congrArg (List.map fun _ : ZoneLog => lit "#ZONE#") hzb
    rw [List.map_map, List.map_map] at this
    exact this
  constructor
  · rw [hx, h1, e2, ← fileHead_bare F l', hb, fileHead_bare]
  · rw [hz, h2, e1]

/-! ## The read log is fit to be written again -/

theorem back_bare (le f5 : F64 → F64) (junk : Nat → Junk) (l : FileLog) : bare (fileBack le f5 junk l) = fileBack le f5 junk l := by
  unfold bare fileBack
  simp only [List.map_map]
  rfl

theorem back_zone_mem {le f5 : F64 → F64} {junk : Nat → Junk} {l : FileLog} {z : ZoneLog} (h : z ∈ (fileBack le f5 junk l).Zones) :
    ∃ y ∈ l.Zones, ∃ j, z = zoneBack le j y := by
  obtain ⟨x, hx, rfl⟩ := List.mem_map.1 h
  exact ⟨x.1, (mem_zipIdx_lt hx).1, junk x.2, rfl⟩

theorem back_short {F : Fmt} {le f5 : F64 → F64} {junk : Nat → Junk} {l : FileLog} (h : l.Short F) {u : F64} (hu : l.UsingTime = some u)
    (hf : (F.f5 (f5 u)).length ≤ 150) : (fileBack le f5 junk l).Short F := by
  refine ⟨h.name, h.path, h.title, h.time, ⟨f5 u, by unfold fileBack; rw [hu]; rfl, hf⟩, h.type, h.vars, h.aux, fun z hz => ?_⟩
  obtain ⟨y, hy, j, rfl⟩ := back_zone_mem hz
  have s := h.zones y hy
  refine ⟨s.name, s.strand, s.dim, s.real, s.max, s.skip, s.head, s.tail, s.realMax, s.aux, fun d hd => ?_⟩
  obtain ⟨e, he, rfl⟩ := List.mem_map.1 hd
  obtain ⟨h1, h2, h3⟩ := s.data e he
  refine ⟨h1, ?_, ?_⟩
  · show (e.min.map le).isSome = true
    rw [Option.isSome_map]; exact h2
  · show (e.max.map le).isSome = true
    rw [Option.isSome_map]; exact h3

theorem back_dataLine {F : Fmt} {le : F64 → F64} (hp : ∀ x, F.le (le x) = F.le x) {d : DataLog} (h : d.min.isSome ∧ d.max.isSome) (i : Nat) :
    dataLine F (dataBack le d) i = dataLine F d i := by
  obtain ⟨mn, hmn⟩ := Option.isSome_iff_exists.1 h.1
  obtain ⟨mx, hmx⟩ := Option.isSome_iff_exists.1 h.2
  unfold dataLine dataBack
  simp only [hmn, hmx, Option.map_some, Option.getD_some, hp]

theorem back_zoneLines {F : Fmt} {le : F64 → F64} (hp : ∀ x, F.le (le x) = F.le x) (j : Junk) {z : ZoneLog} (h : ∀ d ∈ z.Data, DataNums d) :
    zoneLines F (zoneBack le j z) = zoneLines F z := by
  unfold zoneLines
  have e1 : (if (zoneBack le j z).StrandId ≠ -1 then [lit "\t<SolutionTime>" ++ F.le (zoneBack le j z).SolutionTime ++ lit "</SolutionTime>"] else []) =
      if z.StrandId ≠ -1 then [lit "\t<SolutionTime>" ++ F.le z.SolutionTime ++ lit "</SolutionTime>"] else [] := by
    show (if z.StrandId ≠ -1 then _ else _) = _
    by_cases hs : z.StrandId = -1
    · rw [if_neg (by simpa using hs), if_neg (by simpa using hs)]
    · rw [if_pos hs, if_pos hs]
      have : (zoneBack le j z).SolutionTime = le z.SolutionTime := if_neg hs
      rw [this, hp]
  have e2 : ((zoneBack le j z).Data.zipIdx.map fun x => dataLine F x.1 x.2) = z.Data.zipIdx.map fun x => dataLine F x.1 x.2 := by
    show ((z.Data.map (dataBack le)).zipIdx.map fun x => dataLine F x.1 x.2) = _
    rw [List.zipIdx_map, List.map_map]
    apply List.map_congr_left
    intro x hx
    have := h x.1 (mem_zipIdx_lt hx).1
    exact back_dataLine hp ⟨this.min, this.max⟩ x.2
  rw [e1, e2]
  rfl

theorem back_text {F : Fmt} {le f5 : F64 → F64} (hp : ∀ x, F.le (le x) = F.le x) (hq : ∀ x, F.f5 (f5 x) = F.f5 x) (junk : Nat → Junk) {l : FileLog}
    (h : FileNums l) (d : Nat) : fileText F d (fileBack le f5 junk l) = fileText F d l := by
  obtain ⟨u, hu⟩ := Option.isSome_iff_exists.1 h.used
  have e1 : fileHead F (fileBack le f5 junk l) = fileHead F l := by
    unfold fileHead fileBack
    simp only [hu, Option.map_some, Option.getD_some, hq]
  have e2 : ((fileBack le f5 junk l).Zones.flatMap fun z => ttext (d + 2) (zoneLines F z)) = l.Zones.flatMap fun z => ttext (d + 2) (zoneLines F z) := by
    show ((l.Zones.zipIdx.map fun z => zoneBack le (junk z.2) z.1).flatMap _) = _
    rw [List.flatMap_map]
    have key : ∀ (zs : List ZoneLog) (i : Nat), (∀ z ∈ zs, ZoneNums z) → ((zs.zipIdx i).flatMap fun x => ttext (d + 2) (zoneLines F (zoneBack le (junk x.2) x.1))) =
        zs.flatMap fun z => ttext (d + 2) (zoneLines F z) := by
      intro zs
      induction zs with
      | nil => intro i _; rfl
      | cons a zs ih =>
        intro i ha
        rw [List.zipIdx_cons, List.flatMap_cons, List.flatMap_cons, ih _ fun z hz => ha z (by simp [hz])]
        simp only
        rw [back_zoneLines hp _ (ha a (by simp)).data]
    exact key l.Zones 0 h.zones
  unfold fileText
  rw [e1, e2]

theorem genXml_short {F : Fmt} {l m : FileLog} (h : l.gen_xml F = .ok m) (s : l.Short F) : m.Short F := by
  rw [fileGen_inv h]
  refine ⟨s.name, s.path, s.title, s.time, s.used, s.type, s.vars, s.aux, fun z hz => ?_⟩
  obtain ⟨y, hy, rfl⟩ := List.mem_map.1 hz
  have := s.zones y hy
  exact ⟨this.name, this.strand, this.dim, this.real, this.max, this.skip, this.head, this.tail, this.realMax, this.aux, this.data⟩

end Verif.Xml
