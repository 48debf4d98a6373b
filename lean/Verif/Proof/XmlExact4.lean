import Verif.Proof.XmlExact3
import Verif.Proof.Xml4
/-!
# When the xml of a log is read as its tree
-/
namespace Verif.Xml
open Tec Spec

theorem Exact.sure {x : Node} {s : Str} (h : Shows x s) : Exact [x] s True := (Exact.known h).iff (by simp)

theorem Block.sure {l : List Node} {t : Str} (h : Block l t) : Exact l t True := by
  obtain ⟨t', w, rfl, hs, hw⟩ := h
  have key : ∀ {l : List Node} {t : Str}, ShowsAll l t → Exact l t True := by
    intro l
    induction l with
    | nil => intro t h; cases h; exact Exact.blank blank_nil
    | cons x l ih =>
      intro t h
      cases h with
      | cons hb hx ht =>
        have := ((Exact.blank hb).append (Exact.sure hx)).append (ih ht)
        exact this.iff (by simp)
  have := (key hs).append (Exact.blank hw)
  rw [List.append_nil] at this
  exact this.iff (by simp)

/-- `<n>v</n>` on a line of its own -/
theorem Exact.fieldLine (d : Nat) {ind n : Str} (hi : Blank ind) (hn : IsName n) (v : Str) :
    Exact [Spec.field n v] (tline d (ind ++ (lit "<" ++ (n ++ (lit ">" ++ (cstr v ++ (lit "</" ++ (n ++ lit ">")))))))) (TextLoads v) := by
  have := Exact.line d hi (Exact.field n v)
  rw [name_cstr hn] at this
  have := this.iff (Q := TextLoads v) ⟨fun h => h.2, fun h => ⟨hn, h⟩⟩
  simp only [List.append_assoc] at this
  exact this

theorem Exact.wrap (d : Nat) {ind n t : Str} {N : List Node} {P : Prop} (hi : Blank ind) (hn : IsName n) (h : Exact N t P) :
    Exact [.elem n [] N] (tline d (ind ++ (lit "<" ++ (n ++ lit ">"))) ++ (t ++ tline d (ind ++ (lit "</" ++ (n ++ lit ">"))))) P := by
  have := Exact.lines d (x := .elem n [] N) (n := n) (s := n ++ [62]) (Q := IsName n) hi (noNul_append (name_noNul hn) (by unfold NoNul; decide)) (name_noNul hn) h fun u hu => by
    have := Exact.named (n := n) hu
    rw [name_cstr hn] at this
    exact this
  exact this.iff ⟨fun h => h.2, fun h => ⟨hn, h⟩⟩

theorem Exact.wrapAttr (d : Nat) {n k v t : Str} {N : List Node} {P : Prop} (hn : IsName n) (hk : IsName k) (h : Exact N t P) :
    Exact [.elem n [(k, v)] N] (tline d (lit "<" ++ (n ++ (lit " " ++ (k ++ (lit "=\"" ++ (cstr v ++ lit "\">")))))) ++ (t ++ tline d (lit "</" ++ (n ++ lit ">"))))
      (AttrLoads v ∧ P) := by
  refine Exact.lines d (ind := []) (x := .elem n [(k, v)] N) (n := n) (s := n ++ (32 :: (k ++ 61 :: 34 :: (cstr v ++ [34, 62])))) blank_nil ?_ (name_noNul hn) h
    fun u hu => Exact.titled hn hk hu
  intro b hb
  simp only [List.mem_append, List.mem_cons, List.not_mem_nil, or_false] at hb
  rcases hb with hb | rfl | hb | rfl | rfl | hb | rfl | rfl
  · exact name_noNul hn b hb
  · decide
  · exact name_noNul hk b hb
  · decide
  · decide
  · exact cstr_noNul v b hb
  · decide
  · decide

theorem exact_aux (d : Nat) (m : AuxMap) : Exact (auxNodes m) (ttext d (auxLines m)) (AuxLoads m) := by
  unfold auxNodes auxLines
  by_cases hm : m = []
  · subst hm
    exact (Exact.blank blank_nil).iff (by simp [AuxLoads])
  · rw [if_neg hm, if_pos (by simpa using hm)]
    have hb : Exact (m.map fun e => field e.1 e.2) (ttext d (m.map fun e => lit "\t\t<" ++ cstr e.1 ++ lit ">" ++ cstr e.2 ++ lit "</" ++ cstr e.1 ++ lit ">"))
        (AuxLoads m) := by
      unfold ttext
      rw [List.flatMap_map]
      apply Exact.map
      intro e he
      have := Exact.line d tab2 (Exact.field e.1 e.2)
      simp only [List.append_assoc] at this ⊢
      exact this
    have := Exact.wrap d (ind := lit "\t") (n := lit "Auxiliary") tab1 (by decide) hb
    rw [zipIdx_fst (fun e : Str × Str => lit "\t\t<" ++ cstr e.1 ++ lit ">" ++ cstr e.2 ++ lit "</" ++ cstr e.1 ++ lit ">"), ttext_append, ttext_cons, ttext_cons, ttext_nil,
      List.append_nil]
    simp only [List.append_assoc] at this ⊢
    exact this

theorem dec_nameBytes_int (i : Int) : ∀ c ∈ dec i, NameByte c := by
  intro c hc
  unfold dec at hc
  split at hc
  · rcases List.mem_cons.1 hc with rfl | hc
    · exact .inr (.inr (.inr rfl))
    · exact .inr (.inl ((decNat_bytes _).2 c hc))
  · exact .inr (.inl ((decNat_bytes _).2 c hc))

theorem exact_data {F : Fmt} (hF : PrintsNumbers F) (d : Nat) (x : DataLog) (i : Nat) :
    Exact [dataNode F x i] (tline d (dataLine F x i)) (x.size < 2147483648 ∧ i < 2147483648) := by
  have h1 : ∀ y, Quotable (dec y) := fun y => (printed_plain (dec_printed y)).2.1
  have h2 : ∀ y, Quotable (F.le y) := fun y => (printed_plain (hF y).1).2.1
  have hn : IsName (lit "Data_" ++ dec (toI32 i)) := name_append (by decide) (dec_nameBytes_int _)
  have ha : AttrsOk [(lit "type", dec x.type.code), (lit "size_i", dec (toI32 x.size)), (lit "file_pt", dec (x.file_pt.getD 0)),
     (lit "min", F.le (x.min.getD 0)), (lit "max", F.le (x.max.getD 0))] := by
    constructor
    · intro a ha
      simp only [List.mem_cons, List.not_mem_nil, or_false] at ha
      rcases ha with rfl | rfl | rfl | rfl | rfl
      · exact ⟨by show IsName (lit "type"); decide, h1 _⟩
      · exact ⟨by show IsName (lit "size_i"); decide, h1 _⟩
      · exact ⟨by show IsName (lit "file_pt"); decide, h1 _⟩
      · exact ⟨by show IsName (lit "min"); decide, h2 _⟩
      · exact ⟨by show IsName (lit "max"); decide, h2 _⟩
    · show [lit "type", lit "size_i", lit "file_pt", lit "min", lit "max"].Nodup
      decide
  have := Exact.line d tab2 (Exact.known (x := dataNode F x i) (Shows.sealed hn ha))
  have := this.iff (Q := x.size < 2147483648 ∧ i < 2147483648) (by
    rw [← dec_same (n := x.size), ← dec_same (n := i)]
    unfold dataNode
    constructor
    · intro h
      obtain ⟨e1, e2, -⟩ := Node.elem.inj h
      refine ⟨?_, List.append_cancel_left e1⟩
      have := (List.cons.inj (List.cons.inj e2).2).1
      exact (Prod.mk.inj this).2
    · rintro ⟨e1, e2⟩
      rw [e1, e2])
  unfold dataLine
  simp only [attrsText, List.flatMap_cons, List.flatMap_nil, List.append_assoc] at this ⊢
  exact this

theorem zipIdx_all {α : Type} {P : α → Prop} {l : List α} {b : Nat} :
    (∀ x ∈ l.zipIdx, P x.1 ∧ x.2 < b) ↔ (∀ a ∈ l, P a) ∧ l.length ≤ b := by
  constructor
  · intro h
    refine ⟨fun a ha => ?_, ?_⟩
    · obtain ⟨i, hi, rfl⟩ := List.getElem_of_mem ha
      exact (h (l[i], i) (by rw [List.mk_mem_zipIdx_iff_getElem?]; simp [hi])).1
    · by_contra hh
      have hlt : b < l.length := by omega
      have := (h (l[b], b) (by rw [List.mk_mem_zipIdx_iff_getElem?]; simp [hlt])).2
      simp at this
  · rintro ⟨h1, h2⟩ x hx
    obtain ⟨a, b'⟩ := mem_zipIdx_lt hx
    exact ⟨h1 _ a, by omega⟩

theorem exact_zone {F : Fmt} (hF : PrintsNumbers F) (d : Nat) (z : ZoneLog) : Exact [zoneNode F z] (ttext d (zoneLines F z)) (ZoneLoads z) := by
  have pd : ∀ y, Plain (dec y) := fun y => (printed_plain (dec_printed y)).1
  have pl : ∀ y, Plain (F.le y) := fun y => (printed_plain (hF y).1).1
  have b0 : Exact [field (lit "ZoneName") z.ZoneName] (ttext d [lit "\t<ZoneName>" ++ cstr z.ZoneName ++ lit "</ZoneName>"]) (TextLoads z.ZoneName) := by
    have := Exact.fieldLine d (n := lit "ZoneName") tab1 (by decide) z.ZoneName
    rw [ttext_cons, ttext_nil, List.append_nil, List.append_assoc]
    exact this
  have b1 : Block [field (lit "StrandId") (dec z.StrandId)] (ttext d [lit "\t<StrandId>" ++ dec z.StrandId ++ lit "</StrandId>"]) := by
    have := block_field d (n := lit "StrandId") tab1 (by decide) (pd z.StrandId)
    rw [ttext_cons, ttext_nil, List.append_nil]
    simp only [List.append_assoc] at this ⊢
    exact this
  have b2 : Block (if z.StrandId = -1 then [] else [field (lit "SolutionTime") (F.le z.SolutionTime)])
      (ttext d (if z.StrandId ≠ -1 then [lit "\t<SolutionTime>" ++ F.le z.SolutionTime ++ lit "</SolutionTime>"] else [])) := by
    by_cases hs : z.StrandId = -1
    · rw [if_pos hs, if_neg (by simpa using hs)]; exact Block.nil blank_nil
    · rw [if_neg hs, if_pos hs]
      have := block_field d (n := lit "SolutionTime") tab1 (by decide) (pl z.SolutionTime)
      rw [ttext_cons, ttext_nil, List.append_nil]
      simp only [List.append_assoc] at this ⊢
      exact this
  have b3 : Block [field (lit "Org_Dim") (dec z.Dim), field (lit "Real_Dim") (dec z.Real_Dim), triple "Org_Max" z.Max, triple "Skip" z.Skip,
          triple "Begin" z.Begin, triple "End" z.End, triple "Real_Max" z.Real_Max]
      (ttext d [lit "\t<Org_Dim>" ++ dec z.Dim ++ lit "</Org_Dim>", lit "\t<Real_Dim>" ++ dec z.Real_Dim ++ lit "</Real_Dim>",
    tripleLine "Org_Max" z.Max, tripleLine "Skip" z.Skip, tripleLine "Begin" z.Begin, tripleLine "End" z.End, tripleLine "Real_Max" z.Real_Max]) := by
    have f1 := block_field d (n := lit "Org_Dim") tab1 (by decide) (pd z.Dim)
    have f2 := block_field d (n := lit "Real_Dim") tab1 (by decide) (pd z.Real_Dim)
    have t1 := block_triple d (n := "Org_Max") (by decide) z.Max (by decide) (by decide)
    have t2 := block_triple d (n := "Skip") (by decide) z.Skip (by decide) (by decide)
    have t3 := block_triple d (n := "Begin") (by decide) z.Begin (by decide) (by decide)
    have t4 := block_triple d (n := "End") (by decide) z.End (by decide) (by decide)
    have t5 := block_triple d (n := "Real_Max") (by decide) z.Real_Max (by decide) (by decide)
    have := f1.append (f2.append (t1.append (t2.append (t3.append (t4.append t5)))))
    simp only [ttext_cons, ttext_nil, List.append_nil]
    simp only [List.append_assoc] at this ⊢
    exact this
  have b4 := exact_aux d z.Auxiliary
  have b5 : Block [.comment (lit "1=Float, 2=Double, 3=LongInt, 4=ShortInt, 5=Byte, 6=Bit")]
      (ttext d [lit "\t<!--1=Float, 2=Double, 3=LongInt, 4=ShortInt, 5=Byte, 6=Bit-->"]) := by
    have := block_line d tab1 (Shows.comment (v := lit "1=Float, 2=Double, 3=LongInt, 4=ShortInt, 5=Byte, 6=Bit") (by decide))
    rw [ttext_cons, ttext_nil, List.append_nil]
    exact this
  have b6 : Exact [.elem (lit "Datas") [] (z.Data.zipIdx.map fun x => dataNode F x.1 x.2)]
      (ttext d ([lit "\t<Datas>"] ++ (z.Data.zipIdx.map fun x => dataLine F x.1 x.2) ++ [lit "\t</Datas>"]))
      ((∀ x ∈ z.Data, x.size < 2147483648) ∧ z.Data.length ≤ 2147483648) := by
    have hb : Exact (z.Data.zipIdx.map fun x => dataNode F x.1 x.2) (ttext d (z.Data.zipIdx.map fun x => dataLine F x.1 x.2))
        (∀ x ∈ z.Data.zipIdx, x.1.size < 2147483648 ∧ x.2 < 2147483648) := by
      unfold ttext
      rw [List.flatMap_map]
      apply Exact.map
      intro x hx
      exact exact_data hF d x.1 x.2
    have := Exact.wrap d (ind := lit "\t") (n := lit "Datas") tab1 (by decide) (hb.iff (zipIdx_all (P := fun x : DataLog => x.size < 2147483648)))
    simp only [ttext_append, ttext_cons, ttext_nil, List.append_nil, List.append_assoc]
    exact this
  have all := (((((b0.append b1.sure).append b2.sure).append b3.sure).append b4).append b5.sure).append b6
  have := Exact.wrapAttr d (n := lit "Zone") (k := lit "ZoneName") (v := z.ZoneName) (by decide) (by decide) all
  have := this.iff (Q := ZoneLoads z) (by
    constructor
    · rintro ⟨h0, ⟨⟨⟨⟨⟨h1, -⟩, -⟩, -⟩, h2⟩, -⟩, h3, h4⟩
      exact ⟨h0, h1, h2, h3, h4⟩
    · rintro ⟨h0, h1, h2, h3, h4⟩
      exact ⟨h0, ⟨⟨⟨⟨⟨h1, trivial⟩, trivial⟩, trivial⟩, h2⟩, trivial⟩, h3, h4⟩)
  unfold zoneNode zoneLines
  simp only [List.nil_append, List.append_assoc, List.cons_append, ttext_append, ttext_cons, ttext_nil, List.append_nil] at this ⊢
  exact this

theorem exact_vars (d : Nat) (vs : List Str) :
    Exact [.elem (lit "Variables") [] (vs.zipIdx.map fun v => .elem v.1 [(lit "i", dec v.2)] [])] (tline d (varsLine vs))
      ((∀ v ∈ vs, IsName v) ∧ vs.length ≤ 2147483648) := by
  have hb : Exact (vs.zipIdx.map fun v => .elem v.1 [(lit "i", dec v.2)] [])
      (vs.zipIdx.flatMap fun x => lit " <" ++ cstr x.1 ++ lit " i=\"" ++ dec (toI32 x.2) ++ lit "\"/>") (∀ x ∈ vs.zipIdx, IsName x.1 ∧ x.2 < 2147483648) := by
    apply Exact.map
    intro x hx
    have := ((Exact.blank (w := lit " ") (by decide)).append (Exact.var x.1 x.2)).iff (Q := IsName x.1 ∧ x.2 < 2147483648) (by simp)
    simp only [List.append_assoc] at this ⊢
    exact this
  have hb := ((hb.iff (zipIdx_all (P := IsName))).append (Exact.blank (w := lit " ") (by decide))).iff (Q := (∀ v ∈ vs, IsName v) ∧ vs.length ≤ 2147483648) (by simp)
  rw [List.append_nil] at hb
  have := Exact.line d tab1 (Exact.named (n := lit "Variables") hb.inner)
  have := this.iff (Q := (∀ v ∈ vs, IsName v) ∧ vs.length ≤ 2147483648) ⟨fun h => h.2, fun h => ⟨by decide, h⟩⟩
  unfold varsLine
  rw [flatten_map]
  simp only [List.append_assoc] at this ⊢
  exact this

theorem exact_file {F : Fmt} (hF : PrintsNumbers F) (d : Nat) (l : FileLog) : Exact [fileNode F l] (fileText F d l) (FileLoads l) := by
  have b1 : Exact [field (lit "FileName") (l.FileName ++ lit ".plt"), field (lit "FilePath") l.FilePath, field (lit "Time") l.Time_Begin,
      field (lit "UsingTime") (F.f5 (l.UsingTime.getD 0)), field (lit "Title") l.Title,
      .comment (lit "0 = FULL, 1 = GRID, 2 = SOLUTION"), field (lit "FileType") (dec l.FileType),
      .elem (lit "Variables") [] (l.Variables.zipIdx.map fun v => .elem v.1 [(lit "i", dec v.2)] [])]
      (ttext d [lit "\t<FileName>" ++ cstr (l.FileName ++ lit ".plt") ++ lit "</FileName>",
    lit "\t<FilePath>" ++ cstr l.FilePath ++ lit "</FilePath>", lit "\t<Time>" ++ cstr l.Time_Begin ++ lit "</Time>",
    lit "\t<UsingTime>" ++ F.f5 (l.UsingTime.getD 0) ++ lit "</UsingTime>", lit "\t<Title>" ++ cstr l.Title ++ lit "</Title>",
    lit "\t<!--0 = FULL, 1 = GRID, 2 = SOLUTION-->", lit "\t<FileType>" ++ dec l.FileType ++ lit "</FileType>", varsLine l.Variables])
      (TextLoads (l.FileName ++ lit ".plt") ∧ TextLoads l.FilePath ∧ TextLoads l.Time_Begin ∧ True ∧ TextLoads l.Title ∧ True ∧ True ∧
        (∀ v ∈ l.Variables, IsName v) ∧ l.Variables.length ≤ 2147483648) := by
    have f1 := Exact.fieldLine d (n := lit "FileName") tab1 (by decide) (l.FileName ++ lit ".plt")
    have f2 := Exact.fieldLine d (n := lit "FilePath") tab1 (by decide) l.FilePath
    have f3 := Exact.fieldLine d (n := lit "Time") tab1 (by decide) l.Time_Begin
    have f4 := (block_field d (n := lit "UsingTime") tab1 (by decide) (printed_plain (hF (l.UsingTime.getD 0)).2).1).sure
    have f5 := Exact.fieldLine d (n := lit "Title") tab1 (by decide) l.Title
    have f6 := (block_line d tab1 (Shows.comment (v := lit "0 = FULL, 1 = GRID, 2 = SOLUTION") (by decide))).sure
    have f7 := (block_field d (n := lit "FileType") tab1 (by decide) (printed_plain (dec_printed l.FileType)).1).sure
    have f8 := exact_vars d l.Variables
    have := f1.append (f2.append (f3.append (f4.append (f5.append (f6.append (f7.append f8))))))
    simp only [ttext_cons, ttext_nil, List.append_nil]
    simp only [List.append_assoc] at this ⊢
    exact this
  have b2 := exact_aux d l.Auxiliary
  have b3 : Exact [.elem (lit "Zones") [] (l.Zones.map (zoneNode F))]
      (tline d (lit "\t<Zones>") ++ ((l.Zones.flatMap fun z => ttext (d + 2) (zoneLines F z)) ++ tline d (lit "\t</Zones>"))) (∀ z ∈ l.Zones, ZoneLoads z) := by
    have hb : Exact (l.Zones.map (zoneNode F)) (l.Zones.flatMap fun z => ttext (d + 2) (zoneLines F z)) (∀ z ∈ l.Zones, ZoneLoads z) :=
      Exact.map _ fun z hz => exact_zone hF (d + 2) z
    exact Exact.wrap d (ind := lit "\t") (n := lit "Zones") tab1 (by decide) hb
  have all := (b1.append b2).append b3
  have := Exact.wrapAttr d (n := lit "File") (k := lit "FileName") (v := l.FileName) (by decide) (by decide) all
  have := this.iff (Q := FileLoads l) (by
    constructor
    · rintro ⟨h0, ⟨⟨h1, h2, h3, -, h4, -, -, h5, h6⟩, h7⟩, h8⟩
      exact ⟨h0, h1, h2, h3, h4, h5, h6, h7, h8⟩
    · rintro ⟨h0, h1, h2, h3, h4, h5, h6, h7, h8⟩
      exact ⟨h0, ⟨⟨h1, h2, h3, trivial, h4, trivial, trivial, h5, h6⟩, h7⟩, h8⟩)
  unfold fileNode fileText fileHead fileTail
  simp only [List.nil_append, List.append_assoc, List.cons_append, ttext_append, ttext_cons, ttext_nil, List.append_nil] at this ⊢
  exact this

end Verif.Xml
