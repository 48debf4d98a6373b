import Verif.Proof.Xml2
import Verif.Spec.XmlLog
import Verif.Proof.TecLog
/-!
# The lines generated for a log, and the tree they show
-/
namespace Verif.Xml
open Tec Spec

/-! ## Blocks of lines -/

/-- nodes one after the other, white space at the end -/
def Block (l : List Node) (t : Str) : Prop := ∃ t' w, t = t' ++ w ∧ ShowsAll l t' ∧ Blank w

theorem blank_nil : Blank [] := by intro b hb; cases hb

theorem blank_append {a b : Str} (h1 : Blank a) (h2 : Blank b) : Blank (a ++ b) := by
  intro x hx
  rcases List.mem_append.1 hx with h | h
  · exact h1 x h
  · exact h2 x h

theorem Block.nil {w : Str} (h : Blank w) : Block [] w := ⟨[], w, rfl, .nil, h⟩

theorem Block.one {x : Node} {a s b : Str} (ha : Blank a) (hx : Shows x s) (hb : Blank b) : Block [x] (a ++ s ++ b) :=
  ⟨a ++ s, b, rfl, by have := ShowsAll.cons ha hx .nil; rwa [List.append_nil] at this, hb⟩

theorem all_append {l m : List Node} {s t : Str} (h1 : ShowsAll l s) (h2 : ShowsAll m t) : ShowsAll (l ++ m) (s ++ t) := by
  induction l generalizing s with
  | nil => cases h1; exact h2
  | cons x l ih =>
    cases h1 with
    | cons hw hx hl =>
      rw [List.cons_append, List.append_assoc]
      exact .cons hw hx (ih hl)

theorem all_blank {l : List Node} {w t : Str} (hl : l ≠ []) (hw : Blank w) (h : ShowsAll l t) : ShowsAll l (w ++ t) := by
  cases h with
  | nil => exact (hl rfl).elim
  | cons hb hx ht =>
    have := ShowsAll.cons (blank_append hw hb) hx ht
    simpa only [List.append_assoc] using this

theorem Block.append {l m : List Node} {s t : Str} (h1 : Block l s) (h2 : Block m t) : Block (l ++ m) (s ++ t) := by
  obtain ⟨s', w, rfl, hs, hw⟩ := h1
  obtain ⟨t', v, rfl, ht, hv⟩ := h2
  by_cases hm : m = []
  · subst hm
    cases ht
    exact ⟨s', w ++ v, by simp, by rw [List.append_nil]; exact hs, blank_append hw hv⟩
  · exact ⟨s' ++ (w ++ t'), v, by simp, all_append hs (all_blank hm hw ht), hv⟩

theorem Block.shows {n : Str} {as : List (Str × Str)} {ks : List Node} {t : Str} (hn : IsName n) (ha : AttrsOk as) (h : Block ks t) :
    Shows (.elem n as ks) (lit "<" ++ n ++ attrsText as ++ lit ">" ++ t ++ lit "</" ++ n ++ lit ">") := by
  obtain ⟨t', w, rfl, hs, hw⟩ := h
  have := Shows.node hn ha hs hw
  simpa only [List.append_assoc] using this

/-- a line as it is written -/
def tline (d : Nat) (t : Str) : Str := List.replicate d 9 ++ (cstr t ++ lit "\n")

def ttext (d : Nat) (ls : List Str) : Str := ls.flatMap (tline d)

theorem ttext_append (d : Nat) (a b : List Str) : ttext d (a ++ b) = ttext d a ++ ttext d b := List.flatMap_append

theorem ttext_cons (d : Nat) (a : Str) (b : List Str) : ttext d (a :: b) = tline d a ++ ttext d b := List.flatMap_cons

theorem ttext_nil (d : Nat) : ttext d [] = [] := rfl

theorem blank_tabs (d : Nat) : Blank (List.replicate d 9) := by
  intro b hb
  rw [List.eq_of_mem_replicate hb]; decide

theorem shows_noNul {x : Node} {s : Str} (h : Shows x s) : NoNul s := by
  have := all_noNul (ShowsAll.cons blank_nil h .nil)
  simpa using this

/-- a line that shows one node -/
theorem block_line (d : Nat) {ind s : Str} {x : Node} (hi : Blank ind) (h : Shows x s) : Block [x] (tline d (ind ++ s)) := by
  unfold tline
  rw [cstr_plain (noNul_append (blank_noNul hi) (shows_noNul h))]
  have := Block.one (blank_append (blank_tabs d) hi) h (b := lit "\n") (by decide)
  simpa only [List.append_assoc] using this

/-- an element whose tags have lines of their own -/
theorem block_wrap (d : Nat) {ind n : Str} {as : List (Str × Str)} {ks : List Node} {t : Str} (hi : Blank ind) (hn : IsName n) (ha : AttrsOk as)
    (h : Block ks t) : Block [.elem n as ks] (tline d (ind ++ (lit "<" ++ n ++ attrsText as ++ lit ">")) ++ t ++ tline d (ind ++ (lit "</" ++ n ++ lit ">"))) := by
  have h1 : Block ([] ++ ks ++ []) (lit "\n" ++ t ++ (List.replicate d 9 ++ ind)) :=
    (Block.append (Block.nil (by decide)) h).append (Block.nil (blank_append (blank_tabs d) hi))
  rw [List.nil_append, List.append_nil] at h1
  have h2 := Block.one (blank_append (blank_tabs d) hi) (h1.shows hn ha) (b := lit "\n") (by decide)
  unfold tline
  rw [cstr_plain (noNul_append (blank_noNul hi) (noNul_append (noNul_open hn ha) (by unfold NoNul; decide))),
    cstr_plain (noNul_append (blank_noNul hi) (noNul_append (noNul_append (by unfold NoNul; decide) (name_noNul hn)) (by unfold NoNul; decide)))]
  simpa only [List.append_assoc] using h2

/-! ## Texts of fields -/

theorem printed_plain {s : Str} (h : Printed s) : Plain s ∧ Quotable s ∧ Visible s := by
  refine ⟨fun b hb => ?_, fun b hb => ?_, ?_⟩
  · have := h.2 b hb
    refine ⟨?_, ?_, this.2.2.2.1, this.2.2.2.2⟩ <;> rintro rfl <;> exact absurd this.1 (by decide)
  · have := h.2 b hb
    refine ⟨?_, ?_, this.2.2.2.1, this.2.2.1⟩ <;> rintro rfl <;> exact absurd this.1 (by decide)
  · obtain ⟨b, l, rfl⟩ := List.exists_cons_of_ne_nil h.1
    have := h.2 b (by simp)
    refine ⟨b, by simp, ?_⟩
    rintro (rfl | hh)
    · exact absurd this.1 (by decide)
    · have h1 := this.1
      have h2 := hh.2
      rw [UInt8.le_iff_toNat_le] at h1 h2
      exact absurd (Nat.le_trans h1 h2) (by decide)

theorem digit_byte (k : Nat) (h : k < 10) : 48 ≤ UInt8.ofNat (48 + k) ∧ UInt8.ofNat (48 + k) ≤ 57 := by
  have : ∀ k : Fin 10, 48 ≤ UInt8.ofNat (48 + k.val) ∧ UInt8.ofNat (48 + k.val) ≤ 57 := by decide
  exact this ⟨k, h⟩

theorem decNat_bytes (n : Nat) : decNat n ≠ [] ∧ ∀ b ∈ decNat n, 48 ≤ b ∧ b ≤ 57 := by
  unfold decNat
  split
  · simp
  · rename_i h
    constructor
    · simpa [Nat.digits_eq_nil_iff_eq_zero] using h
    · intro b hb
      obtain ⟨k, hk, rfl⟩ := List.mem_map.1 hb
      exact digit_byte k (Nat.digits_lt_base (by decide) (List.mem_reverse.1 hk))

theorem digit_printed {b : UInt8} (h : 48 ≤ b ∧ b ≤ 57) : 33 ≤ b ∧ b ≤ 126 ∧ b ≠ 34 ∧ b ≠ 38 ∧ b ≠ 60 := by
  obtain ⟨h1, h2⟩ := h
  rw [UInt8.le_iff_toNat_le] at h1 h2
  refine ⟨?_, ?_, ?_, ?_, ?_⟩
  · rw [UInt8.le_iff_toNat_le]; exact Nat.le_trans (by decide) h1
  · rw [UInt8.le_iff_toNat_le]; exact Nat.le_trans h2 (by decide)
  · rintro rfl; revert h1; decide
  · rintro rfl; revert h1; decide
  · rintro rfl; revert h2; decide

theorem dec_printed (x : Int) : Printed (dec x) := by
  obtain ⟨h1, h2⟩ := decNat_bytes x.natAbs
  unfold dec
  split
  · refine ⟨by simp, fun b hb => ?_⟩
    rcases List.mem_cons.1 hb with rfl | hb
    · decide
    · exact digit_printed (h2 b hb)
  · exact ⟨h1, fun b hb => digit_printed (h2 b hb)⟩

theorem not_visible {s : Str} (h : ¬ Visible s) : Blank s := by
  intro b hb
  by_contra hh
  exact h ⟨b, hb, hh⟩

theorem attrsOk_nil : AttrsOk [] := ⟨by simp, by simp⟩

theorem field_shows {n v : Str} (hn : IsName n) (hv : Plain v) : Shows (field n v) (lit "<" ++ n ++ lit ">" ++ v ++ lit "</" ++ n ++ lit ">") := by
  unfold field content
  split
  · rename_i h
    have := Shows.leaf hn attrsOk_nil hv h
    simpa only [attrsText, List.flatMap_nil, List.append_nil] using this
  · rename_i h
    have := Shows.node hn attrsOk_nil ShowsAll.nil (not_visible h)
    simpa only [attrsText, List.flatMap_nil, List.append_nil] using this

theorem plain_cstr {v : Str} (h : Plain v) : cstr v = v := cstr_plain fun b hb => (h b hb).1

theorem name_cstr {v : Str} (h : IsName v) : cstr v = v := cstr_plain (name_noNul h)

theorem tab1 : Blank (lit "\t") := by decide
theorem tab2 : Blank (lit "\t\t") := by decide

/-- a line `\t<n>v</n>` -/
theorem block_field (d : Nat) {ind n v : Str} (hi : Blank ind) (hn : IsName n) (hv : Plain v) :
    Block [field n v] (tline d (ind ++ (lit "<" ++ n ++ lit ">" ++ v ++ lit "</" ++ n ++ lit ">"))) := block_line d hi (field_shows hn hv)

/-! ## The generated lines -/

theorem sprintf_inv {n : Nat} {s t : Str} (h : sprintf n s = .ok t) : t = s := by
  unfold sprintf at h
  split at h
  · cases h; rfl
  · cases h

theorem known_inv {α : Type} {o : Option α} {a : α} (h : known o = .ok a) : o = some a := by
  cases o with
  | none => cases h
  | some b => cases h; rfl

theorem lines_inv {α : Type} {f : Nat → α → Bool → Out Str} {g : α → Nat → Str} (hf : ∀ i a b t, f i a b = .ok t → t = g a i) (l : List α) :
    ∀ i r, lines f i l = .ok r → r = (l.zipIdx i).map fun x => g x.1 x.2 := by
  induction l with
  | nil => intro i r h; cases h; rfl
  | cons a l ih =>
    intro i r h
    unfold lines at h
    obtain ⟨t, h1, h⟩ := Out.bind_inv h
    obtain ⟨q, h2, h⟩ := Out.bind_inv h
    cases h
    rw [List.zipIdx_cons, List.map_cons, hf _ _ _ _ h1, ← ih _ _ h2]

def fieldLine (n v : Str) : Str := lit "\t" ++ (lit "<" ++ n ++ lit ">" ++ v ++ lit "</" ++ n ++ lit ">")

def tripleLine (n : String) (a : I3) : Str :=
  lit ("\t<" ++ n ++ "> <I>") ++ dec a.x ++ lit "</I> <J>" ++ dec a.y ++ lit "</J> <K>" ++ dec a.z ++ lit ("</K> </" ++ n ++ ">")

def auxLines (m : AuxMap) : List Str :=
  if m.length ≠ 0 then
    lit "\t<Auxiliary>" :: (m.zipIdx.map fun x => lit "\t\t<" ++ cstr x.1.1 ++ lit ">" ++ cstr x.1.2 ++ lit "</" ++ cstr x.1.1 ++ lit ">") ++ [lit "\t</Auxiliary>"]
  else []

def dataLine (F : Fmt) (d : DataLog) (i : Nat) : Str :=
  lit "\t\t<Data_" ++ dec (toI32 i) ++ lit " type=\"" ++ dec d.type.code ++ lit "\" size_i=\"" ++
    dec (toI32 d.size) ++ lit "\" file_pt=\"" ++ dec (d.file_pt.getD 0) ++ lit "\" min=\"" ++ F.le (d.min.getD 0) ++ lit "\" max=\"" ++ F.le (d.max.getD 0) ++
    lit "\"/>"

def zoneLines (F : Fmt) (z : ZoneLog) : List Str :=
  [lit "<Zone ZoneName=\"" ++ cstr z.ZoneName ++ lit "\">", lit "\t<ZoneName>" ++ cstr z.ZoneName ++ lit "</ZoneName>",
    lit "\t<StrandId>" ++ dec z.StrandId ++ lit "</StrandId>"]
  ++ (if z.StrandId ≠ -1 then [lit "\t<SolutionTime>" ++ F.le z.SolutionTime ++ lit "</SolutionTime>"] else [])
  ++ [lit "\t<Org_Dim>" ++ dec z.Dim ++ lit "</Org_Dim>", lit "\t<Real_Dim>" ++ dec z.Real_Dim ++ lit "</Real_Dim>",
    tripleLine "Org_Max" z.Max, tripleLine "Skip" z.Skip, tripleLine "Begin" z.Begin, tripleLine "End" z.End, tripleLine "Real_Max" z.Real_Max]
  ++ auxLines z.Auxiliary ++ [lit "\t<!--1=Float, 2=Double, 3=LongInt, 4=ShortInt, 5=Byte, 6=Bit-->", lit "\t<Datas>"]
  ++ (z.Data.zipIdx.map fun x => dataLine F x.1 x.2) ++ [lit "\t</Datas>", lit "</Zone>"]

theorem xmlAux_inv {m : AuxMap} {r : List Str} (h : xmlAux m = .ok r) : r = auxLines m := by
  unfold xmlAux at h
  unfold auxLines
  split at h
  · rename_i hm
    obtain ⟨l, h1, h⟩ := Out.bind_inv h
    cases h
    rw [if_pos hm, lines_inv (g := fun (e : Str × Str) (_ : Nat) => lit "\t\t<" ++ cstr e.1 ++ lit ">" ++ cstr e.2 ++ lit "</" ++ cstr e.1 ++ lit ">")
      (fun i a b t ht => sprintf_inv ht) _ _ _ h1]
  · rename_i hm
    cases h
    rw [if_neg hm]

theorem data_inv {F : Fmt} {i : Nat} {d : DataLog} {t : Str} (h : d.xml F i = .ok t) : t = dataLine F d i := by
  unfold DataLog.xml at h
  obtain ⟨p, h1, h⟩ := Out.bind_inv h
  obtain ⟨mn, h2, h⟩ := Out.bind_inv h
  obtain ⟨mx, h3, h⟩ := Out.bind_inv h
  rw [sprintf_inv h]
  unfold dataLine
  rw [known_inv h1, known_inv h2, known_inv h3]
  rfl

theorem optLine_inv {c : Bool} {t : Out Str} {s : Str} {r : List Str} (ht : ∀ u, t = .ok u → u = s) (h : optLine c t = .ok r) : r = if c then [s] else [] := by
  unfold optLine at h
  split at h
  · rename_i hc
    obtain ⟨b, h1, h⟩ := Out.bind_inv h
    cases h
    rw [if_pos hc, ht b h1]
  · rename_i hc
    cases h
    rw [if_neg hc]

theorem zoneGen_inv {F : Fmt} {z z' : ZoneLog} (h : z.gen_xml F = .ok z') : z' = { z with Xml_Text := z.Xml_Text ++ zoneLines F z } := by
  unfold ZoneLog.gen_xml at h
  obtain ⟨t0, h0, h⟩ := Out.bind_inv h
  obtain ⟨t1, h1, h⟩ := Out.bind_inv h
  obtain ⟨t2, h2, h⟩ := Out.bind_inv h
  obtain ⟨t3, h3, h⟩ := Out.bind_inv h
  obtain ⟨t4, h4, h⟩ := Out.bind_inv h
  obtain ⟨t5, h5, h⟩ := Out.bind_inv h
  obtain ⟨t6, h6, h⟩ := Out.bind_inv h
  obtain ⟨t7, h7, h⟩ := Out.bind_inv h
  obtain ⟨t8, h8, h⟩ := Out.bind_inv h
  obtain ⟨t9, h9, h⟩ := Out.bind_inv h
  obtain ⟨t10, h10, h⟩ := Out.bind_inv h
  obtain ⟨aux, h11, h⟩ := Out.bind_inv h
  obtain ⟨data, h12, h⟩ := Out.bind_inv h
  cases h
  unfold zoneLines tripleLine
  rw [sprintf_inv h0, sprintf_inv h1, sprintf_inv h2, optLine_inv (fun u hu => sprintf_inv hu) h3, sprintf_inv h4, sprintf_inv h5, sprintf_inv h6, sprintf_inv h7,
    sprintf_inv h8, sprintf_inv h9, sprintf_inv h10, xmlAux_inv h11, lines_inv (g := dataLine F) (fun i a b t ht => data_inv ht) _ _ _ h12]
  simp only [List.append_assoc, decide_eq_true_eq]

def varsLine (vars : List Str) : Str :=
  lit "\t<Variables>" ++ (vars.zipIdx.map fun x => lit " <" ++ cstr x.1 ++ lit " i=\"" ++ dec (toI32 x.2) ++ lit "\"/>").flatten ++ lit " </Variables>"

theorem vars_inv {vars : List Str} {t : Str} (h : xmlVars vars = .ok t) : t = varsLine vars := by
  unfold xmlVars at h
  obtain ⟨l, h1, h⟩ := Out.bind_inv h
  cases h
  unfold varsLine
  rw [lines_inv (g := fun (v : Str) (i : Nat) => lit " <" ++ cstr v ++ lit " i=\"" ++ dec (toI32 i) ++ lit "\"/>") (fun i a b t ht => sprintf_inv ht) _ _ _ h1]

/-- the lines before the zones -/
def fileHead (F : Fmt) (l : FileLog) : List Str :=
  [lit "<File FileName=\"" ++ cstr l.FileName ++ lit "\">", lit "\t<FileName>" ++ cstr (l.FileName ++ lit ".plt") ++ lit "</FileName>",
    lit "\t<FilePath>" ++ cstr l.FilePath ++ lit "</FilePath>", lit "\t<Time>" ++ cstr l.Time_Begin ++ lit "</Time>",
    lit "\t<UsingTime>" ++ F.f5 (l.UsingTime.getD 0) ++ lit "</UsingTime>", lit "\t<Title>" ++ cstr l.Title ++ lit "</Title>",
    lit "\t<!--0 = FULL, 1 = GRID, 2 = SOLUTION-->", lit "\t<FileType>" ++ dec l.FileType ++ lit "</FileType>", varsLine l.Variables]
  ++ auxLines l.Auxiliary ++ [lit "\t<Zones>"]

def fileTail : List Str := [lit "\t</Zones>", lit "</File>"]

theorem eachZone_inv {g : ZoneLog → Out ZoneLog} {p : ZoneLog → ZoneLog} (hg : ∀ z z', g z = .ok z' → z' = p z) (l : List ZoneLog) :
    ∀ r, eachZone g l = .ok r → r = l.map p := by
  induction l with
  | nil => intro r h; cases h; rfl
  | cons a l ih =>
    intro r h
    unfold eachZone at h
    obtain ⟨t, h1, h⟩ := Out.bind_inv h
    obtain ⟨q, h2, h⟩ := Out.bind_inv h
    cases h
    rw [hg _ _ h1, ih _ h2]; rfl

theorem fileGen_inv {F : Fmt} {l l' : FileLog} (h : l.gen_xml F = .ok l') :
    l' = { l with Zones := l.Zones.map fun z => { z with Xml_Text := z.Xml_Text ++ zoneLines F z },
                  Xml_Text := l.Xml_Text ++ (fileHead F l ++ l.Zones.map (fun _ => lit "#ZONE#") ++ fileTail) } := by
  unfold FileLog.gen_xml at h
  obtain ⟨t0, h0, h⟩ := Out.bind_inv h
  obtain ⟨t1, h1, h⟩ := Out.bind_inv h
  obtain ⟨t2, h2, h⟩ := Out.bind_inv h
  obtain ⟨t3, h3, h⟩ := Out.bind_inv h
  obtain ⟨u, hu, h⟩ := Out.bind_inv h
  obtain ⟨t4, h4, h⟩ := Out.bind_inv h
  obtain ⟨t5, h5, h⟩ := Out.bind_inv h
  obtain ⟨t6, h6, h⟩ := Out.bind_inv h
  obtain ⟨t7, h7, h⟩ := Out.bind_inv h
  obtain ⟨t8, h8, h⟩ := Out.bind_inv h
  obtain ⟨aux, h9, h⟩ := Out.bind_inv h
  obtain ⟨zs, h10, h⟩ := Out.bind_inv h
  cases h
  rw [sprintf_inv h0, sprintf_inv h1, sprintf_inv h2, sprintf_inv h3, sprintf_inv h4, sprintf_inv h5, sprintf_inv h6, sprintf_inv h7, vars_inv h8, xmlAux_inv h9,
    eachZone_inv (fun z z' hz => zoneGen_inv hz) _ _ h10]
  unfold fileHead fileTail
  rw [known_inv hu]
  simp only [List.append_assoc, Option.getD_some]

/-! ## They show the tree -/

theorem toI32_small {n : Nat} (h : n < 2147483648) : toI32 n = (n : Int) := by
  unfold toI32
  split
  · omega
  · omega

theorem block_map {α : Type} {f : α → Node} {g : α → Str} (l : List α) (h : ∀ x ∈ l, Block [f x] (g x)) : Block (l.map f) (l.flatMap g) := by
  induction l with
  | nil => exact Block.nil blank_nil
  | cons a l ih =>
    rw [List.map_cons, List.flatMap_cons]
    exact Block.append (h a (by simp)) (ih fun x hx => h x (by simp [hx]))

theorem block_triple (d : Nat) {n : String} (hn : IsName (lit n)) (a : I3)
    (e1 : lit ("\t<" ++ n ++ "> <I>") = lit "\t<" ++ lit n ++ lit "> <I>") (e2 : lit ("</K> </" ++ n ++ ">") = lit "</K> </" ++ lit n ++ lit ">") :
    Block [triple n a] (tline d (tripleLine n a)) := by
  have hf : ∀ (c : Str) (x : Int), IsName c → Block [field c (dec x)] (lit " " ++ (lit "<" ++ c ++ lit ">" ++ dec x ++ lit "</" ++ c ++ lit ">") ++ []) :=
    fun c x hc => Block.one (by decide) (field_shows hc (printed_plain (dec_printed x)).1) blank_nil
  have hb := ((hf (lit "I") a.x (by decide)).append (hf (lit "J") a.y (by decide))).append (hf (lit "K") a.z (by decide))
  have hb := hb.append (Block.nil (w := lit " ") (by decide))
  have := block_line d tab1 (hb.shows hn attrsOk_nil)
  unfold tripleLine
  rw [e1, e2]
  simp only [attrsText, List.flatMap_nil, List.append_nil, List.append_assoc, List.cons_append, List.nil_append] at this
  unfold triple
  simp only [List.append_assoc]
  exact this

theorem zipIdx_fst {α β : Type} (f : α → β) (l : List α) (n : Nat) : ((l.zipIdx n).map fun x => f x.1) = l.map f := by
  induction l generalizing n with
  | nil => rfl
  | cons a l ih => rw [List.zipIdx_cons, List.map_cons, List.map_cons, ih]

theorem block_aux (d : Nat) {m : AuxMap} (h : AuxTidy m) : Block (auxNodes m) (ttext d (auxLines m)) := by
  unfold auxNodes auxLines
  by_cases hm : m = []
  · subst hm; exact Block.nil blank_nil
  · rw [if_neg hm, if_pos (by simpa using hm)]
    have hb : Block (m.map fun e => field e.1 e.2) (ttext d (m.map fun e => lit "\t\t<" ++ cstr e.1 ++ lit ">" ++ cstr e.2 ++ lit "</" ++ cstr e.1 ++ lit ">")) := by
      unfold ttext
      rw [List.flatMap_map]
      apply block_map
      intro e he
      obtain ⟨h1, h2⟩ := h e he
      have := block_field d tab2 h1 h2
      rw [name_cstr h1, plain_cstr h2]
      simp only [List.append_assoc] at this ⊢
      exact this
    have := block_wrap d (ind := lit "\t") (n := lit "Auxiliary") tab1 (by decide) attrsOk_nil hb
    rw [zipIdx_fst (fun e : Str × Str => lit "\t\t<" ++ cstr e.1 ++ lit ">" ++ cstr e.2 ++ lit "</" ++ cstr e.1 ++ lit ">"), ttext_append, ttext_cons, ttext_cons, ttext_nil,
      List.append_nil]
    exact this

theorem name_append {a b : Str} (ha : IsName a) (hb : ∀ c ∈ b, NameByte c) : IsName (a ++ b) := by
  cases a with
  | nil => exact ha.elim
  | cons x a =>
    refine ⟨ha.1, fun c hc => ?_⟩
    rcases List.mem_append.1 hc with h | h
    · exact ha.2 c h
    · exact hb c h

theorem dec_nameBytes (i : Nat) : ∀ c ∈ dec (i : Int), NameByte c := by
  intro c hc
  unfold dec at hc
  rw [if_neg (by omega)] at hc
  exact .inr (.inl ((decNat_bytes _).2 c hc))

theorem block_data {F : Fmt} (hF : PrintsNumbers F) (d : Nat) {x : DataLog} {i : Nat} (hs : x.size < 2147483648) (hi : i < 2147483648) :
    Block [dataNode F x i] (tline d (dataLine F x i)) := by
  have h1 : ∀ y, Quotable (dec y) := fun y => (printed_plain (dec_printed y)).2.1
  have h2 : ∀ y, Quotable (F.le y) := fun y => (printed_plain (hF y).1).2.1
  have hn : IsName (lit "Data_" ++ dec (i : Int)) := name_append (by decide) (dec_nameBytes i)
  have ha : AttrsOk [(lit "type", dec x.type.code), (lit "size_i", dec x.size), (lit "file_pt", dec (x.file_pt.getD 0)),
     (lit "min", F.le (x.min.getD 0)), (lit "max", F.le (x.max.getD 0))] := by
    constructor
    · intro a ha
      simp only [List.mem_cons, List.not_mem_nil, or_false] at ha
      rcases ha with rfl | rfl | rfl | rfl | rfl
      · exact ⟨by show IsName (lit "type"); decide, h1 _⟩
      · exact ⟨by show IsName (lit "size_i"); decide, by show Quotable (dec (x.size : Int)); exact h1 _⟩
      · exact ⟨by show IsName (lit "file_pt"); decide, h1 _⟩
      · exact ⟨by show IsName (lit "min"); decide, h2 _⟩
      · exact ⟨by show IsName (lit "max"); decide, h2 _⟩
    · show [lit "type", lit "size_i", lit "file_pt", lit "min", lit "max"].Nodup
      decide
  have := block_line d tab2 (Shows.sealed hn ha)
  unfold dataNode dataLine
  rw [toI32_small hs, toI32_small hi]
  simp only [attrsText, List.flatMap_cons, List.flatMap_nil, List.append_assoc] at this ⊢
  exact this

theorem mem_zipIdx_lt {α : Type} {l : List α} {x : α × Nat} (h : x ∈ l.zipIdx) : x.1 ∈ l ∧ x.2 < l.length := by
  have := List.mem_zipIdx h
  obtain ⟨-, h2, h3⟩ := this
  refine ⟨by rw [h3]; exact List.getElem_mem _, by omega⟩

theorem attr_name {k v : Str} (hk : IsName k) (hv : Quotable v) : AttrsOk [(k, v)] := by
  refine ⟨fun a ha => ?_, by simp⟩
  rw [List.mem_singleton.1 ha]; exact ⟨hk, hv⟩

theorem block_zone {F : Fmt} (hF : PrintsNumbers F) (d : Nat) {z : ZoneLog} (h : ZoneTidy z) : Block [zoneNode F z] (ttext d (zoneLines F z)) := by
  have pd : ∀ y, Plain (dec y) := fun y => (printed_plain (dec_printed y)).1
  have pl : ∀ y, Plain (F.le y) := fun y => (printed_plain (hF y).1).1
  have b1 : Block [field (lit "ZoneName") z.ZoneName, field (lit "StrandId") (dec z.StrandId)]
      (ttext d [lit "\t<ZoneName>" ++ cstr z.ZoneName ++ lit "</ZoneName>", lit "\t<StrandId>" ++ dec z.StrandId ++ lit "</StrandId>"]) := by
    have := (block_field d (n := lit "ZoneName") tab1 (by decide) h.name.1).append (block_field d (n := lit "StrandId") tab1 (by decide) (pd z.StrandId))
    rw [plain_cstr h.name.1, ttext_cons, ttext_cons, ttext_nil, List.append_nil]
    simp only [List.append_assoc] at this ⊢
    exact this
  have b2 : Block (if z.StrandId = -1 then [] else [field (lit "SolutionTime") (F.le z.SolutionTime)])
      (ttext d (if z.StrandId ≠ -1 then [lit "\t<SolutionTime>" ++ F.le z.SolutionTime ++ lit "</SolutionTime>"] else [])) := by
    by_cases hs : z.StrandId = -1
    · rw [if_pos hs, if_neg (by simpa using hs)]; exact Block.nil blank_nil
    · rw [if_neg hs, if_pos hs]
      have := block_field d (n := lit "SolutionTime") tab1 (by decide) (pl z.SolutionTime)
      rw [ttext_cons, ttext_nil, List.append_nil]
      simp only [List.append_assoc] at this ⊢
      exact this
  have b3 : Block [field (lit "Org_Dim") (dec z.Dim), field (lit "Real_Dim") (dec z.Real_Dim), triple "Org_Max" z.Max, triple "Skip" z.Skip,
          triple "Begin" z.Begin, triple "End" z.End, triple "Real_Max" z.Real_Max]
      (ttext d [lit "\t<Org_Dim>" ++ dec z.Dim ++ lit "</Org_Dim>", lit "\t<Real_Dim>" ++ dec z.Real_Dim ++ lit "</Real_Dim>",
    tripleLine "Org_Max" z.Max, tripleLine "Skip" z.Skip, tripleLine "Begin" z.Begin, tripleLine "End" z.End, tripleLine "Real_Max" z.Real_Max]) := by
    have f1 := block_field d (n := lit "Org_Dim") tab1 (by decide) (pd z.Dim)
    have f2 := block_field d (n := lit "Real_Dim") tab1 (by decide) (pd z.Real_Dim)
    have t1 := block_triple d (n := "Org_Max") (by decide) z.Max (by decide) (by decide)
    have t2 := block_triple d (n := "Skip") (by decide) z.Skip (by decide) (by decide)
    have t3 := block_triple d (n := "Begin") (by decide) z.Begin (by decide) (by decide)
    have t4 := block_triple d (n := "End") (by decide) z.End (by decide) (by decide)
    have t5 := block_triple d (n := "Real_Max") (by decide) z.Real_Max (by decide) (by decide)
    have := f1.append (f2.append (t1.append (t2.append (t3.append (t4.append t5)))))
    simp only [ttext_cons, ttext_nil, List.append_nil]
    simp only [List.append_assoc] at this ⊢
    exact this
  have b4 := block_aux d h.aux
  have b5 : Block [.comment (lit "1=Float, 2=Double, 3=LongInt, 4=ShortInt, 5=Byte, 6=Bit")]
      (ttext d [lit "\t<!--1=Float, 2=Double, 3=LongInt, 4=ShortInt, 5=Byte, 6=Bit-->"]) := by
    have := block_line d tab1 (Shows.comment (v := lit "1=Float, 2=Double, 3=LongInt, 4=ShortInt, 5=Byte, 6=Bit") (by decide))
    rw [ttext_cons, ttext_nil, List.append_nil]
    exact this
  have b6 : Block [.elem (lit "Datas") [] (z.Data.zipIdx.map fun x => dataNode F x.1 x.2)]
      (ttext d ([lit "\t<Datas>"] ++ (z.Data.zipIdx.map fun x => dataLine F x.1 x.2) ++ [lit "\t</Datas>"])) := by
    have hb : Block (z.Data.zipIdx.map fun x => dataNode F x.1 x.2) (ttext d (z.Data.zipIdx.map fun x => dataLine F x.1 x.2)) := by
      unfold ttext
      rw [List.flatMap_map]
      apply block_map
      intro x hx
      obtain ⟨h1, h2⟩ := mem_zipIdx_lt hx
      exact block_data hF d (h.data _ h1) (Nat.lt_of_lt_of_le h2 h.few)
    have := block_wrap d (ind := lit "\t") (n := lit "Datas") tab1 (by decide) attrsOk_nil hb
    simp only [ttext_append, ttext_cons, ttext_nil, List.append_nil]
    exact this
  have all := ((((b1.append b2).append b3).append b4).append b5).append b6
  have := block_wrap d (ind := []) (n := lit "Zone") blank_nil (by decide) (attr_name (k := lit "ZoneName") (by decide) h.name.2) all
  unfold zoneNode zoneLines
  rw [plain_cstr h.name.1] at *
  simp only [List.nil_append, List.append_assoc, List.cons_append, ttext_append, ttext_cons, ttext_nil, List.append_nil, attrsText,
    List.flatMap_cons, List.flatMap_nil] at this ⊢
  exact this

end Verif.Xml
