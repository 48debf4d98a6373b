import Verif.Proof.Json2
/-!
# The json lines of a zone
-/
namespace Verif.Json
open Tec Spec
open Xml (tline ttext ttext_append ttext_cons ttext_nil known_inv optLine_inv toI32_small)

/-! ## What `gen_json` appends -/

def strLine (n : String) (v : Str) : Str := lit "\t\"" ++ (lit n ++ (lit "\" : \"" ++ (v ++ lit "\" ,")))
def numLine (n : String) (t : Str) : Str := lit "\t\"" ++ (lit n ++ (lit "\" : " ++ (t ++ lit " ,")))
def tripLine (n : String) (a : I3) : Str :=
  lit ("\t\"" ++ n ++ "\" : [ ") ++ (dec a.x ++ (lit ", " ++ (dec a.y ++ (lit ", " ++ (dec a.z ++ lit " ] ,")))))

def pairText (e : Str × Str) : Str := lit "\"" ++ cstr e.1 ++ lit "\" : \"" ++ cstr e.2 ++ lit "\""

def auxLines (m : AuxMap) : List Str :=
  if m.length ≠ 0 then lit "\t\"Auxiliary\" : {" :: commas (lit ",") (m.map fun e => lit "\t\t" ++ pairText e) ++ [lit "\t} ,"] else []

def dataText (F : Fmt) (d : DataLog) : Str :=
  lit "{ \"type\":" ++ dec d.type.code ++ lit ", \"size_i\":" ++ dec (toI32 d.size) ++
    lit ", \"file_pt\":" ++ dec (d.file_pt.getD 0) ++ lit ", \"min\":" ++ F.le (d.min.getD 0) ++ lit ", \"max\":" ++ F.le (d.max.getD 0) ++ lit " }"

def zoneLines (F : Fmt) (z : ZoneLog) : List Str :=
  [lit "{", strLine "ZoneName" (cstr z.ZoneName), numLine "StrandId" (dec z.StrandId)]
    ++ (if z.StrandId ≠ -1 then [numLine "SolutionTime" (F.le z.SolutionTime)] else [])
    ++ [numLine "Org_Dim" (dec z.Dim), numLine "Real_Dim" (dec z.Real_Dim), tripLine "Org_Max" z.Max, tripLine "Skip" z.Skip, tripLine "Begin" z.Begin,
      tripLine "End" z.End, tripLine "Real_Max" z.Real_Max] ++ auxLines z.Auxiliary
    ++ [strLine "Data_type_comment" (lit "1=Float, 2=Double, 3=LongInt, 4=ShortInt, 5=Byte, 6=Bit"), lit "\t\"Data\" : ["]
    ++ commas (lit ",") (z.Data.map fun d => lit "\t\t" ++ dataText F d) ++ [lit "\t]", lit "}"]

theorem jsonAux_inv {m : AuxMap} {r : List Str} (h : jsonAux m = .ok r) : r = auxLines m := by
  unfold jsonAux at h
  unfold auxLines
  split at h
  · rename_i hm
    rw [if_pos hm]
    obtain ⟨q, h1, h⟩ := Out.bind_inv h
    cases h
    have e := lines_commas (sep := lit ",") (g := fun e : Str × Str => lit "\t\t" ++ pairText e) (fun i a b t ht => by
      obtain ⟨u, h2, h3⟩ := Out.bind_inv ht
      rw [sprintf_inv h2] at h3
      cases h3
      rfl) m 0 q h1
    rw [e]
  · rename_i hm
    rw [if_neg hm]
    cases h
    rfl

theorem data_inv {F : Fmt} {d : DataLog} {b : Bool} {t : Str} (h : d.json F b = .ok t) :
    t = if b then lit "\t\t" ++ dataText F d else (lit "\t\t" ++ dataText F d) ++ lit "," := by
  unfold DataLog.json at h
  obtain ⟨p, h1, h⟩ := Out.bind_inv h
  obtain ⟨mn, h2, h⟩ := Out.bind_inv h
  obtain ⟨mx, h3, h⟩ := Out.bind_inv h
  obtain ⟨u, h4, h⟩ := Out.bind_inv h
  rw [sprintf_inv h4] at h
  cases h
  unfold dataText
  rw [known_inv h1, known_inv h2, known_inv h3]
  rfl

theorem zoneGen_inv {F : Fmt} {z z' : ZoneLog} (h : z.gen_json F = .ok z') : z' = { z with Json_Text := z.Json_Text ++ zoneLines F z } := by
  unfold ZoneLog.gen_json at h
  obtain ⟨t1, h1, h⟩ := Out.bind_inv h
  obtain ⟨t2, h2, h⟩ := Out.bind_inv h
  obtain ⟨t3, h3, h⟩ := Out.bind_inv h
  obtain ⟨t4, h4, h⟩ := Out.bind_inv h
  obtain ⟨t5, h5, h⟩ := Out.bind_inv h
  obtain ⟨t6, h6, h⟩ := Out.bind_inv h
  obtain ⟨t7, h7, h⟩ := Out.bind_inv h
  obtain ⟨t8, h8, h⟩ := Out.bind_inv h
  obtain ⟨t9, h9, h⟩ := Out.bind_inv h
  obtain ⟨t10, h10, h⟩ := Out.bind_inv h
  obtain ⟨a, ha, h⟩ := Out.bind_inv h
  obtain ⟨d, hd, h⟩ := Out.bind_inv h
  cases h
  have ed := lines_commas (sep := lit ",") (g := fun d : DataLog => lit "\t\t" ++ dataText F d) (fun i a b t ht => data_inv ht) z.Data 0 d hd
  rw [sprintf_inv h1, sprintf_inv h2, optLine_inv (fun _ hu => sprintf_inv hu) h3, sprintf_inv h4, sprintf_inv h5, sprintf_inv h6, sprintf_inv h7,
    sprintf_inv h8, sprintf_inv h9, sprintf_inv h10, jsonAux_inv ha, ed]
  unfold zoneLines
  simp only [List.append_assoc, List.cons_append, List.nil_append, decide_eq_true_eq]
  rfl

/-! ## What the lines show -/

/-- the texts of the names are chosen by the program -/
theorem pre_num (d : Nat) {n : String} (hn : Legible (lit n)) {t : Str} (h : JNumber t) : Pre [jnum n t] (tline d (numLine n t)) := by
  have := Pre.one (jb_append (jb_tabs d) (by decide : JBlank (lit "\t"))) (chars_legible hn) (b := lit " ") (by decide) (c := lit " ") (by decide) (.num h)
    (d := lit " ") (by decide) (w := lit "\n") (by decide)
  unfold numLine
  rw [tline_eq d (noZero_append (by decide) (noZero_append (legible_noZero hn) (noZero_append (by decide) (noZero_append (number_noZero h) (by decide)))))]
  simp only [List.append_assoc] at this ⊢
  exact this

theorem pre_str (d : Nat) {n : String} (hn : Legible (lit n)) {v : Str} (h : Legible v) : Pre [jtext n v] (tline d (strLine n v)) := by
  have := Pre.one (jb_append (jb_tabs d) (by decide : JBlank (lit "\t"))) (chars_legible hn) (b := lit " ") (by decide) (c := lit " ") (by decide) (.str (chars_legible h))
    (d := lit " ") (by decide) (w := lit "\n") (by decide)
  unfold strLine
  rw [tline_eq d (noZero_append (by decide) (noZero_append (legible_noZero hn) (noZero_append (by decide) (noZero_append (legible_noZero h) (by decide)))))]
  simp only [List.append_assoc, List.cons_append, List.nil_append] at this ⊢
  exact this

theorem lit_append (a b : String) : lit (a ++ b) = lit a ++ lit b := by
  unfold lit
  simp

theorem pre_trip (d : Nat) {n : String} (hn : Legible (lit n)) (a : I3) : Pre [jtriple n a] (tline d (tripLine n a)) := by
  have e := JElems.cons (a := lit " ") (by decide) (.num (dec_number a.x)) jb_nil (.cons (a := lit " ") (by decide) (.num (dec_number a.y)) jb_nil
    (.one (a := lit " ") (by decide) (.num (dec_number a.z)) (b := lit " ") (by decide)))
  have := Pre.one (jb_append (jb_tabs d) (by decide : JBlank (lit "\t"))) (chars_legible hn) (b := lit " ") (by decide) (c := lit " ") (by decide) (.arr e)
    (d := lit " ") (by decide) (w := lit "\n") (by decide)
  unfold tripLine
  rw [lit_append, lit_append]
  have nx (x : Int) := number_noZero (dec_number x)
  rw [tline_eq d (noZero_append (noZero_append (noZero_append (by decide) (legible_noZero hn)) (by decide)) (noZero_append (nx _) (noZero_append (by decide)
    (noZero_append (nx _) (noZero_append (by decide) (noZero_append (nx _) (by decide)))))))]
  simp only [List.append_assoc, List.cons_append, List.nil_append] at this ⊢
  exact this

theorem members_lines (d : Nat) {ind : Str} (hi : JBlank ind) (iz : NoZero ind) {m : AuxMap} (h : AuxLegible m) (hm : m ≠ []) :
    JMembers (m.map fun e => (e.1, .str e.2)) (ttext d (commas (lit ",") (m.map fun e => ind ++ pairText e))) := by
  induction m with
  | nil => exact absurd rfl hm
  | cons x m ih =>
    obtain ⟨h1, h2⟩ := h x (by simp)
    have hz : NoZero (ind ++ pairText x) := by
      unfold pairText
      rw [legible_cstr h1, legible_cstr h2]
      exact noZero_append iz (noZero_append (noZero_append (noZero_append (noZero_append (by decide) (legible_noZero h1)) (by decide)) (legible_noZero h2)) (by decide))
    have ep : pairText x = lit "\"" ++ x.1 ++ lit "\" : \"" ++ x.2 ++ lit "\"" := by
      unfold pairText
      rw [legible_cstr h1, legible_cstr h2]
    cases m with
    | nil =>
      simp only [List.map_cons, List.map_nil, commas, ttext_cons, ttext_nil, List.append_nil]
      rw [tline_eq d hz]
      have := JMembers.one (jb_append (jb_tabs d) hi) (chars_legible h1) (b := lit " ") (by decide) (c := lit " ") (by decide) (.str (chars_legible h2)) (d := lit "\n") (by decide)
      rw [ep]
      simp only [List.append_assoc, List.cons_append, List.nil_append] at this ⊢
      exact this
    | cons y m =>
      have ih := ih (fun x hx => h x (by simp [hx])) (by simp)
      simp only [List.map_cons, commas, ttext_cons] at ih ⊢
      rw [tline_eq d (noZero_append hz (by decide))]
      have := JMembers.cons (jb_append (jb_tabs d) hi) (chars_legible h1) (b := lit " ") (by decide) (c := lit " ") (by decide) (.str (chars_legible h2)) jb_nil
        (members_blank (w := lit "\n") (by decide) ih)
      rw [ep]
      simp only [List.append_assoc, List.cons_append, List.nil_append] at this ⊢
      exact this

theorem pre_aux (d : Nat) {m : AuxMap} (h : AuxLegible m) : Pre (jaux m) (ttext d (auxLines m)) := by
  unfold jaux auxLines
  by_cases hm : m = []
  · subst hm
    exact Pre.nil jb_nil
  · rw [if_neg hm, if_pos (by simpa using hm)]
    have e := members_trail (jb_append (jb_tabs d) (by decide : JBlank (lit "\t"))) (members_blank (w := lit "\n") (by decide) (members_lines d (ind := lit "\t\t") (by decide) (by decide) h hm))
    have := Pre.one (jb_append (jb_tabs d) (by decide : JBlank (lit "\t"))) (chars_legible (s := lit "Auxiliary") (by decide)) (b := lit " ") (by decide) (c := lit " ") (by decide) (.obj e)
      (d := lit " ") (by decide) (w := lit "\n") (by decide)
    rw [ttext_append, ttext_cons, ttext_cons, ttext_nil, tline_eq d (by decide), tline_eq d (by decide)]
    simp only [List.append_assoc, List.cons_append, List.nil_append, List.append_nil] at this ⊢
    exact this

theorem data_value {F : Fmt} {d : DataLog} (hs : d.size < 2147483648) (h1 : JNumber (F.le (d.min.getD 0))) (h2 : JNumber (F.le (d.max.getD 0))) :
    JValue (dataValue F d) (dataText F d) ∧ NoZero (dataText F d) := by
  have m (n : String) (hn : Legible (lit n)) {t : Str} (ht : JNumber t) : Pre [jnum n t] (lit " " ++ (34 :: (lit n ++ 34 :: ([] ++ 58 :: ([] ++ (t ++ ([] ++ 44 :: []))))))) :=
    Pre.one (by decide) (chars_legible hn) jb_nil jb_nil (.num ht) jb_nil jb_nil
  have e := ((m "type" (by decide) (dec_number d.type.code)).append ((m "size_i" (by decide) (dec_number d.size)).append
    ((m "file_pt" (by decide) (dec_number (d.file_pt.getD 0))).append (m "min" (by decide) h1)))) _ _
    (JMembers.one (a := lit " ") (by decide) (chars_legible (s := lit "max") (by decide)) jb_nil jb_nil (.num h2) (d := lit " ") (by decide))
  have := JValue.obj e
  constructor
  · unfold dataText
    rw [toI32_small hs]
    simp only [List.append_assoc, List.cons_append, List.nil_append] at this ⊢
    exact this
  · unfold dataText
    exact noZero_append (noZero_append (noZero_append (noZero_append (noZero_append (noZero_append (noZero_append (noZero_append (noZero_append (noZero_append
      (by decide) (number_noZero (dec_number _))) (by decide)) (number_noZero (dec_number _))) (by decide)) (number_noZero (dec_number _))) (by decide)) (number_noZero h1))
      (by decide)) (number_noZero h2)) (by decide)

/-- the last member of a zone or of a file: an array of several lines -/
theorem members_array (d : Nat) {n : Str} (hn : Legible n) {l : List JVal} {t : Str} (h : Elems l t) :
    JMembers [(n, .arr l)] (tline d (lit "\t\"" ++ n ++ lit "\" : [") ++ t ++ tline d (lit "\t]")) := by
  have e := ((h.blank (w := lit "\n") (by decide)).trail (jb_append (jb_tabs d) (by decide : JBlank (lit "\t")))).value
  have := JMembers.one (jb_append (jb_tabs d) (by decide : JBlank (lit "\t"))) (chars_legible hn) (b := lit " ") (by decide) (c := lit " ") (by decide) e (d := lit "\n") (by decide)
  rw [tline_eq d (noZero_append (noZero_append (by decide) (legible_noZero hn)) (by decide)), tline_eq d (by decide)]
  simp only [List.append_assoc, List.cons_append, List.nil_append, List.append_nil] at this ⊢
  exact this

/-- braces on lines of their own -/
theorem value_braces (d : Nat) {l : List (Str × JVal)} {t : Str} (h : JMembers l t) :
    ∃ s, JValue (.obj l) s ∧ tline d (lit "{") ++ t ++ tline d (lit "}") = List.replicate d 9 ++ (s ++ lit "\n") := by
  refine ⟨_, .obj (members_trail (jb_tabs d) (members_blank (w := lit "\n") (by decide) h)), ?_⟩
  rw [tline_eq d (by decide), tline_eq d (by decide)]
  simp only [List.append_assoc, List.cons_append, List.nil_append, List.append_nil]
  rfl

theorem zone_value {F : Fmt} (d : Nat) {z : ZoneLog} (h : ZoneLegible F z) :
    ∃ s, JValue (zoneValue F z) s ∧ ttext d (zoneLines F z) = List.replicate d 9 ++ (s ++ lit "\n") := by
  have p1 := (pre_str d (n := "ZoneName") (by decide) h.name).append (pre_num d (n := "StrandId") (by decide) (dec_number z.StrandId))
  have p2 : Pre (if z.StrandId = -1 then [] else [jnum "SolutionTime" (F.le z.SolutionTime)])
      (ttext d (if z.StrandId ≠ -1 then [numLine "SolutionTime" (F.le z.SolutionTime)] else [])) := by
    by_cases hs : z.StrandId = -1
    · rw [if_pos hs, if_neg (by simpa using hs)]
      exact Pre.nil jb_nil
    · rw [if_neg hs, if_pos hs, ttext_cons, ttext_nil, List.append_nil]
      exact pre_num d (by decide) (h.time hs)
  have p3 := (pre_num d (n := "Org_Dim") (by decide) (dec_number z.Dim)).append ((pre_num d (n := "Real_Dim") (by decide) (dec_number z.Real_Dim)).append
    ((pre_trip d (n := "Org_Max") (by decide) z.Max).append ((pre_trip d (n := "Skip") (by decide) z.Skip).append ((pre_trip d (n := "Begin") (by decide) z.Begin).append
    ((pre_trip d (n := "End") (by decide) z.End).append (pre_trip d (n := "Real_Max") (by decide) z.Real_Max))))))
  have p4 := pre_aux d h.aux
  have p5 := pre_str d (n := "Data_type_comment") (by decide) (v := lit "1=Float, 2=Double, 3=LongInt, 4=ShortInt, 5=Byte, 6=Bit") (by decide)
  have el : Elems (z.Data.map (dataValue F)) (ttext d (commas (lit ",") (z.Data.map fun d => lit "\t\t" ++ dataText F d))) :=
    elems_lines d (by decide) z.Data (fun x hx => data_value (h.data x hx).1 (h.data x hx).2.1 (h.data x hx).2.2) (by decide)
  have last := members_array d (n := lit "Data") (by decide) el
  have all := (p1.append (p2.append (p3.append (p4.append p5)))) _ _ last
  obtain ⟨s, h1, h2⟩ := value_braces d all
  refine ⟨s, ?_, ?_⟩
  · unfold zoneValue
    simp only [List.append_assoc, List.cons_append, List.nil_append] at h1 ⊢
    exact h1
  · rw [← h2]
    unfold zoneLines
    rw [legible_cstr h.name]
    simp only [ttext_append, ttext_cons, ttext_nil, List.append_assoc, List.append_nil]
    rfl

end Verif.Json
