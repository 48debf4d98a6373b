import Verif.Proof.Json5
/-!
# The json of a log is the JSON of its content only if the log is legible
-/
namespace Verif.Json
open Tec Spec
open Xml (tline ttext ttext_append ttext_cons ttext_nil)

/-! ## The numbers of a value -/

inductive HasNum : JVal → Str → Prop
  | num {t : Str} : HasNum (.num t) t
  | arr {l : List JVal} {v : JVal} {t : Str} : v ∈ l → HasNum v t → HasNum (.arr l) t
  | obj {l : List (Str × JVal)} {e : Str × JVal} {t : Str} : e ∈ l → HasNum e.2 t → HasNum (.obj l) t

theorem hasNum_number {v : JVal} {t : Str} (h : JValue v t) : ∀ {s : Str}, HasNum v s → JNumber s := by
  refine JValue.rec
    (motive_1 := fun v t _ => ∀ {s : Str}, HasNum v s → JNumber s)
    (motive_2 := fun l t _ => ∀ v ∈ l, ∀ {s : Str}, HasNum v s → JNumber s)
    (motive_3 := fun l t _ => ∀ e ∈ l, ∀ {s : Str}, HasNum e.2 s → JNumber s)
    ?_ ?_ ?_ ?_ ?_ ?_ ?_ ?_ ?_ ?_ ?_ ?_ ?_ h
  · intro s h; cases h
  · intro s h; cases h
  · intro s h; cases h
  · intro t ht s h; cases h; exact ht
  · intro t s ht s h; cases h
  · intro w hw s h; cases h with | arr h => cases h
  · intro l t _ ih s h; cases h with | arr h1 h2 => exact ih _ h1 h2
  · intro w hw s h; cases h with | obj h => cases h
  · intro l t _ ih s h; cases h with | obj h1 h2 => exact ih _ h1 h2
  · intro v a t b _ _ _ ih u hu s h
    obtain rfl := List.mem_singleton.1 hu
    exact ih h
  · intro v l a t b r _ _ _ _ ih1 ih2 u hu s h
    rcases List.mem_cons.1 hu with rfl | hu
    · exact ih1 h
    · exact ih2 u hu h
  · intro k v a n b c t d _ _ _ _ _ _ ih u hu s h
    obtain rfl := List.mem_singleton.1 hu
    exact ih h
  · intro k v l a n b c t d r _ _ _ _ _ _ _ ih1 ih2 u hu s h
    rcases List.mem_cons.1 hu with rfl | hu
    · exact ih1 h
    · exact ih2 u hu h

/-- the real numbers of a zone are printed as JSON numbers -/
structure ZoneNums (F : Fmt) (z : ZoneLog) : Prop where
  time : z.StrandId ≠ -1 → JNumber (F.le z.SolutionTime)
  data : ∀ d ∈ z.Data, JNumber (F.le (d.min.getD 0)) ∧ JNumber (F.le (d.max.getD 0))

theorem zone_nums {F : Fmt} {z : ZoneLog} (h : ∀ s, HasNum (zoneValue F z) s → JNumber s) : ZoneNums F z := by
  constructor
  · intro hs
    refine h _ (.obj (e := jnum "SolutionTime" (F.le z.SolutionTime)) ?_ .num)
    simp [hs]
  · intro d hd
    have hm : dataValue F d ∈ z.Data.map (dataValue F) := List.mem_map_of_mem hd
    have ho {s : Str} (hs : HasNum (dataValue F d) s) : HasNum (zoneValue F z) s :=
      .obj (e := (lit "Data", .arr (z.Data.map (dataValue F)))) (by simp) (.arr hm hs)
    exact ⟨h _ (ho (.obj (e := jnum "min" (F.le (d.min.getD 0))) (by simp) .num)), h _ (ho (.obj (e := jnum "max" (F.le (d.max.getD 0))) (by simp) .num))⟩

theorem file_nums {F : Fmt} {l : FileLog} {t : Str} (h : JValue (fileValue F l) t) :
    JNumber (F.f5 (l.UsingTime.getD 0)) ∧ ∀ z ∈ l.Zones, ZoneNums F z := by
  refine ⟨hasNum_number h (.obj (e := jnum "UsingTime" (F.f5 (l.UsingTime.getD 0))) (by simp) .num), fun z hz => zone_nums fun s hs => ?_⟩
  exact hasNum_number h (.obj (e := (lit "Zones", .arr (l.Zones.map (zoneValue F)))) (by simp) (.arr (List.mem_map_of_mem hz) hs))

/-! ## Members and elements of several lines -/

theorem relems_blank {Q : Prop} {l : List JVal} {t w : Str} (hw : JBlank w) (h : RElems Q l t) : RElems Q l (w ++ t) := by
  cases h with
  | one ha hv hb => rw [← List.append_assoc]; exact .one (jb_append hw ha) hv hb
  | cons ha hv hb hr => rw [← List.append_assoc]; exact .cons (jb_append hw ha) hv hb hr

theorem rmembers_blank {Q : Prop} {l : List (Str × JVal)} {t w : Str} (hw : JBlank w) (h : RMembers Q l t) : RMembers Q l (w ++ t) := by
  cases h with
  | one ha hb hc hv hd => rw [← List.append_assoc]; exact .one (jb_append hw ha) hb hc hv hd
  | cons ha hb hc hv hd hr => rw [← List.append_assoc]; exact .cons (jb_append hw ha) hb hc hv hd hr

theorem relems_trail {l : List JVal} : ∀ {Q : Prop} {t w : Str}, JBlank w → RElems Q l t → RElems Q l (t ++ w) := by
  induction l with
  | nil => intro Q t w _ h; cases h
  | cons v l ih =>
    intro Q t w hw h
    cases h with
    | one ha hv hb => simp only [List.append_assoc]; exact .one ha hv (jb_append hb hw)
    | cons ha hv hb hr => simp only [List.append_assoc, List.cons_append]; exact .cons ha hv hb (ih hw hr)

theorem rmembers_trail {l : List (Str × JVal)} : ∀ {Q : Prop} {t w : Str}, JBlank w → RMembers Q l t → RMembers Q l (t ++ w) := by
  induction l with
  | nil => intro Q t w _ h; cases h
  | cons v l ih =>
    intro Q t w hw h
    cases h with
    | one ha hb hc hv hd => simp only [List.append_assoc, List.cons_append]; exact .one ha hb hc hv (jb_append hd hw)
    | cons ha hb hc hv hd hr => simp only [List.append_assoc, List.cons_append]; exact .cons ha hb hc hv hd (ih hw hr)

/-- a printed value that shows `Q` if it is the value meant -/
def RV (Q : Prop) (v : JVal) (t : Str) : Prop := ∃ P, RValue P v t ∧ (P → Q)
def RM (Q : Prop) (l : List (Str × JVal)) (t : Str) : Prop := ∃ P, RMembers P l t ∧ (P → Q)

theorem RV.num {t : Str} (h : JNumber t) : RV True (.num t) t := ⟨_, .num h, id⟩
theorem RV.int {x y : Int} : RV (x = y) (.num (dec x)) (dec y) := ⟨_, .int, id⟩
theorem RV.str {s : Str} : RV (Legible s) (.str s) (34 :: (cstr s ++ [34])) := ⟨_, .str, id⟩

/-- a text of members, each followed by a comma -/
def RPre (Q : Prop) (l : List (Str × JVal)) (t : Str) : Prop := ∀ R m r, RM R m r → RM (Q ∧ R) (l ++ m) (t ++ r)

theorem RPre.nil {w : Str} (hw : JBlank w) : RPre True [] w := fun _ _ _ ⟨P, h, hp⟩ => ⟨P, rmembers_blank hw h, fun p => ⟨trivial, hp p⟩⟩

theorem RPre.append {Q Q' : Prop} {l l' : List (Str × JVal)} {t t' : Str} (h : RPre Q l t) (h' : RPre Q' l' t') : RPre (Q ∧ Q') (l ++ l') (t ++ t') := by
  intro R m r hm
  rw [List.append_assoc, List.append_assoc]
  obtain ⟨P, h1, h2⟩ := h _ _ _ (h' _ _ _ hm)
  exact ⟨P, h1, fun p => and_assoc.2 (h2 p)⟩

theorem RPre.one {Q : Prop} {k a b c t d w : Str} {v : JVal} (ha : JBlank a) (hb : JBlank b) (hc : JBlank c) (hv : RV Q v t) (hd : JBlank d) (hw : JBlank w) :
    RPre Q [(k, v)] (a ++ (34 :: (cstr k ++ 34 :: (b ++ 58 :: (c ++ (t ++ (d ++ 44 :: w))))))) := by
  intro R m r ⟨P, hm, hp⟩
  obtain ⟨P', hv, hp'⟩ := hv
  simp only [List.append_assoc, List.cons_append, List.nil_append]
  exact ⟨_, .cons ha hb hc hv hd (rmembers_blank hw hm), fun ⟨⟨_, p⟩, q⟩ => ⟨hp' p, hp q⟩⟩

theorem RM.one {Q : Prop} {k a b c t d : Str} {v : JVal} (ha : JBlank a) (hb : JBlank b) (hc : JBlank c) (hv : RV Q v t) (hd : JBlank d) :
    RM Q [(k, v)] (a ++ (34 :: (cstr k ++ 34 :: (b ++ 58 :: (c ++ (t ++ d)))))) := by
  obtain ⟨P', hv, hp'⟩ := hv
  exact ⟨_, .one ha hb hc hv hd, fun ⟨_, p⟩ => hp' p⟩

/-- the elements of an array, maybe none -/
def RE (Q : Prop) (l : List JVal) (t : Str) : Prop := (l = [] ∧ JBlank t ∧ Q) ∨ ∃ P, RElems P l t ∧ (P → Q)

theorem RE.blank {Q : Prop} {l : List JVal} {t w : Str} (hw : JBlank w) (h : RE Q l t) : RE Q l (w ++ t) := by
  rcases h with ⟨rfl, h, q⟩ | ⟨P, h, hp⟩
  · exact .inl ⟨rfl, jb_append hw h, q⟩
  · exact .inr ⟨P, relems_blank hw h, hp⟩

theorem RE.trail {Q : Prop} {l : List JVal} {t w : Str} (hw : JBlank w) (h : RE Q l t) : RE Q l (t ++ w) := by
  rcases h with ⟨rfl, h, q⟩ | ⟨P, h, hp⟩
  · exact .inl ⟨rfl, jb_append h hw, q⟩
  · exact .inr ⟨P, relems_trail hw h, hp⟩

theorem RE.value {Q : Prop} {l : List JVal} {t : Str} (h : RE Q l t) : RV Q (.arr l) (91 :: (t ++ [93])) := by
  rcases h with ⟨rfl, h, q⟩ | ⟨P, h, hp⟩
  · exact ⟨_, .arr0 h, fun _ => q⟩
  · exact ⟨_, .arr h, hp⟩

theorem noZero_cstr (s : Str) : NoZero (cstr s) := by
  unfold cstr
  induction s with
  | nil => intro b hb; cases hb
  | cons a s ih =>
    intro b hb
    by_cases ha : a = 0
    · rw [List.takeWhile_cons_of_neg (by simpa using ha)] at hb; cases hb
    · rw [List.takeWhile_cons_of_pos (by simpa using ha)] at hb
      rcases List.mem_cons.1 hb with rfl | hb
      · exact ha
      · exact ih b hb

theorem relems_lines {α : Type} {f : α → JVal} {u : α → Str} {Q : α → Prop} (d : Nat) {ind : Str} (hi : JBlank ind) (l : List α)
    (h : ∀ x ∈ l, RV (Q x) (f x) (u x) ∧ NoZero (u x)) (iz : NoZero ind) :
    RE (∀ x ∈ l, Q x) (l.map f) (ttext d (commas (lit ",") (l.map fun x => ind ++ u x))) := by
  induction l with
  | nil => exact .inl ⟨rfl, jb_nil, by simp⟩
  | cons x l ih =>
    obtain ⟨⟨P, hv, hp⟩, hz⟩ := h x (by simp)
    right
    cases l with
    | nil =>
      simp only [List.map_cons, List.map_nil, commas, ttext_cons, ttext_nil, List.append_nil]
      rw [tline_eq d (noZero_append iz hz)]
      have := RElems.one (jb_append (jb_tabs d) hi) hv (b := lit "\n") (by decide)
      simp only [List.append_assoc] at this ⊢
      exact ⟨_, this, fun p => by simpa using hp p⟩
    | cons y l =>
      have ih := ih fun x hx => h x (by simp [hx])
      simp only [List.map_cons, commas, ttext_cons] at ih ⊢
      rcases ih with ⟨h, -⟩ | ⟨R, ih, hr⟩
      · cases h
      · rw [tline_eq d (noZero_append (noZero_append iz hz) (by decide : NoZero (lit ",")))]
        have := RElems.cons (jb_append (jb_tabs d) hi) hv jb_nil (relems_blank (w := lit "\n") (by decide) ih)
        simp only [List.append_assoc, List.nil_append] at this ⊢
        exact ⟨_, this, fun ⟨p, r⟩ => by
          intro z hz
          rcases List.mem_cons.1 hz with rfl | hz
          · exact hp p
          · exact hr r z hz⟩

/-! ## The lines -/

/-- the name of a member is a text of the program -/
theorem name_plain {n : String} (hn : Legible (lit n)) : cstr (lit n) = lit n := legible_cstr hn

theorem rpre_line (d : Nat) {n : String} (hn : Legible (lit n)) {Q : Prop} {v : JVal} {t : Str} (hv : RV Q v t) (hz : NoZero t) :
    RPre Q [(lit n, v)] (tline d (lit "\t\"" ++ (lit n ++ (lit "\" : " ++ (t ++ lit " ,"))))) := by
  have := RPre.one (k := lit n) (jb_append (jb_tabs d) (by decide : JBlank (lit "\t"))) (b := lit " ") (by decide) (c := lit " ") (by decide) hv
    (d := lit " ") (by decide) (w := lit "\n") (by decide)
  rw [tline_eq d (noZero_append (by decide) (noZero_append (legible_noZero hn) (noZero_append (by decide) (noZero_append hz (by decide)))))]
  rw [name_plain hn] at this
  simp only [List.append_assoc] at this ⊢
  exact this

theorem rpre_num (d : Nat) {n : String} (hn : Legible (lit n)) {t : Str} (h : JNumber t) : RPre True [jnum n t] (tline d (numLine n t)) :=
  rpre_line d hn (.num h) (number_noZero h)

theorem rpre_str (d : Nat) {n : String} (hn : Legible (lit n)) (v : Str) : RPre (Legible v) [jtext n v] (tline d (strLine n (cstr v))) := by
  have := rpre_line d hn (.str (s := v)) (noZero_append (a := [34]) (by decide) (noZero_append (noZero_cstr v) (by decide)))
  unfold strLine
  simp only [List.append_assoc, List.cons_append, List.nil_append] at this ⊢
  exact this

theorem rpre_trip (d : Nat) {n : String} (hn : Legible (lit n)) (a : I3) : RPre True [jtriple n a] (tline d (tripLine n a)) := by
  have e := RElems.cons (a := lit " ") (by decide) (.num (dec_number a.x)) jb_nil (.cons (a := lit " ") (by decide) (.num (dec_number a.y)) jb_nil
    (.one (a := lit " ") (by decide) (.num (dec_number a.z)) (b := lit " ") (by decide)))
  have nx (x : Int) := number_noZero (dec_number x)
  have z : NoZero (lit "[ " ++ (dec a.x ++ (lit ", " ++ (dec a.y ++ (lit ", " ++ (dec a.z ++ lit " ]")))))) :=
    noZero_append (by decide) (noZero_append (nx _) (noZero_append (by decide) (noZero_append (nx _) (noZero_append (by decide) (noZero_append (nx _) (by decide))))))
  have e' : RV True (.arr [.num (dec a.x), .num (dec a.y), .num (dec a.z)]) (lit "[ " ++ (dec a.x ++ (lit ", " ++ (dec a.y ++ (lit ", " ++ (dec a.z ++ lit " ]")))))) := by
    have := RValue.arr e
    simp only [List.append_assoc, List.cons_append, List.nil_append] at this
    exact ⟨_, this, fun _ => trivial⟩
  have := rpre_line d hn e' z
  unfold tripLine
  rw [lit_append, lit_append]
  simp only [List.append_assoc, List.cons_append, List.nil_append] at this ⊢
  exact this

theorem pair_noZero (e : Str × Str) : NoZero (pairText e) :=
  noZero_append (noZero_append (noZero_append (noZero_append (by decide) (noZero_cstr _)) (by decide)) (noZero_cstr _)) (by decide)

theorem rmembers_lines (d : Nat) {ind : Str} (hi : JBlank ind) (iz : NoZero ind) {m : AuxMap} (hm : m ≠ []) :
    RM (AuxLegible m) (m.map fun e => (e.1, .str e.2)) (ttext d (commas (lit ",") (m.map fun e => ind ++ pairText e))) := by
  induction m with
  | nil => exact absurd rfl hm
  | cons x m ih =>
    have hz : NoZero (ind ++ pairText x) := noZero_append iz (pair_noZero x)
    cases m with
    | nil =>
      simp only [List.map_cons, List.map_nil, commas, ttext_cons, ttext_nil, List.append_nil]
      rw [tline_eq d hz]
      have := RMembers.one (k := x.1) (jb_append (jb_tabs d) hi) (b := lit " ") (by decide) (c := lit " ") (by decide) (.str (s := x.2)) (d := lit "\n") (by decide)
      unfold pairText
      simp only [List.append_assoc, List.cons_append, List.nil_append] at this ⊢
      exact ⟨_, this, fun p y hy => by rw [List.mem_singleton.1 hy]; exact p⟩
    | cons y m =>
      obtain ⟨P, ih, hp⟩ := ih (by simp)
      simp only [List.map_cons, commas, ttext_cons] at ih ⊢
      rw [tline_eq d (noZero_append hz (by decide))]
      have := RMembers.cons (k := x.1) (jb_append (jb_tabs d) hi) (b := lit " ") (by decide) (c := lit " ") (by decide) (.str (s := x.2)) jb_nil
        (rmembers_blank (w := lit "\n") (by decide) ih)
      unfold pairText at this ⊢
      simp only [List.append_assoc, List.cons_append, List.nil_append] at this ⊢
      exact ⟨_, this, fun p u hu => by
        rcases List.mem_cons.1 hu with rfl | hu
        · exact p.1
        · exact hp p.2 u hu⟩

theorem rpre_aux (d : Nat) (m : AuxMap) : RPre (AuxLegible m) (jaux m) (ttext d (auxLines m)) := by
  unfold jaux auxLines
  by_cases hm : m = []
  · subst hm
    intro R l r h
    obtain ⟨P, h1, h2⟩ := RPre.nil jb_nil _ _ _ h
    exact ⟨P, h1, fun p => ⟨fun e he => absurd he (by simp), (h2 p).2⟩⟩
  · rw [if_neg hm, if_pos (by simpa using hm)]
    obtain ⟨P, h1, h2⟩ := rmembers_lines d (ind := lit "\t\t") (by decide) (by decide) hm
    have e := rmembers_trail (jb_append (jb_tabs d) (by decide : JBlank (lit "\t"))) (rmembers_blank (w := lit "\n") (by decide) h1)
    have := RPre.one (k := lit "Auxiliary") (jb_append (jb_tabs d) (by decide : JBlank (lit "\t"))) (b := lit " ") (by decide) (c := lit " ") (by decide) ⟨_, .obj e, h2⟩
      (d := lit " ") (by decide) (w := lit "\n") (by decide)
    rw [name_plain (by decide)] at this
    rw [ttext_append, ttext_cons, ttext_cons, ttext_nil, tline_eq d (by decide), tline_eq d (by decide)]
    simp only [List.append_assoc, List.cons_append, List.nil_append, List.append_nil] at this ⊢
    exact this

theorem rdata_value {F : Fmt} {d : DataLog} (h1 : JNumber (F.le (d.min.getD 0))) (h2 : JNumber (F.le (d.max.getD 0))) :
    RV (d.size < 2147483648) (dataValue F d) (dataText F d) ∧ NoZero (dataText F d) := by
  have m (n : String) (hn : Legible (lit n)) {Q : Prop} {t u : Str} (ht : RV Q (.num t) u) :
      RPre Q [jnum n t] (lit " " ++ (34 :: (lit n ++ 34 :: ([] ++ 58 :: ([] ++ (u ++ ([] ++ 44 :: []))))))) := by
    have := RPre.one (k := lit n) (a := lit " ") (by decide) jb_nil jb_nil ht jb_nil jb_nil
    rw [name_plain hn] at this
    exact this
  have l := RM.one (k := lit "max") (a := lit " ") (by decide) jb_nil jb_nil (.num h2) (d := lit " ") (by decide)
  rw [name_plain (by decide)] at l
  obtain ⟨P, e, hp⟩ := ((m "type" (by decide) (.num (dec_number d.type.code))).append ((m "size_i" (by decide) (.int (x := d.size) (y := toI32 d.size))).append
    ((m "file_pt" (by decide) (.num (dec_number (d.file_pt.getD 0)))).append (m "min" (by decide) (.num h1))))) _ _ _ l
  have := RValue.obj e
  constructor
  · unfold dataText
    simp only [List.append_assoc, List.cons_append, List.nil_append] at this ⊢
    refine ⟨_, this, fun p => ?_⟩
    have h := (hp p).1.2.1
    unfold toI32 at h
    split at h <;> omega
  · unfold dataText
    exact noZero_append (noZero_append (noZero_append (noZero_append (noZero_append (noZero_append (noZero_append (noZero_append (noZero_append (noZero_append
      (by decide) (number_noZero (dec_number _))) (by decide)) (number_noZero (dec_number _))) (by decide)) (number_noZero (dec_number _))) (by decide)) (number_noZero h1))
      (by decide)) (number_noZero h2)) (by decide)

theorem rmembers_array (d : Nat) {n : Str} (hn : Legible n) {Q : Prop} {l : List JVal} {t : Str} (h : RE Q l t) :
    RM Q [(n, .arr l)] (tline d (lit "\t\"" ++ n ++ lit "\" : [") ++ t ++ tline d (lit "\t]")) := by
  have e := ((h.blank (w := lit "\n") (by decide)).trail (jb_append (jb_tabs d) (by decide : JBlank (lit "\t")))).value
  have := RM.one (k := n) (jb_append (jb_tabs d) (by decide : JBlank (lit "\t"))) (b := lit " ") (by decide) (c := lit " ") (by decide) e (d := lit "\n") (by decide)
  rw [legible_cstr hn] at this
  rw [tline_eq d (noZero_append (noZero_append (by decide) (legible_noZero hn)) (by decide)), tline_eq d (by decide)]
  simp only [List.append_assoc, List.cons_append, List.nil_append, List.append_nil] at this ⊢
  exact this

theorem rvalue_braces (d : Nat) {Q : Prop} {l : List (Str × JVal)} {t : Str} (h : RM Q l t) :
    ∃ s, RV Q (.obj l) s ∧ tline d (lit "{") ++ t ++ tline d (lit "}") = List.replicate d 9 ++ (s ++ lit "\n") := by
  obtain ⟨P, h, hp⟩ := h
  refine ⟨_, ⟨_, .obj (rmembers_trail (jb_tabs d) (rmembers_blank (w := lit "\n") (by decide) h)), hp⟩, ?_⟩
  rw [tline_eq d (by decide), tline_eq d (by decide)]
  simp only [List.append_assoc, List.cons_append, List.nil_append, List.append_nil]
  rfl

theorem rzone_value {F : Fmt} (d : Nat) {z : ZoneLog} (h : ZoneNums F z) :
    ∃ s, RV (ZoneLegible F z) (zoneValue F z) s ∧ ttext d (zoneLines F z) = List.replicate d 9 ++ (s ++ lit "\n") := by
  have p1 := (rpre_str d (n := "ZoneName") (by decide) z.ZoneName).append (rpre_num d (n := "StrandId") (by decide) (dec_number z.StrandId))
  have p2 : RPre True (if z.StrandId = -1 then [] else [jnum "SolutionTime" (F.le z.SolutionTime)])
      (ttext d (if z.StrandId ≠ -1 then [numLine "SolutionTime" (F.le z.SolutionTime)] else [])) := by
    by_cases hs : z.StrandId = -1
    · rw [if_pos hs, if_neg (by simpa using hs)]
      exact RPre.nil jb_nil
    · rw [if_neg hs, if_pos hs, ttext_cons, ttext_nil, List.append_nil]
      exact rpre_num d (by decide) (h.time hs)
  have p3 := (rpre_num d (n := "Org_Dim") (by decide) (dec_number z.Dim)).append ((rpre_num d (n := "Real_Dim") (by decide) (dec_number z.Real_Dim)).append
    ((rpre_trip d (n := "Org_Max") (by decide) z.Max).append ((rpre_trip d (n := "Skip") (by decide) z.Skip).append ((rpre_trip d (n := "Begin") (by decide) z.Begin).append
    ((rpre_trip d (n := "End") (by decide) z.End).append (rpre_trip d (n := "Real_Max") (by decide) z.Real_Max))))))
  have p4 := rpre_aux d z.Auxiliary
  have p5 := rpre_str d (n := "Data_type_comment") (by decide) (lit "1=Float, 2=Double, 3=LongInt, 4=ShortInt, 5=Byte, 6=Bit")
  rw [legible_cstr (by decide)] at p5
  have el := relems_lines (f := dataValue F) (u := dataText F) (Q := fun x => x.size < 2147483648) d (ind := lit "\t\t") (by decide) z.Data
    (fun x hx => rdata_value (h.data x hx).1 (h.data x hx).2) (by decide)
  have last := rmembers_array d (n := lit "Data") (by decide) el
  have all := (p1.append (p2.append (p3.append (p4.append p5)))) _ _ _ last
  obtain ⟨s, ⟨P, h1, hp⟩, h2⟩ := rvalue_braces d all
  refine ⟨s, ⟨P, ?_, fun p => ?_⟩, ?_⟩
  · unfold zoneValue
    simp only [List.append_assoc, List.cons_append, List.nil_append] at h1 ⊢
    exact h1
  · obtain ⟨⟨⟨q1, -⟩, -, -, q4, -⟩, q5⟩ := hp p
    exact ⟨q1, h.time, q4, fun x hx => ⟨q5 x hx, h.data x hx⟩⟩
  · rw [← h2]
    unfold zoneLines
    simp only [ttext_append, ttext_cons, ttext_nil, List.append_assoc, List.append_nil]
    rfl

/-! ## The file -/

theorem rvars_elems (vs : List Str) :
    RE (∀ v ∈ vs, Legible v) (vs.map JVal.str) (commas (lit ", ") (vs.map fun v => lit "\"" ++ cstr v ++ lit "\"")).flatten ∧
      NoZero (commas (lit ", ") (vs.map fun v => lit "\"" ++ cstr v ++ lit "\"")).flatten := by
  induction vs with
  | nil => exact ⟨.inl ⟨rfl, jb_nil, by simp⟩, by intro b hb; cases hb⟩
  | cons v vs ih =>
    have e : lit "\"" ++ cstr v ++ lit "\"" = 34 :: (cstr v ++ [34]) := rfl
    have z : NoZero (34 :: (cstr v ++ [34])) := noZero_append (a := [34]) (by decide) (noZero_append (noZero_cstr v) (by decide))
    cases vs with
    | nil =>
      simp only [List.map_cons, List.map_nil, commas, List.flatten_cons, List.flatten_nil, List.append_nil, e]
      refine ⟨.inr ?_, z⟩
      have := RElems.one jb_nil (.str (s := v)) jb_nil
      exact ⟨_, by simpa using this, fun p => by simpa using p⟩
    | cons y vs =>
      obtain ⟨i1, i2⟩ := ih
      simp only [List.map_cons, commas, List.flatten_cons, e] at i1 i2 ⊢
      refine ⟨.inr ?_, noZero_append (noZero_append z (by decide)) i2⟩
      rcases i1 with ⟨h, -⟩ | ⟨P, i1, hp⟩
      · cases h
      have := RElems.cons jb_nil (.str (s := v)) jb_nil (relems_blank (w := lit " ") (by decide) i1)
      simp only [List.append_assoc, List.nil_append, List.cons_append] at this ⊢
      exact ⟨_, this, fun p u hu => by
        rcases List.mem_cons.1 hu with rfl | hu
        · exact p.1
        · exact hp p.2 u hu⟩

theorem rpre_vars (d : Nat) (vs : List Str) : RPre (∀ v ∈ vs, Legible v) [(lit "Variables", .arr (vs.map JVal.str))] (tline d (varsLine vs)) := by
  obtain ⟨h1, h2⟩ := rvars_elems vs
  have e := ((h1.blank (w := lit " ") (by decide)).trail (w := lit " ") (by decide)).value
  have := RPre.one (k := lit "Variables") (jb_append (jb_tabs d) (by decide : JBlank (lit "\t"))) (b := lit " ") (by decide) (c := lit " ") (by decide) e
    (d := lit " ") (by decide) (w := lit "\n") (by decide)
  rw [name_plain (by decide)] at this
  unfold varsLine
  rw [tline_eq d (noZero_append (by decide) (noZero_append h2 (by decide)))]
  simp only [List.append_assoc, List.cons_append, List.nil_append] at this ⊢
  exact this

theorem rzones_elems {F : Fmt} (d : Nat) {zs : List ZoneLog} (h : ∀ z ∈ zs, ZoneNums F z) :
    RE (∀ z ∈ zs, ZoneLegible F z) (zs.map (zoneValue F)) (zonesText (tline d (lit "\t\t,")) (fun z => ttext (d + 2) (zoneLines F z)) zs) := by
  induction zs with
  | nil => exact .inl ⟨rfl, jb_nil, by simp⟩
  | cons z zs ih =>
    obtain ⟨s, ⟨P, h1, hp⟩, h2⟩ := rzone_value (d + 2) (h z (by simp))
    right
    cases zs with
    | nil =>
      rw [zonesText, h2]
      exact ⟨_, .one (jb_tabs _) h1 (by decide), fun p => by simpa using hp p⟩
    | cons y zs =>
      rcases ih fun x hx => h x (by simp [hx]) with ⟨h, -⟩ | ⟨R, ih, hr⟩
      · cases h
      rw [zonesText, h2, tline_eq d (by decide)]
      have := RElems.cons (jb_tabs (d + 2)) h1 (jb_append (jb_append (by decide : JBlank (lit "\n")) (jb_tabs d)) (by decide : JBlank (lit "\t\t")))
        (relems_blank (w := lit "\n") (by decide) ih)
      simp only [List.append_assoc, List.cons_append, List.nil_append] at this ⊢
      exact ⟨_, this, fun p u hu => by
        rcases List.mem_cons.1 hu with rfl | hu
        · exact hp p.1
        · exact hr p.2 u hu⟩

/-- a whole text -/
theorem raw_json {Q : Prop} {v : JVal} {a s b : Str} (h : RV Q v s) (ha : JBlank a) (hb : JBlank b) (hj : IsJson v (a ++ (s ++ b))) : Q := by
  obtain ⟨P, h, hp⟩ := h
  obtain ⟨a', s', b', e, ha', hs', hb'⟩ := hj
  rw [List.append_assoc] at e
  obtain ⟨-, e1⟩ := blank_align ha ha' (head_append (rvalue_head h)) (head_append (jvalue_head hs')) e
  exact hp (raw_exact h hs' (ends_all hb) (ends_all hb') e1).2.2

theorem zone_json_only {F : Fmt} (d : Nat) {z : ZoneLog} (h : IsJson (zoneValue F z) (ttext d (zoneLines F z))) : ZoneLegible F z := by
  have hn : ZoneNums F z := by
    obtain ⟨_, _, _, _, _, hv, _⟩ := h
    exact zone_nums fun s hs => hasNum_number hv hs
  obtain ⟨s, h1, h2⟩ := rzone_value d hn
  rw [h2] at h
  exact raw_json h1 (jb_tabs d) (by decide) h

theorem file_json_only {F : Fmt} (d : Nat) {l : FileLog} (h : IsJson (fileValue F l) (fileText F d l)) : FileLegible F l := by
  have hn : JNumber (F.f5 (l.UsingTime.getD 0)) ∧ ∀ z ∈ l.Zones, ZoneNums F z := by
    obtain ⟨_, _, _, _, _, hv, _⟩ := h
    exact file_nums hv
  have p6 := rpre_str d (n := "FileType_comment") (by decide) (lit "0 = FULL, 1 = GRID, 2 = SOLUTION")
  rw [legible_cstr (by decide)] at p6
  have p1 := (rpre_str d (n := "FileName") (by decide) (l.FileName ++ lit ".plt")).append ((rpre_str d (n := "FilePath") (by decide) l.FilePath).append
    ((rpre_str d (n := "Time") (by decide) l.Time_Begin).append ((rpre_num d (n := "UsingTime") (by decide) hn.1).append
    ((rpre_str d (n := "Title") (by decide) l.Title).append (p6.append
    ((rpre_num d (n := "FileType") (by decide) (dec_number l.FileType)).append ((rpre_vars d l.Variables).append (rpre_aux d l.Auxiliary))))))))
  have last := rmembers_array d (n := lit "Zones") (by decide) (rzones_elems d hn.2)
  obtain ⟨s, ⟨P, h1, hp⟩, h2⟩ := rvalue_braces d (p1 _ _ _ last)
  have et : fileText F d l = List.replicate d 9 ++ (s ++ lit "\n") := by
    rw [← h2]
    unfold fileText fileHead fileTail
    simp only [ttext_append, ttext_cons, ttext_nil, List.append_assoc, List.append_nil]
  have h3 : RValue P (fileValue F l) s := by
    unfold fileValue
    simp only [List.append_assoc, List.cons_append, List.nil_append] at h1 ⊢
    exact h1
  rw [et] at h
  obtain ⟨⟨q1, q2, q3, -, q5, -, -, q8, q9⟩, q10⟩ := raw_json ⟨P, h3, hp⟩ (jb_tabs d) (by decide) h
  exact ⟨fun b hb => q1 b (List.mem_append_left _ hb), q2, q3, hn.1, q5, q8, q9, q10⟩

end Verif.Json
