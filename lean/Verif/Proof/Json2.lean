import Verif.Spec.JsonLog
import Verif.Proof.Json1
import Verif.Proof.Xml3
import Mathlib.Data.Nat.Digits.Lemmas
/-!
# The json lines of a log
-/
namespace Verif.Json
open Tec Spec
open Xml (tline ttext ttext_append ttext_cons ttext_nil sprintf_inv known_inv optLine_inv toI32_small decNat_bytes)

theorem jb_nil : JBlank [] := by intro b hb; cases hb

theorem jb_append {a b : Str} (h1 : JBlank a) (h2 : JBlank b) : JBlank (a ++ b) := by
  intro c hc
  rcases List.mem_append.1 hc with hc | hc
  · exact h1 c hc
  · exact h2 c hc

theorem jb_tabs (d : Nat) : JBlank (List.replicate d 9) := by
  intro b hb
  rw [List.eq_of_mem_replicate hb]
  exact .inr (.inl rfl)

theorem chars_legible {s : Str} (h : Legible s) : JChars s s := by
  induction s with
  | nil => exact .nil
  | cons b s ih =>
    obtain ⟨h1, h2, h3⟩ := h b (by simp)
    exact .byte h1 h2 h3 (ih fun c hc => h c (by simp [hc]))

theorem legible_cstr {s : Str} (h : Legible s) : cstr s = s := by
  refine Xml.cstr_plain fun b hb => ?_
  obtain ⟨h1, -⟩ := h b hb
  rintro rfl
  exact absurd h1 (by decide)

theorem legible_append {a b : Str} (h1 : Legible a) (h2 : Legible b) : Legible (a ++ b) := by
  intro c hc
  rcases List.mem_append.1 hc with hc | hc
  · exact h1 c hc
  · exact h2 c hc

/-! ## Numbers -/

theorem decNat_int (n : Nat) : JInt (decNat n) := by
  obtain ⟨h1, h2⟩ := decNat_bytes n
  by_cases h0 : n = 0
  · subst h0
    left
    rfl
  · right
    refine ⟨⟨h1, h2⟩, ?_⟩
    unfold decNat
    rw [if_neg h0, List.head?_map, List.head?_reverse]
    intro e
    obtain ⟨k, hk, e⟩ := Option.map_eq_some_iff.1 e
    have hne := Nat.digits_ne_nil_iff_ne_zero (b := 10).2 h0
    rw [List.getLast?_eq_some_getLast hne] at hk
    have hk' := Option.some.inj hk
    have h3 := Nat.getLast_digit_ne_zero 10 h0
    have h4 : k < 10 := by
      rw [← hk']
      exact Nat.digits_lt_base (by decide) (List.getLast_mem hne)
    have h5 : (UInt8.ofNat (48 + k)).toNat = 48 := by rw [e]; rfl
    rw [UInt8.toNat_ofNat'] at h5
    rw [hk'] at h3
    omega

theorem dec_number (x : Int) : JNumber (dec x) := by
  unfold dec
  split
  · exact ⟨lit "-", decNat x.natAbs, [], [], by rw [List.append_nil, List.append_nil]; rfl, .inr rfl, decNat_int _, .inl rfl, .inl rfl⟩
  · exact ⟨[], decNat x.natAbs, [], [], by simp, .inl rfl, decNat_int _, .inl rfl, .inl rfl⟩

def NoZero (s : Str) : Prop := ∀ b ∈ s, b ≠ 0

instance : DecidablePred NoZero := fun s => inferInstanceAs (Decidable (∀ b ∈ s, _))

theorem noZero_append {a b : Str} (h1 : NoZero a) (h2 : NoZero b) : NoZero (a ++ b) := by
  intro c hc
  rcases List.mem_append.1 hc with hc | hc
  · exact h1 c hc
  · exact h2 c hc

theorem number_noZero {s : Str} (h : JNumber s) : NoZero s := by
  intro b hb
  have := (number_num h).1 b hb
  rintro rfl
  exact absurd this (by decide)

theorem legible_noZero {s : Str} (h : Legible s) : NoZero s := by
  intro b hb
  obtain ⟨h1, -⟩ := h b hb
  rintro rfl
  exact absurd h1 (by decide)

theorem tline_eq (d : Nat) {t : Str} (h : NoZero t) : tline d t = List.replicate d 9 ++ (t ++ lit "\n") := by
  unfold tline
  rw [Xml.cstr_plain h]

/-! ## Members and elements of several lines -/

theorem elems_blank {l : List JVal} {t w : Str} (hw : JBlank w) (h : JElems l t) : JElems l (w ++ t) := by
  cases h with
  | one ha hv hb => rw [← List.append_assoc]; exact .one (jb_append hw ha) hv hb
  | cons ha hv hb hr => rw [← List.append_assoc]; exact .cons (jb_append hw ha) hv hb hr

theorem members_blank {l : List (Str × JVal)} {t w : Str} (hw : JBlank w) (h : JMembers l t) : JMembers l (w ++ t) := by
  cases h with
  | one ha hk hb hc hv hd => rw [← List.append_assoc]; exact .one (jb_append hw ha) hk hb hc hv hd
  | cons ha hk hb hc hv hd hr => rw [← List.append_assoc]; exact .cons (jb_append hw ha) hk hb hc hv hd hr

theorem elems_trail {l : List JVal} : ∀ {t w : Str}, JBlank w → JElems l t → JElems l (t ++ w) := by
  induction l with
  | nil => intro t w _ h; cases h
  | cons v l ih =>
    intro t w hw h
    cases h with
    | one ha hv hb => simp only [List.append_assoc]; exact .one ha hv (jb_append hb hw)
    | cons ha hv hb hr => simp only [List.append_assoc, List.cons_append]; exact .cons ha hv hb (ih hw hr)

theorem members_trail {l : List (Str × JVal)} : ∀ {t w : Str}, JBlank w → JMembers l t → JMembers l (t ++ w) := by
  induction l with
  | nil => intro t w _ h; cases h
  | cons v l ih =>
    intro t w hw h
    cases h with
    | one ha hk hb hc hv hd => simp only [List.append_assoc, List.cons_append]; exact .one ha hk hb hc hv (jb_append hd hw)
    | cons ha hk hb hc hv hd hr => simp only [List.append_assoc, List.cons_append]; exact .cons ha hk hb hc hv hd (ih hw hr)

/-- a text of members, each followed by a comma -/
def Pre (l : List (Str × JVal)) (t : Str) : Prop := ∀ m r, JMembers m r → JMembers (l ++ m) (t ++ r)

theorem Pre.nil {w : Str} (hw : JBlank w) : Pre [] w := fun _ _ h => members_blank hw h

theorem Pre.append {l l' : List (Str × JVal)} {t t' : Str} (h : Pre l t) (h' : Pre l' t') : Pre (l ++ l') (t ++ t') := by
  intro m r hm
  rw [List.append_assoc, List.append_assoc]
  exact h _ _ (h' _ _ hm)

theorem Pre.one {k n a b c t d w : Str} {v : JVal} (ha : JBlank a) (hk : JChars n k) (hb : JBlank b) (hc : JBlank c) (hv : JValue v t) (hd : JBlank d)
    (hw : JBlank w) : Pre [(k, v)] (a ++ (34 :: (n ++ 34 :: (b ++ 58 :: (c ++ (t ++ (d ++ 44 :: w))))))) := by
  intro m r hm
  simp only [List.append_assoc, List.cons_append, List.nil_append]
  exact .cons ha hk hb hc hv hd (members_blank hw hm)

/-- the elements of an array, maybe none -/
def Elems (l : List JVal) (t : Str) : Prop := (l = [] ∧ JBlank t) ∨ JElems l t

theorem Elems.blank {l : List JVal} {t w : Str} (hw : JBlank w) (h : Elems l t) : Elems l (w ++ t) := by
  rcases h with ⟨rfl, h⟩ | h
  · exact .inl ⟨rfl, jb_append hw h⟩
  · exact .inr (elems_blank hw h)

theorem Elems.trail {l : List JVal} {t w : Str} (hw : JBlank w) (h : Elems l t) : Elems l (t ++ w) := by
  rcases h with ⟨rfl, h⟩ | h
  · exact .inl ⟨rfl, jb_append h hw⟩
  · exact .inr (elems_trail hw h)

theorem Elems.value {l : List JVal} {t : Str} (h : Elems l t) : JValue (.arr l) (91 :: (t ++ [93])) := by
  rcases h with ⟨rfl, h⟩ | h
  · exact .arr0 h
  · exact .arr h

/-- texts with separators between them -/
def commas (sep : Str) : List Str → List Str
  | [] => []
  | [a] => [a]
  | a :: b :: l => (a ++ sep) :: commas sep (b :: l)

theorem lines_commas {α : Type} {sep : Str} {f : Nat → α → Bool → Out Str} {g : α → Str}
    (hf : ∀ i a b t, f i a b = .ok t → t = if b then g a else g a ++ sep) (l : List α) : ∀ (i : Nat) (r : List Str), lines f i l = .ok r → r = commas sep (l.map g) := by
  induction l with
  | nil => intro i r h; cases h; rfl
  | cons a l ih =>
    intro i r h
    rw [lines] at h
    obtain ⟨t, h1, h⟩ := Out.bind_inv h
    obtain ⟨q, h2, h⟩ := Out.bind_inv h
    cases h
    have e := hf _ _ _ _ h1
    have e2 := ih _ _ h2
    cases l with
    | nil => rw [e2, e]; rfl
    | cons b l => rw [e2, e]; rfl

theorem elems_lines {α : Type} {f : α → JVal} {u : α → Str} (d : Nat) {ind : Str} (hi : JBlank ind) (l : List α)
    (h : ∀ x ∈ l, JValue (f x) (u x) ∧ NoZero (u x)) (iz : NoZero ind) :
    Elems (l.map f) (ttext d (commas (lit ",") (l.map fun x => ind ++ u x))) := by
  induction l with
  | nil => exact .inl ⟨rfl, jb_nil⟩
  | cons x l ih =>
    obtain ⟨hv, hz⟩ := h x (by simp)
    right
    cases l with
    | nil =>
      simp only [List.map_cons, List.map_nil, commas, ttext_cons, ttext_nil, List.append_nil]
      rw [tline_eq d (noZero_append iz hz)]
      have := JElems.one (jb_append (jb_tabs d) hi) hv (b := lit "\n") (by decide)
      simp only [List.append_assoc] at this ⊢
      exact this
    | cons y l =>
      have ih := ih fun x hx => h x (by simp [hx])
      simp only [List.map_cons, commas, ttext_cons] at ih ⊢
      rcases ih with ⟨h, -⟩ | ih
      · cases h
      · rw [tline_eq d (noZero_append (noZero_append iz hz) (by decide : NoZero (lit ",")))]
        have := JElems.cons (jb_append (jb_tabs d) hi) hv jb_nil (elems_blank (w := lit "\n") (by decide) ih)
        simp only [List.append_assoc, List.nil_append] at this ⊢
        exact this

end Verif.Json
