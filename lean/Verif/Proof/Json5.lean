import Verif.Proof.Json4
/-!
# Texts printed without escaping: when they are the JSON of what was meant
-/
namespace Verif.Json
open Tec Spec
open Xml (tline ttext ttext_append ttext_cons ttext_nil toI32_small decNat_bytes)

/-! ## Strings -/

theorem utf8_len (n : Nat) : (utf8 n).length ≤ 4 := by
  unfold utf8
  repeat' split
  all_goals simp

/-- escapes make texts longer -/
theorem chars_len {n k : Str} (h : JChars n k) : k.length ≤ n.length ∧ (k.length = n.length → n = k ∧ Legible k) := by
  induction h with
  | nil => exact ⟨Nat.le_refl _, fun _ => ⟨rfl, fun b hb => by cases hb⟩⟩
  | @byte b t s h1 h2 h3 _ ih =>
    refine ⟨by simpa using ih.1, fun e => ?_⟩
    obtain ⟨i1, i2⟩ := ih.2 (by simpa using e)
    refine ⟨by rw [i1], fun c hc => ?_⟩
    rcases List.mem_cons.1 hc with rfl | hc
    · exact ⟨h1, h2, h3⟩
    · exact i2 c hc
  | esc h1 _ ih => have := ih.1; simp only [List.length_cons]; exact ⟨by omega, fun e => by omega⟩
  | @code h t s n hh _ _ ih =>
    have := ih.1
    have h4 := JHex.len hh
    have h5 : (utf8 n).length ≤ 4 := utf8_len _
    simp only [List.length_cons, List.length_append]
    exact ⟨by omega, fun e => by omega⟩
  | @pair h h' t s n n' hh _ hh' _ _ ih =>
    have := ih.1
    have h4 := JHex.len hh
    have h4' := JHex.len hh'
    have h5 := utf8_len (65536 + 1024 * (n - 55296) + (n' - 56320))
    simp only [List.length_cons, List.length_append]
    exact ⟨by omega, fun e => by omega⟩

theorem hex_noquote {h : Str} {n : Nat} (hh : JHex h n) : 34 ∉ h := by
  obtain ⟨a, b, c, d, p, q, r, t, rfl, ha, hb, hc, hd, -⟩ := hh
  intro hm
  simp only [List.mem_cons, List.not_mem_nil, or_false] at hm
  rcases hm with rfl | rfl | rfl | rfl
  · exact absurd ha (by simp [hexVal])
  · exact absurd hb (by simp [hexVal])
  · exact absurd hc (by simp [hexVal])
  · exact absurd hd (by simp [hexVal])

/-- text without quotation marks in front of text with one -/
theorem before_quote {a b m x : Str} (ha : 34 ∉ a) (h : a ++ b = m ++ 34 :: x) : ∃ m', m = a ++ m' ∧ b = m' ++ 34 :: x := by
  rcases List.append_eq_append_iff.1 h with ⟨y, h1, h2⟩ | ⟨y, h1, h2⟩
  · exact ⟨y, h1, h2⟩
  · cases y with
    | nil => exact ⟨[], by rw [h1]; simp, by simpa using h2.symm⟩
    | cons c y =>
      cases h2
      exact absurd (by rw [h1]; simp) ha

/-- a quotation mark between the quotes follows a backslash that begins an escape -/
theorem chars_quote {n k : Str} (h : JChars n k) : ∀ {m x : Str}, n = m ++ 34 :: x → ∃ m0 k0 k1, m = m0 ++ [92] ∧ JChars m0 k0 ∧ k = k0 ++ 34 :: k1 := by
  induction h with
  | nil => intro m x e; cases m <;> cases e
  | @byte b t s h1 h2 h3 _ ih =>
    intro m x e
    cases m with
    | nil => cases e; exact absurd rfl h2
    | cons a m =>
      cases e
      obtain ⟨m0, k0, k1, rfl, h5, rfl⟩ := ih rfl
      exact ⟨b :: m0, b :: k0, k1, rfl, .byte h1 h2 h3 h5, rfl⟩
  | @esc b c t s h1 ht ih =>
    intro m x e
    cases m with
    | nil => cases e
    | cons a m =>
      injection e with ea e
      subst ea
      cases m with
      | nil =>
        injection e with eb e
        subst eb
        refine ⟨[], [], s, rfl, .nil, ?_⟩
        have : c = 34 := by simpa [escVal] using h1.symm
        rw [this]; rfl
      | cons a m =>
        cases e
        obtain ⟨m0, k0, k1, rfl, h5, rfl⟩ := ih rfl
        exact ⟨92 :: b :: m0, c :: k0, k1, rfl, .esc h1 h5, rfl⟩
  | @code h t s n hh hn ht ih =>
    intro m x e
    obtain ⟨m', rfl, e'⟩ := before_quote (a := 92 :: 117 :: h) (by simp [hex_noquote hh]) (by simpa using e)
    obtain ⟨m0, k0, k1, rfl, h5, rfl⟩ := ih e'
    exact ⟨92 :: 117 :: (h ++ m0), utf8 n ++ k0, k1, by simp, .code hh hn h5, by simp⟩
  | @pair h h' t s n n' hh hn hh' hn' ht ih =>
    intro m x e
    obtain ⟨m', rfl, e'⟩ := before_quote (a := 92 :: 117 :: (h ++ (92 :: 117 :: h'))) (by simp [hex_noquote hh, hex_noquote hh']) (by simpa using e)
    obtain ⟨m0, k0, k1, rfl, h5, rfl⟩ := ih e'
    exact ⟨92 :: 117 :: (h ++ (92 :: 117 :: (h' ++ m0))), _ ++ k0, k1, by simp, .pair hh hn hh' hn' h5, by simp⟩

/-- a text that stands for `k0` and is longer cannot be followed by a quotation mark in a text that begins with `k0` and one -/
theorem chars_step {m0 k0 k1 r : Str} (h : JChars m0 k0) (e : m0 ++ 92 :: r = k0 ++ 34 :: k1) : ∃ x, m0 = k0 ++ 34 :: x := by
  obtain ⟨h1, h2⟩ := chars_len h
  rcases List.append_eq_append_iff.1 e with ⟨y, e1, e2⟩ | ⟨y, e1, e2⟩
  · have : y = [] := by
      have := congrArg List.length e1
      rw [List.length_append] at this
      exact List.length_eq_zero_iff.1 (by omega)
    subst this
    cases e2
  · cases y with
    | nil => cases e2
    | cons c y => cases e2; exact ⟨y, e1⟩

theorem chars_no {n k x : Str} (h : JChars n k) (e : n = k ++ 34 :: x) : False := by
  induction hl : n.length using Nat.strong_induction_on generalizing n k x with
  | _ l ih =>
    obtain ⟨m0, k0, k1, e1, h0, e2⟩ := chars_quote h e
    rw [e1] at e2
    obtain ⟨y, hy⟩ := chars_step h0 e2
    refine ih m0.length ?_ h0 hy rfl
    rw [← hl, e, e1]
    simp

theorem cstr_split (s : Str) : ∃ r, s = cstr s ++ r := ⟨s.dropWhile (· ≠ 0), (List.takeWhile_append_dropWhile ..).symm⟩

/-- a string printed as it is stands for itself only if it needs no escaping, whatever follows -/
theorem quote_exact {n s z z' : Str} (h : JChars n s) (e : cstr s ++ 34 :: z = n ++ 34 :: z') : n = s ∧ Legible s := by
  obtain ⟨h1, h2⟩ := chars_len h
  obtain ⟨r, hr⟩ := cstr_split s
  have hc : s.length = (cstr s).length + r.length := by conv_lhs => rw [hr, List.length_append]
  have fin (hn : n.length ≤ (cstr s).length) : n = s ∧ Legible s := h2 (by omega)
  rcases List.append_eq_append_iff.1 e with ⟨y, e1, e2⟩ | ⟨y, e1, e2⟩
  · cases y with
    | nil => exact fin (by rw [e1]; simp)
    | cons c y =>
      obtain ⟨rfl, -⟩ := List.cons.inj e2
      obtain ⟨m0, k0, k1, e3, h0, e4⟩ := chars_quote h e1
      rw [hr, e3, List.append_assoc] at e4
      obtain ⟨x, hx⟩ := chars_step h0 e4
      exact (chars_no h0 hx).elim
  · exact fin (by rw [e1]; simp)

/-! ## Numbers -/

theorem digit_back {a b : Nat} (ha : a < 10) (hb : b < 10) (h : UInt8.ofNat (48 + a) = UInt8.ofNat (48 + b)) : a = b := by
  have := congrArg UInt8.toNat h
  simp only [UInt8.toNat_ofNat'] at this
  omega

theorem map_digits {l l' : List Nat} (h : ∀ d ∈ l, d < 10) (h' : ∀ d ∈ l', d < 10)
    (e : l.map (fun d => UInt8.ofNat (48 + d)) = l'.map fun d => UInt8.ofNat (48 + d)) : l = l' := by
  induction l generalizing l' with
  | nil => cases l' with
    | nil => rfl
    | cons b l' => cases e
  | cons a l ih =>
    cases l' with
    | nil => cases e
    | cons b l' =>
      obtain ⟨e1, e2⟩ := List.cons.inj e
      rw [digit_back (h a (by simp)) (h' b (by simp)) e1, ih (fun d hd => h d (by simp [hd])) (fun d hd => h' d (by simp [hd])) e2]

theorem decNat_inj {m n : Nat} (h : decNat m = decNat n) : m = n := by
  have hd (k : Nat) : ∀ d ∈ (Nat.digits 10 k).reverse, d < 10 := fun d hd => Nat.digits_lt_base (by decide) (List.mem_reverse.1 hd)
  have z {k : Nat} (hk : k ≠ 0) (h : [48] = (Nat.digits 10 k).reverse.map fun d => UInt8.ofNat (48 + d)) : False := by
    have := map_digits (l := [0]) (by decide) (hd k) h
    have h1 := Nat.getLast_digit_ne_zero 10 hk
    have h2 : Nat.digits 10 k = [0] := by rw [← List.reverse_reverse (Nat.digits 10 k), ← this]; rfl
    simp [h2] at h1
  unfold decNat at h
  split at h
  · next hm =>
    split at h
    · next hn => rw [hm, hn]
    · next hn => exact (z hn h).elim
  · next hm =>
    split at h
    · exact (z hm h.symm).elim
    · have := map_digits (hd m) (hd n) h
      exact Nat.digits_inj_iff.1 (List.reverse_injective this)

theorem dec_inj {x y : Int} (h : dec x = dec y) : x = y := by
  have no {k m : Nat} (h : 45 :: decNat k = decNat m) : False := by
    have := (decNat_bytes m).2 45 (by rw [← h]; simp)
    exact absurd this (by decide)
  unfold dec at h
  split at h
  · split at h
    · have := decNat_inj (List.cons.inj h).2
      omega
    · exact (no h).elim
  · split at h
    · exact (no h.symm).elim
    · have := decNat_inj h
      omega

theorem num_align {a b z z' : Str} (ha : JNumber a) (hb : JNumber b) (hz : Ends z) (hz' : Ends z') (e : a ++ z = b ++ z') : a = b := by
  have h1 := (takeWhile_num (number_num ha).1 hz).1
  have h2 := (takeWhile_num (number_num hb).1 hz').1
  rw [← h1, ← h2, e]

/-! ## Values -/

mutual

/-- the text of a value printed without escaping; it is the text of the value only if the proposition holds -/
inductive RValue : Prop → JVal → Str → Prop
  | num {t : Str} : JNumber t → RValue True (.num t) t
  | int {x y : Int} : RValue (x = y) (.num (dec x)) (dec y)
  | str {s : Str} : RValue (Legible s) (.str s) (34 :: (cstr s ++ [34]))
  | arr0 {w : Str} : JBlank w → RValue True (.arr []) (91 :: (w ++ [93]))
  | arr {Q : Prop} {l : List JVal} {t : Str} : RElems Q l t → RValue Q (.arr l) (91 :: (t ++ [93]))
  | obj {Q : Prop} {l : List (Str × JVal)} {t : Str} : RMembers Q l t → RValue Q (.obj l) (123 :: (t ++ [125]))

inductive RElems : Prop → List JVal → Str → Prop
  | one {Q : Prop} {v : JVal} {a t b : Str} : JBlank a → RValue Q v t → JBlank b → RElems Q [v] (a ++ (t ++ b))
  | cons {Q R : Prop} {v : JVal} {l : List JVal} {a t b r : Str} : JBlank a → RValue Q v t → JBlank b → RElems R l r →
      RElems (Q ∧ R) (v :: l) (a ++ (t ++ (b ++ 44 :: r)))

inductive RMembers : Prop → List (Str × JVal) → Str → Prop
  | one {Q : Prop} {k : Str} {v : JVal} {a b c t d : Str} : JBlank a → JBlank b → JBlank c → RValue Q v t → JBlank d →
      RMembers (Legible k ∧ Q) [(k, v)] (a ++ (34 :: (cstr k ++ 34 :: (b ++ 58 :: (c ++ (t ++ d))))))
  | cons {Q R : Prop} {k : Str} {v : JVal} {l : List (Str × JVal)} {a b c t d r : Str} : JBlank a → JBlank b → JBlank c → RValue Q v t →
      JBlank d → RMembers R l r →
      RMembers ((Legible k ∧ Q) ∧ R) ((k, v) :: l) (a ++ (34 :: (cstr k ++ 34 :: (b ++ 58 :: (c ++ (t ++ (d ++ 44 :: r)))))))

end

theorem rvalue_head {Q : Prop} {v : JVal} {t : Str} (h : RValue Q v t) : ∃ c r, t = c :: r ∧ isB c = false := by
  have num {s : Str} (h : JNumber s) : ∃ c r, s = c :: r ∧ isB c = false := by
    obtain ⟨c, r, e, -⟩ := value_head (.num h)
    obtain ⟨c', r', e', hc⟩ := value_head (.num h)
    exact ⟨c', r', e', (first_spec c' hc).1⟩
  cases h with
  | num h => exact num h
  | int => exact num (dec_number _)
  | str => exact ⟨_, _, rfl, by decide⟩
  | arr0 => exact ⟨_, _, rfl, by decide⟩
  | arr => exact ⟨_, _, rfl, by decide⟩
  | obj => exact ⟨_, _, rfl, by decide⟩

theorem jvalue_head {v : JVal} {t : Str} (h : JValue v t) : ∃ c r, t = c :: r ∧ isB c = false := by
  obtain ⟨c, r, e, hc⟩ := value_head h
  exact ⟨c, r, e, (first_spec c hc).1⟩

/-- blanks in front of something else -/
theorem blank_align {a a' s s' : Str} (ha : JBlank a) (ha' : JBlank a') (hs : ∃ c r, s = c :: r ∧ isB c = false) (hs' : ∃ c r, s' = c :: r ∧ isB c = false)
    (e : a ++ s = a' ++ s') : a = a' ∧ s = s' := by
  obtain ⟨c, r, rfl, hc⟩ := hs
  obtain ⟨c', r', rfl, hc'⟩ := hs'
  have h1 : skip (a ++ c :: r) = c :: r := by rw [skip_blank ha, skip_cons hc]
  have h2 : skip (a' ++ c' :: r') = c' :: r' := by rw [skip_blank ha', skip_cons hc']
  have h3 : c :: r = c' :: r' := by rw [← h1, e, h2]
  rw [h3] at e
  exact ⟨List.append_cancel_right e, h3⟩

theorem head_append {s t : Str} (h : ∃ c r, s = c :: r ∧ isB c = false) : ∃ c r, s ++ t = c :: r ∧ isB c = false := by
  obtain ⟨c, r, rfl, hc⟩ := h
  exact ⟨c, r ++ t, rfl, hc⟩

theorem head_cons {c : UInt8} {t : Str} (h : isB c = false) : ∃ d r, c :: t = d :: r ∧ isB d = false := ⟨c, t, rfl, h⟩

theorem raw_exact {Q : Prop} {v : JVal} {t : Str} (h : RValue Q v t) :
    ∀ {t' z z' : Str}, JValue v t' → Ends z → Ends z' → t ++ z = t' ++ z' → t = t' ∧ z = z' ∧ Q := by
  refine RValue.rec
    (motive_1 := fun Q v t _ => ∀ {t' z z' : Str}, JValue v t' → Ends z → Ends z' → t ++ z = t' ++ z' → t = t' ∧ z = z' ∧ Q)
    (motive_2 := fun Q l t _ => ∀ {t' z z' : Str}, JElems l t' → t ++ 93 :: z = t' ++ 93 :: z' → t = t' ∧ z = z' ∧ Q)
    (motive_3 := fun Q l t _ => ∀ {t' z z' : Str}, JMembers l t' → t ++ 125 :: z = t' ++ 125 :: z' → t = t' ∧ z = z' ∧ Q)
    ?_ ?_ ?_ ?_ ?_ ?_ ?_ ?_ ?_ ?_ h
  · intro t ht t' z z' hv hz hz' e
    cases hv
    exact ⟨rfl, List.append_cancel_left e, trivial⟩
  · intro x y t' z z' hv hz hz' e
    cases hv
    have h1 := num_align (dec_number y) (dec_number x) hz hz' e
    rw [h1] at e
    exact ⟨h1, List.append_cancel_left e, (dec_inj h1).symm⟩
  · intro s t' z z' hv hz hz' e
    cases hv with
    | @str n _ hn =>
      simp only [List.cons_append, List.append_assoc, List.nil_append, List.cons.injEq, true_and] at e
      obtain ⟨rfl, h2⟩ := quote_exact hn e
      rw [legible_cstr h2] at e ⊢
      refine ⟨rfl, ?_, h2⟩
      have := List.append_cancel_left e
      exact (List.cons.inj this).2
  · intro w hw t' z z' hv hz hz' e
    cases hv with
    | arr0 hw' =>
      simp only [List.cons_append, List.append_assoc, List.nil_append, List.cons.injEq, true_and] at e
      obtain ⟨rfl, h2⟩ := blank_align hw hw' (head_cons (by decide)) (head_cons (by decide)) e
      exact ⟨rfl, (List.cons.inj h2).2, trivial⟩
    | arr h => cases h
  · intro Q l t hl ih t' z z' hv hz hz' e
    cases hv with
    | arr0 hw' => cases hl
    | arr h =>
      simp only [List.cons_append, List.append_assoc, List.nil_append, List.cons.injEq, true_and] at e
      obtain ⟨rfl, h2, h3⟩ := ih h e
      exact ⟨rfl, h2, h3⟩
  · intro Q l t hl ih t' z z' hv hz hz' e
    cases hv with
    | obj0 hw' => cases hl
    | obj h =>
      simp only [List.cons_append, List.append_assoc, List.nil_append, List.cons.injEq, true_and] at e
      obtain ⟨rfl, h2, h3⟩ := ih h e
      exact ⟨rfl, h2, h3⟩
  · intro Q v a t b ha hv hb ih t' z z' hj e
    cases hj with
    | one ha' hv' hb' =>
      simp only [List.append_assoc] at e
      obtain ⟨rfl, e1⟩ := blank_align ha ha' (head_append (rvalue_head hv)) (head_append (jvalue_head hv')) e
      obtain ⟨rfl, e2, hQ⟩ := ih hv' (ends_blank hb (by simp) _) (ends_blank hb' (by simp) _) e1
      obtain ⟨rfl, e3⟩ := blank_align hb hb' (head_cons (by decide)) (head_cons (by decide)) e2
      exact ⟨rfl, (List.cons.inj e3).2, hQ⟩
    | cons _ _ _ h => cases h
  · intro Q R v l a t b r ha hv hb hl ih1 ih2 t' z z' hj e
    cases hj with
    | one ha' hv' hb' => cases hl
    | cons ha' hv' hb' hl' =>
      simp only [List.append_assoc, List.cons_append] at e
      obtain ⟨rfl, e4⟩ := blank_align ha ha' (head_append (rvalue_head hv)) (head_append (jvalue_head hv')) e
      obtain ⟨rfl, e5, hQ⟩ := ih1 hv' (ends_blank hb (by simp) _) (ends_blank hb' (by simp) _) e4
      obtain ⟨rfl, e6⟩ := blank_align hb hb' (head_cons (by decide)) (head_cons (by decide)) e5
      obtain ⟨rfl, e7, hR⟩ := ih2 hl' (List.cons.inj e6).2
      exact ⟨rfl, e7, hQ, hR⟩
  · intro Q k v a b c t d ha hb hc hv hd ih t' z z' hj e
    cases hj with
    | one ha' hk' hb' hc' hv' hd' =>
      simp only [List.append_assoc, List.cons_append] at e
      obtain ⟨rfl, e8⟩ := blank_align ha ha' (head_cons (by decide)) (head_cons (by decide)) e
      have e9 := (List.cons.inj e8).2
      obtain ⟨rfl, hL⟩ := quote_exact hk' e9
      rw [legible_cstr hL] at e9 ⊢
      have e10 := (List.cons.inj (List.append_cancel_left e9)).2
      obtain ⟨rfl, e11⟩ := blank_align hb hb' (head_cons (by decide)) (head_cons (by decide)) e10
      have e12 := (List.cons.inj e11).2
      obtain ⟨rfl, e13⟩ := blank_align hc hc' (head_append (rvalue_head hv)) (head_append (jvalue_head hv')) e12
      obtain ⟨rfl, e14, hQ⟩ := ih hv' (ends_blank hd (by simp) _) (ends_blank hd' (by simp) _) e13
      obtain ⟨rfl, e15⟩ := blank_align hd hd' (head_cons (by decide)) (head_cons (by decide)) e14
      exact ⟨rfl, (List.cons.inj e15).2, hL, hQ⟩
    | cons _ _ _ _ _ _ h => cases h
  · intro Q R k v l a b c t d r ha hb hc hv hd hl ih1 ih2 t' z z' hj e
    cases hj with
    | one => cases hl
    | cons ha' hk' hb' hc' hv' hd' hl' =>
      simp only [List.append_assoc, List.cons_append] at e
      obtain ⟨rfl, e16⟩ := blank_align ha ha' (head_cons (by decide)) (head_cons (by decide)) e
      have e17 := (List.cons.inj e16).2
      obtain ⟨rfl, hL⟩ := quote_exact hk' e17
      rw [legible_cstr hL] at e17 ⊢
      have e18 := (List.cons.inj (List.append_cancel_left e17)).2
      obtain ⟨rfl, e19⟩ := blank_align hb hb' (head_cons (by decide)) (head_cons (by decide)) e18
      have e20 := (List.cons.inj e19).2
      obtain ⟨rfl, e21⟩ := blank_align hc hc' (head_append (rvalue_head hv)) (head_append (jvalue_head hv')) e20
      obtain ⟨rfl, e22, hQ⟩ := ih1 hv' (ends_blank hd (by simp) _) (ends_blank hd' (by simp) _) e21
      obtain ⟨rfl, e23⟩ := blank_align hd hd' (head_cons (by decide)) (head_cons (by decide)) e22
      obtain ⟨rfl, e24, hR⟩ := ih2 hl' (List.cons.inj e23).2
      exact ⟨rfl, e24, ⟨hL, hQ⟩, hR⟩

end Verif.Json
