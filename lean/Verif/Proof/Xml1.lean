import Verif.Spec.Xml
/-!
# Names, values, tags
-/
namespace Verif.Xml
open Tec Spec

theorem strip_append (pat r : Str) : strip pat (pat ++ r) = some r := by
  induction pat with
  | nil => cases r <;> rfl
  | cons a pat ih => rw [List.cons_append, strip, if_pos rfl, ih]

theorem strip_ne {a b : UInt8} (pat l : Str) (h : a ≠ b) : strip (a :: pat) (b :: l) = none := by rw [strip, if_neg h]

theorem strip_eq (a : UInt8) (pat l : Str) : strip (a :: pat) (a :: l) = strip pat l := by rw [strip, if_pos rfl]

theorem isSpace_iff (b : UInt8) : isSpace b = true ↔ White b := by
  unfold isSpace White
  simp only [Bool.or_eq_true, Bool.and_eq_true, decide_eq_true_eq, beq_iff_eq, UInt8.le_iff_toNat_le]
  rfl

theorem blank_space {s : Str} (h : Blank s) : ∀ b ∈ s, isSpace b = true := fun b hb => (isSpace_iff b).2 (h b hb)

theorem dropWhile_all {p : UInt8 → Bool} {w : Str} (h : ∀ b ∈ w, p b = true) (r : Str) : (w ++ r).dropWhile p = r.dropWhile p := by
  induction w with
  | nil => rfl
  | cons a w ih => rw [List.cons_append, List.dropWhile_cons, if_pos (h a (by simp)), ih fun b hb => h b (by simp [hb])]

theorem takeWhile_all {p : UInt8 → Bool} {w : Str} (h : ∀ b ∈ w, p b = true) (r : Str) : (w ++ r).takeWhile p = w ++ r.takeWhile p := by
  induction w with
  | nil => rfl
  | cons a w ih => rw [List.cons_append, List.takeWhile_cons, if_pos (h a (by simp)), ih fun b hb => h b (by simp [hb])]; rfl

theorem skipSpace_blank {w : Str} (h : Blank w) (r : Str) : skipSpace (w ++ r) = skipSpace r := dropWhile_all (blank_space h) r

theorem skipSpace_cons {b : UInt8} (h : isSpace b = false) (l : Str) : skipSpace (b :: l) = b :: l := by
  unfold skipSpace
  rw [List.dropWhile_cons, if_neg (by rw [h]; decide)]

theorem skipSpace_nil : skipSpace [] = [] := rfl

theorem nameStart_is {b : UInt8} (h : NameStart b) : isNameStart b = true := by
  unfold isNameStart
  simp only [Bool.or_eq_true, Bool.and_eq_true, decide_eq_true_eq, beq_iff_eq]
  unfold NameStart at h
  simp only [UInt8.le_iff_toNat_le] at h
  rcases h with h | h | h | h | h
  · exact .inl (.inl (.inl (.inr h)))
  · exact .inl (.inl (.inr h))
  · exact .inl (.inr h)
  · exact .inr h
  · exact .inl (.inl (.inl (.inl h)))

theorem nameByte_is {b : UInt8} (h : NameByte b) : isNameChar b = true := by
  unfold isNameChar isDigit
  simp only [Bool.or_eq_true, Bool.and_eq_true, decide_eq_true_eq, beq_iff_eq]
  unfold NameByte at h
  simp only [UInt8.le_iff_toNat_le (a := 48), UInt8.le_iff_toNat_le (b := 57)] at h
  rcases h with h | h | h | h
  · exact .inl (.inl (.inl (nameStart_is h)))
  · exact .inl (.inl (.inr h))
  · exact .inl (.inr h)
  · exact .inr h

theorem name_notSpace {b : UInt8} (h : isNameStart b = true) : isSpace b = false := by
  cases hs : isSpace b with
  | false => rfl
  | true =>
    exfalso
    unfold isNameStart at h
    unfold isSpace at hs
    simp only [Bool.or_eq_true, Bool.and_eq_true, decide_eq_true_eq, beq_iff_eq] at h hs
    rcases hs with rfl | hs
    · revert h; decide
    · rcases h with (((h | h) | h) | rfl) | rfl
      · omega
      · omega
      · omega
      · revert hs; decide
      · revert hs; decide

theorem parseName_ok {n : Str} (h : IsName n) {b : UInt8} (hb : isNameChar b = false) (r : Str) : parseName (n ++ b :: r) = some (n, b :: r) := by
  cases n with
  | nil => exact h.elim
  | cons a n =>
    rw [List.cons_append, parseName, if_pos (nameStart_is h.1), takeWhile_all (fun c hc => nameByte_is (h.2 c hc)),
      dropWhile_all (fun c hc => nameByte_is (h.2 c hc)), List.takeWhile_cons, if_neg (by rw [hb]; decide), List.append_nil, List.dropWhile_cons,
      if_neg (by rw [hb]; decide)]

theorem parseText_one {c : UInt8} {v : Str} (h : c ∉ v) (tag r : Str) : parseText (c :: tag) (v ++ c :: (tag ++ r)) = some (v, r) := by
  induction v with
  | nil =>
    rw [List.nil_append, parseText, show c :: (tag ++ r) = (c :: tag) ++ r from rfl, strip_append]
  | cons a v ih =>
    rw [List.mem_cons, not_or] at h
    rw [List.cons_append, parseText, strip_ne _ _ h.1, ih h.2]

theorem cook_plain (ent : Bool) (orig : Str) {v : Str} (h : ∀ b ∈ v, b ≠ 13 ∧ (ent = true → b ≠ 38)) (f : Nat) (hf : v.length ≤ f) (out : Str) :
    cook ent orig f out v = out ++ v := by
  induction v generalizing f out with
  | nil => cases f <;> simp [cook]
  | cons a v ih =>
    cases f with
    | zero => simp at hf
    | succ f =>
      obtain ⟨h1, h2⟩ := h a (by simp)
      have ih' := ih (fun b hb => h b (by simp [hb])) f (by simpa using hf)
      rw [cook.eq_def]
      simp only
      rw [if_neg h1]
      split
      · rename_i h10
        subst h10
        cases v with
        | nil => simp only; rw [ih']; simp
        | cons c v =>
          have : c ≠ 13 := (h c (by simp)).1
          split
          · rename_i heq; simp at heq; exact absurd heq.1 this
          · rw [ih']; simp
      · split
        · rename_i hh; exact absurd hh.2 (h2 hh.1)
        · rw [ih']; simp

theorem cstr_plain {s : Str} (h : ∀ b ∈ s, b ≠ 0) : cstr s = s := by
  have := takeWhile_all (p := fun x => decide (x ≠ 0)) (w := s) (fun b hb => by simpa using h b hb) []
  rw [List.append_nil, List.takeWhile_nil, List.append_nil] at this
  exact this

theorem value_plain (ent : Bool) {v : Str} (h : ∀ b ∈ v, b ≠ 0 ∧ b ≠ 13 ∧ (ent = true → b ≠ 38)) : value ent v = v := by
  unfold value
  rw [cook_plain ent v (fun b hb => (h b hb).2) _ (Nat.le_refl _), List.nil_append, cstr_plain fun b hb => (h b hb).1]

theorem isSpace_lit : isSpace 61 = false ∧ isSpace 34 = false ∧ isSpace 62 = false ∧ isSpace 47 = false ∧ isSpace 60 = false := by decide

/-- one attribute -/
theorem parseAttr_ok {n v : Str} (hn : IsName n) (hv : Quotable v) (r : Str) :
    parseAttr (n ++ 61 :: 34 :: (v ++ 34 :: r)) = some ((n, v), r) := by
  unfold parseAttr
  rw [parseName_ok hn (by decide)]
  simp only
  rw [skipSpace_cons (by decide)]
  simp only
  rw [skipSpace_cons (by decide)]
  simp only
  rw [if_pos (.inl trivial), show v ++ 34 :: r = v ++ 34 :: ([] ++ r) from rfl,
    parseText_one (fun hh => (hv 34 hh).2.2.2 rfl)]
  simp only
  rw [value_plain true fun b hb => ⟨(hv b hb).1, (hv b hb).2.1, fun _ => (hv b hb).2.2.1⟩]

theorem attrsText_cons (a : Str × Str) (as : List (Str × Str)) (r : Str) :
    attrsText (a :: as) ++ r = 32 :: (a.1 ++ 61 :: 34 :: (a.2 ++ 34 :: (attrsText as ++ r))) := by
  unfold attrsText
  simp only [List.flatMap_cons, List.append_assoc]
  rfl

/-- all attributes -/
theorem parseAttrs_ok {as : List (Str × Str)} : ∀ (pre : List (Str × Str)) (f : Nat) (r : Str), AttrsOk (pre ++ as) → as.length + 1 ≤ f →
    (parseAttrs f pre (attrsText as ++ 62 :: r) = .ok (pre ++ as, false, r)) ∧
    (parseAttrs f pre (attrsText as ++ 47 :: 62 :: r) = .ok (pre ++ as, true, r)) := by
  induction as with
  | nil =>
    intro pre f r _ hf
    obtain ⟨f, rfl⟩ : ∃ g, f = g + 1 := ⟨f - 1, by simp at hf; omega⟩
    simp only [attrsText, List.flatMap_nil, List.nil_append, List.append_nil]
    constructor
    · rw [parseAttrs, skipSpace_cons (by decide)]
      simp only
      rw [if_neg (by decide), if_pos trivial]
    · rw [parseAttrs, skipSpace_cons (by decide)]
      simp only
      rw [if_neg (by decide), if_neg (by decide), if_pos trivial]
  | cons a as ih =>
    intro pre f r h hf
    obtain ⟨f, rfl⟩ : ∃ g, f = g + 1 := ⟨f - 1, by simp at hf; omega⟩
    obtain ⟨h1, h2⟩ := h.1 a (by simp)
    have hnew : (pre.any fun x => x.1 == a.1) = false := by
      rw [List.any_eq_false]
      intro x hx hh
      have e : x.1 = a.1 := by simpa using hh
      have := h.2
      rw [List.map_append, List.map_cons, List.nodup_append] at this
      exact this.2.2 x.1 (List.mem_map.2 ⟨x, hx, rfl⟩) a.1 (by simp) e
    have step : ∀ q, parseAttrs (f + 1) pre (attrsText (a :: as) ++ q) = parseAttrs f (pre ++ [a]) (attrsText as ++ q) := by
      intro q
      rw [attrsText_cons]
      obtain ⟨b, l, hb, hn⟩ : ∃ b l, a.1 = b :: l ∧ isNameStart b = true := by
        cases e : a.1 with
        | nil => rw [e] at h1; exact h1.elim
        | cons b l => rw [e] at h1; exact ⟨b, l, rfl, nameStart_is h1.1⟩
      have hp := parseAttr_ok h1 h2 (attrsText as ++ q)
      rw [hb, List.cons_append] at hp
      rw [parseAttrs, hb, List.cons_append, show skipSpace (32 :: b :: (l ++ 61 :: 34 :: (a.2 ++ 34 :: (attrsText as ++ q)))) =
        b :: (l ++ 61 :: 34 :: (a.2 ++ 34 :: (attrsText as ++ q))) from skipSpace_cons (name_notSpace hn) _]
      simp only
      rw [if_pos hn, hp]
      simp only
      rw [← hb, if_neg (by rw [hnew]; decide)]
    have := ih (pre ++ [a]) f r (by rw [List.append_assoc]; exact h) (by simp at hf; omega)
    rw [List.append_assoc] at this
    exact ⟨(step _).trans this.1, (step _).trans this.2⟩

theorem attrsText_length (as : List (Str × Str)) : as.length ≤ (attrsText as).length := by
  induction as with
  | nil => simp
  | cons a as ih =>
    have := attrsText_cons a as []
    rw [List.append_nil] at this
    rw [this]
    simp
    omega

theorem name_start {n : Str} (h : IsName n) : ∃ b l, n = b :: l ∧ isNameStart b = true := by
  cases n with
  | nil => exact h.elim
  | cons b l => exact ⟨b, l, rfl, nameStart_is h.1⟩

theorem nameStart_ne {b : UInt8} (h : isNameStart b = true) : b ≠ 47 ∧ b ≠ 33 ∧ b ≠ 63 ∧ b ≠ 60 ∧ b ≠ 0 := by
  refine ⟨?_, ?_, ?_, ?_, ?_⟩ <;> rintro rfl <;> revert h <;> decide

theorem attrs_head (as : List (Str × Str)) (r : Str) {b : UInt8} (hb : isNameChar b = false) :
    ∃ c q, attrsText as ++ b :: r = c :: q ∧ isNameChar c = false := by
  cases as with
  | nil => exact ⟨b, r, rfl, hb⟩
  | cons a as => exact ⟨32, _, attrsText_cons a as _, by decide⟩

/-- a tag -/
theorem parseTag_ok {n : Str} {as : List (Str × Str)} (hn : IsName n) (ha : AttrsOk as) (r : Str) :
    (parseTag (n ++ (attrsText as ++ 62 :: r)) = .ok (n, as, .opened, r)) ∧
    (parseTag (n ++ (attrsText as ++ 47 :: 62 :: r)) = .ok (n, as, .closed, r)) := by
  obtain ⟨b, l, e, hb⟩ := name_start hn
  have hs : ∀ q, skipSpace (n ++ q) = n ++ q := fun q => by rw [e, List.cons_append, skipSpace_cons (name_notSpace hb)]
  have hc : ∀ q, strip [47] (n ++ q) = none := fun q => by rw [e, List.cons_append, strip_ne _ _ (nameStart_ne hb).1.symm]
  have hl := attrsText_length as
  constructor
  · obtain ⟨c, q, e1, e2⟩ := attrs_head as r (b := 62) (by decide)
    unfold parseTag
    simp only
    rw [hs, hc, Option.getD_none, e1, parseName_ok hn e2]
    simp only
    rw [← e1, (parseAttrs_ok [] _ r ha (by simp; omega)).1]
    rfl
  · obtain ⟨c, q, e1, e2⟩ := attrs_head as (62 :: r) (b := 47) (by decide)
    unfold parseTag
    simp only
    rw [hs, hc, Option.getD_none, e1, parseName_ok hn e2]
    simp only
    rw [← e1, (parseAttrs_ok [] _ r ha (by simp; omega)).2]
    rfl

/-- an end tag -/
theorem parseTag_end {n : Str} (hn : IsName n) (r : Str) : parseTag (47 :: (n ++ 62 :: r)) = .ok (n, [], .closing, r) := by
  unfold parseTag
  simp only
  rw [skipSpace_cons (by decide), show strip [47] (47 :: (n ++ 62 :: r)) = some (n ++ 62 :: r) from strip_append [47] _, Option.getD_some,
    parseName_ok hn (by decide)]
  simp only
  have := (parseAttrs_ok (as := []) [] ((62 :: r).length + 1) r ⟨by simp, by simp⟩ (by simp)).1
  simp only [attrsText, List.flatMap_nil, List.nil_append] at this
  rw [this]
  rfl

end Verif.Xml
