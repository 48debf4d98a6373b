import Verif.Spec.Json
/-!
# A reader of JSON texts: it returns what a text shows
-/
namespace Verif.Json
open Tec Spec

def isB (b : UInt8) : Bool := b = 32 || b = 9 || b = 10 || b = 13

def skip (s : Str) : Str := s.dropWhile isB

def numCh (b : UInt8) : Bool := (48 ≤ b && b ≤ 57) || b = 43 || b = 45 || b = 46 || b = 69 || b = 101

def isDig (b : UInt8) : Bool := 48 ≤ b && b ≤ 57

def phex : Str → Option (Nat × Str)
  | a :: b :: c :: d :: t =>
    match hexVal a, hexVal b, hexVal c, hexVal d with
    | some p, some q, some r, some x => some (4096 * p + 256 * q + 16 * r + x, t)
    | _, _, _, _ => none
  | _ => none

/-- the characters of a string up to the closing quote -/
def pchars : Nat → Str → Option (Str × Str)
  | 0, _ => none
  | _, [] => none
  | n + 1, b :: t =>
    if b = 34 then some ([], t)
    else if b = 92 then
      match t with
      | [] => none
      | e :: t =>
        if e = 117 then
          match phex t with
          | none => none
          | some (x, t) =>
            if x < 55296 ∨ 57344 ≤ x then (pchars n t).map fun p => (utf8 x ++ p.1, p.2)
            else
              match t with
              | b1 :: b2 :: t =>
                if b1 = 92 ∧ b2 = 117 then
                  match phex t with
                  | none => none
                  | some (y, t) =>
                    if x < 56320 ∧ 56320 ≤ y ∧ y < 57344 then
                      (pchars n t).map fun p => (utf8 (65536 + 1024 * (x - 55296) + (y - 56320)) ++ p.1, p.2)
                    else none
                else none
              | _ => none
        else
          match escVal e with
          | none => none
          | some c => (pchars n t).map fun p => (c :: p.1, p.2)
    else if b < 32 then none
    else (pchars n t).map fun p => (b :: p.1, p.2)

/-- a token of a number -/
def pnum (s : Str) : Option (JVal × Str) :=
  match (s.takeWhile numCh).getLast? with
  | some b => if isDig b then some (.num (s.takeWhile numCh), s.dropWhile numCh) else none
  | none => none

mutual

def pval : Nat → Str → Option (JVal × Str)
  | 0, _ => none
  | _, [] => none
  | n + 1, c :: t =>
    if c = 34 then (pchars n t).map fun p => (.str p.1, p.2)
    else if c = 91 then
      if (skip t).head? = some 93 then some (.arr [], (skip t).drop 1)
      else (pelems n t).map fun p => (.arr p.1, p.2)
    else if c = 123 then
      if (skip t).head? = some 125 then some (.obj [], (skip t).drop 1)
      else (pmembers n t).map fun p => (.obj p.1, p.2)
    else if c = 110 then if t.take 3 = lit "ull" then some (.null, t.drop 3) else none
    else if c = 116 then if t.take 3 = lit "rue" then some (.bool true, t.drop 3) else none
    else if c = 102 then if t.take 4 = lit "alse" then some (.bool false, t.drop 4) else none
    else pnum (c :: t)

def pelems : Nat → Str → Option (List JVal × Str)
  | 0, _ => none
  | n + 1, s =>
    match pval n (skip s) with
    | none => none
    | some (v, r) =>
      match skip r with
      | [] => none
      | c :: r =>
        if c = 93 then some ([v], r)
        else if c = 44 then (pelems n r).map fun p => (v :: p.1, p.2)
        else none

def pmembers : Nat → Str → Option (List (Str × JVal) × Str)
  | 0, _ => none
  | n + 1, s =>
    match skip s with
    | [] => none
    | c :: s =>
      if c = 34 then
        match pchars n s with
        | none => none
        | some (k, s) =>
          match skip s with
          | [] => none
          | c :: s =>
            if c = 58 then
              match pval n (skip s) with
              | none => none
              | some (v, r) =>
                match skip r with
                | [] => none
                | c :: r =>
                  if c = 125 then some ([(k, v)], r)
                  else if c = 44 then (pmembers n r).map fun p => ((k, v) :: p.1, p.2)
                  else none
            else none
      else none

end

def parse (s : Str) : Option JVal :=
  match pval (s.length + 1) (skip s) with
  | some (v, r) => if skip r = [] then some v else none
  | none => none

/-! ## White space -/

theorem isB_iff {b : UInt8} : isB b = true ↔ b = 32 ∨ b = 9 ∨ b = 10 ∨ b = 13 := by
  simp [isB, or_assoc]

theorem skip_blank {w s : Str} (hw : JBlank w) : skip (w ++ s) = skip s := by
  induction w with
  | nil => rfl
  | cons b w ih =>
    show List.dropWhile isB (b :: (w ++ s)) = _
    rw [List.dropWhile_cons_of_pos (isB_iff.2 (hw b (by simp)))]
    exact ih fun c hc => hw c (by simp [hc])

theorem skip_cons {c : UInt8} {s : Str} (h : isB c = false) : skip (c :: s) = c :: s := by
  unfold skip
  rw [List.dropWhile_cons_of_neg (by simp [h])]

theorem skip_all {w : Str} (hw : JBlank w) : skip w = [] := by
  have := skip_blank (s := []) hw
  rwa [List.append_nil] at this

/-! ## Strings -/

theorem phex_run {h : Str} {n : Nat} (hh : JHex h n) (t : Str) : phex (h ++ t) = some (n, t) := by
  obtain ⟨a, b, c, d, p, q, r, x, rfl, h1, h2, h3, h4, rfl⟩ := hh
  simp only [List.cons_append, List.nil_append, phex, h1, h2, h3, h4]

theorem JHex.len {h : Str} {n : Nat} (hh : JHex h n) : h.length = 4 := by
  obtain ⟨a, b, c, d, p, q, r, x, rfl, -⟩ := hh
  rfl

theorem escVal_ne {b c : UInt8} (h : escVal b = some c) : b ≠ 117 := by
  rintro rfl
  revert h
  simp [escVal]

theorem pchars_run {t s : Str} (h : JChars t s) : ∀ (n : Nat) (rest : Str), t.length < n → pchars n (t ++ 34 :: rest) = some (s, rest) := by
  induction h with
  | nil =>
    intro n rest hn
    obtain ⟨n, rfl⟩ := Nat.exists_eq_add_one_of_ne_zero (Nat.pos_iff_ne_zero.1 (Nat.lt_of_le_of_lt (Nat.zero_le _) hn))
    rw [List.nil_append, pchars.eq_def]
    simp only [if_true]
  | @byte b t s h1 h2 h3 _ ih =>
    intro n rest hn
    obtain ⟨n, rfl⟩ := Nat.exists_eq_add_one_of_ne_zero (Nat.pos_iff_ne_zero.1 (Nat.lt_of_le_of_lt (Nat.zero_le _) hn))
    rw [List.cons_append, pchars.eq_def]
    simp only
    rw [if_neg h2, if_neg h3, if_neg (by simpa using h1), ih n rest (by simpa using hn)]
    rfl
  | @esc b c t s h1 _ ih =>
    intro n rest hn
    obtain ⟨n, rfl⟩ := Nat.exists_eq_add_one_of_ne_zero (Nat.pos_iff_ne_zero.1 (Nat.lt_of_le_of_lt (Nat.zero_le _) hn))
    rw [List.cons_append, List.cons_append, pchars, if_neg (by decide), if_pos rfl]
    simp only [escVal_ne h1, if_false, h1]
    rw [ih n rest (by simp at hn; omega)]
    rfl
  | @code h t s x h1 h2 _ ih =>
    intro n rest hn
    obtain ⟨n, rfl⟩ := Nat.exists_eq_add_one_of_ne_zero (Nat.pos_iff_ne_zero.1 (Nat.lt_of_le_of_lt (Nat.zero_le _) hn))
    rw [List.cons_append, List.cons_append, pchars, if_neg (by decide), if_pos rfl]
    simp only [List.append_assoc, phex_run h1, h2, if_true]
    rw [ih n rest (by simp at hn; omega)]
    rfl
  | @pair h h' t s x y h1 h2 h3 h4 _ ih =>
    intro n rest hn
    obtain ⟨n, rfl⟩ := Nat.exists_eq_add_one_of_ne_zero (Nat.pos_iff_ne_zero.1 (Nat.lt_of_le_of_lt (Nat.zero_le _) hn))
    rw [List.cons_append, List.cons_append, pchars, if_neg (by decide), if_pos rfl]
    simp only [List.append_assoc, List.cons_append, phex_run h1, phex_run h3, if_true, and_self, h2.2, h4.1, h4.2]
    rw [if_neg (by omega), ih n rest (by simp at hn; omega)]
    rfl

/-! ## Numbers -/

theorem dig_num {b : UInt8} (h : JDigit b) : numCh b = true ∧ isDig b = true := by
  unfold JDigit at h
  simp [numCh, isDig, h.1, h.2]

theorem digits_num {s : Str} (h : JDigits s) : (∀ b ∈ s, numCh b = true) ∧ ∃ l b, s = l ++ [b] ∧ isDig b = true := by
  refine ⟨fun b hb => (dig_num (h.2 b hb)).1, s.dropLast, s.getLast h.1, (List.dropLast_concat_getLast h.1).symm, (dig_num (h.2 _ (List.getLast_mem h.1))).2⟩

theorem int_num {s : Str} (h : JInt s) : JDigits s := by
  rcases h with rfl | h
  · exact (by decide : JDigits (lit "0"))
  · exact h.1

theorem number_num {s : Str} (h : JNumber s) : (∀ b ∈ s, numCh b = true) ∧ ∃ l b, s = l ++ [b] ∧ isDig b = true := by
  obtain ⟨m, i, f, e, rfl, hm, hi, hf, he⟩ := h
  obtain ⟨i1, li, bi, ei, di⟩ := digits_num (int_num hi)
  have m1 : ∀ b ∈ m, numCh b = true := by
    rcases hm with rfl | rfl
    · simp
    · decide
  have f1 : (∀ b ∈ f, numCh b = true) ∧ (f = [] ∨ ∃ l b, f = l ++ [b] ∧ isDig b = true) := by
    rcases hf with rfl | ⟨d, rfl, hd⟩
    · exact ⟨by simp, .inl rfl⟩
    · obtain ⟨d1, l, b, e, hb⟩ := digits_num hd
      refine ⟨fun c hc => ?_, .inr ⟨lit "." ++ l, b, by rw [e, List.append_assoc], hb⟩⟩
      rcases List.mem_append.1 hc with hc | hc
      · exact (by decide : ∀ c ∈ lit ".", numCh c = true) c hc
      · exact d1 c hc
  have e1 : (∀ b ∈ e, numCh b = true) ∧ (e = [] ∨ ∃ l b, e = l ++ [b] ∧ isDig b = true) := by
    rcases he with rfl | ⟨x, g, d, rfl, hx, hg, hd⟩
    · exact ⟨by simp, .inl rfl⟩
    · obtain ⟨d1, l, b, e, hb⟩ := digits_num hd
      refine ⟨fun c hc => ?_, .inr ⟨x ++ g ++ l, b, by rw [e]; simp, hb⟩⟩
      rcases List.mem_append.1 hc with hc | hc
      · rcases List.mem_append.1 hc with hc | hc
        · rcases hx with rfl | rfl
          · exact (by decide : ∀ c ∈ lit "e", numCh c = true) c hc
          · exact (by decide : ∀ c ∈ lit "E", numCh c = true) c hc
        · rcases hg with rfl | rfl | rfl
          · cases hc
          · exact (by decide : ∀ c ∈ lit "+", numCh c = true) c hc
          · exact (by decide : ∀ c ∈ lit "-", numCh c = true) c hc
      · exact d1 c hc
  refine ⟨?_, ?_⟩
  · intro b hb
    rcases List.mem_append.1 hb with hb | hb
    · rcases List.mem_append.1 hb with hb | hb
      · rcases List.mem_append.1 hb with hb | hb
        · exact m1 b hb
        · exact i1 b hb
      · exact f1.1 b hb
    · exact e1.1 b hb
  · rcases e1.2 with rfl | ⟨l, b, rfl, hb⟩
    · rcases f1.2 with rfl | ⟨l, b, rfl, hb⟩
      · exact ⟨m ++ li, bi, by rw [ei]; simp, di⟩
      · exact ⟨m ++ i ++ l, b, by simp, hb⟩
    · exact ⟨m ++ i ++ f ++ l, b, by simp, hb⟩

/-- the first character of a number -/
theorem number_head {s : Str} (h : JNumber s) : ∃ c r, s = c :: r ∧ (JDigit c ∨ c = 45) := by
  obtain ⟨m, i, f, e, rfl, hm, hi, hf, he⟩ := h
  obtain ⟨hi1, hi2⟩ := int_num hi
  rcases hm with rfl | rfl
  · cases i with
    | nil => exact absurd rfl hi1
    | cons c i => exact ⟨c, i ++ f ++ e, rfl, .inl (hi2 c (by simp))⟩
  · exact ⟨45, i ++ f ++ e, rfl, .inr rfl⟩

theorem takeWhile_num {s rest : Str} (h : ∀ b ∈ s, numCh b = true) (hr : ∀ b, rest.head? = some b → numCh b = false) :
    (s ++ rest).takeWhile numCh = s ∧ (s ++ rest).dropWhile numCh = rest := by
  induction s with
  | nil =>
    cases rest with
    | nil => exact ⟨rfl, rfl⟩
    | cons b r =>
      have := hr b rfl
      simp [this]
  | cons b s ih =>
    obtain ⟨i1, i2⟩ := ih fun c hc => h c (by simp [hc])
    rw [List.cons_append, List.takeWhile_cons_of_pos (h b (by simp)), List.dropWhile_cons_of_pos (h b (by simp)), i1, i2]
    exact ⟨rfl, rfl⟩

theorem pnum_run {s rest : Str} (h : JNumber s) (hr : ∀ b, rest.head? = some b → numCh b = false) : pnum (s ++ rest) = some (.num s, rest) := by
  obtain ⟨h1, l, b, e, hb⟩ := number_num h
  obtain ⟨t1, t2⟩ := takeWhile_num h1 hr
  unfold pnum
  rw [t1, t2]
  have : s.getLast? = some b := by rw [e]; simp
  rw [this]
  simp only [hb, if_true]

/-! ## Values -/

/-- the characters a value can begin with -/
def firstCh (c : UInt8) : Bool := c = 34 || c = 91 || c = 123 || c = 110 || c = 116 || c = 102 || c = 45 || isDig c

theorem value_head {v : JVal} {t : Str} (h : JValue v t) : ∃ c r, t = c :: r ∧ firstCh c = true := by
  cases h with
  | null => exact ⟨_, _, rfl, by decide⟩
  | tru => exact ⟨_, _, rfl, by decide⟩
  | fls => exact ⟨_, _, rfl, by decide⟩
  | num h =>
    obtain ⟨c, r, e, h⟩ := number_head h
    refine ⟨c, r, e, ?_⟩
    rcases h with h | rfl
    · simp [firstCh, (dig_num h).2]
    · decide
  | str h => exact ⟨_, _, rfl, by decide⟩
  | arr0 h => exact ⟨_, _, rfl, by decide⟩
  | arr h => exact ⟨_, _, rfl, by decide⟩
  | obj0 h => exact ⟨_, _, rfl, by decide⟩
  | obj h => exact ⟨_, _, rfl, by decide⟩

theorem all_bytes {p : UInt8 → Prop} (h : ∀ n : Fin 256, p (UInt8.ofNat n)) (c : UInt8) : p c := by
  have := h ⟨c.toNat, c.toNat_lt⟩
  simpa using this

theorem first_spec : ∀ c : UInt8, firstCh c = true → isB c = false ∧ c ≠ 93 ∧ c ≠ 125 := all_bytes (by decide +kernel)

theorem digit_spec : ∀ c : UInt8, (isDig c = true ∨ c = 45) → c ≠ 34 ∧ c ≠ 91 ∧ c ≠ 123 ∧ c ≠ 110 ∧ c ≠ 116 ∧ c ≠ 102 := all_bytes (by decide +kernel)

theorem blank_num : ∀ c : UInt8, isB c = true ∨ c = 44 ∨ c = 93 ∨ c = 125 → numCh c = false := all_bytes (by decide +kernel)

/-- what may follow a value -/
def Ends (rest : Str) : Prop := ∀ b, rest.head? = some b → numCh b = false

theorem ends_blank {w : Str} (hw : JBlank w) {c : UInt8} (hc : c = 44 ∨ c = 93 ∨ c = 125) (r : Str) : Ends (w ++ c :: r) := by
  intro b hb
  cases w with
  | nil => cases hb; exact blank_num _ (.inr hc)
  | cons a w => cases hb; exact blank_num _ (.inl (isB_iff.2 (hw _ (by simp))))

theorem ends_all {w : Str} (hw : JBlank w) : Ends w := by
  intro b hb
  cases w with
  | nil => cases hb
  | cons a w => cases hb; exact blank_num _ (.inl (isB_iff.2 (hw _ (by simp))))

theorem skip_value {v : JVal} {t : Str} (h : JValue v t) {w : Str} (hw : JBlank w) (r : Str) : skip (w ++ (t ++ r)) = t ++ r := by
  obtain ⟨c, q, rfl, hc⟩ := value_head h
  rw [skip_blank hw, List.cons_append, skip_cons (first_spec c hc).1]

theorem elems_head {l : List JVal} {t : Str} (h : JElems l t) : ∃ c r, skip t = c :: r ∧ firstCh c = true := by
  cases h with
  | one ha hv hb =>
    rw [skip_value hv ha]
    obtain ⟨c, q, rfl, hc⟩ := value_head hv
    exact ⟨c, _, rfl, hc⟩
  | cons ha hv hb hr =>
    rw [skip_value hv ha]
    obtain ⟨c, q, rfl, hc⟩ := value_head hv
    exact ⟨c, _, rfl, hc⟩

theorem skip_append {t r q : Str} {c : UInt8} (h : skip t = c :: q) : skip (t ++ r) = c :: (q ++ r) := by
  unfold skip at *
  rw [List.dropWhile_append]
  simp [h]

theorem members_head {l : List (Str × JVal)} {t : Str} (h : JMembers l t) : ∃ r, skip t = 34 :: r := by
  cases h with
  | one ha hk hb hc hv hd =>
    rw [skip_blank ha, skip_cons (by decide)]
    exact ⟨_, rfl⟩
  | cons ha hk hb hc hv hd hr =>
    rw [skip_blank ha, skip_cons (by decide)]
    exact ⟨_, rfl⟩

theorem pos_succ {a n : Nat} (h : a < n) : ∃ k, n = k + 1 := ⟨n - 1, by omega⟩

theorem pval_run {v : JVal} {t : Str} (h : JValue v t) : ∀ (n : Nat) (rest : Str), Ends rest → t.length < n → pval n (t ++ rest) = some (v, rest) := by
  refine JValue.rec
    (motive_1 := fun v t _ => ∀ (n : Nat) (rest : Str), Ends rest → t.length < n → pval n (t ++ rest) = some (v, rest))
    (motive_2 := fun l t _ => ∀ (n : Nat) (rest : Str), t.length + 1 < n → pelems n (t ++ 93 :: rest) = some (l, rest))
    (motive_3 := fun l t _ => ∀ (n : Nat) (rest : Str), t.length + 1 < n → pmembers n (t ++ 125 :: rest) = some (l, rest))
    ?_ ?_ ?_ ?_ ?_ ?_ ?_ ?_ ?_ ?_ ?_ ?_ ?_ h
  · intro n rest _ hn
    obtain ⟨n, rfl⟩ := pos_succ hn
    rw [show lit "null" = 110 :: lit "ull" from rfl, List.cons_append, pval]
    simp [lit]
  · intro n rest _ hn
    obtain ⟨n, rfl⟩ := pos_succ hn
    rw [show lit "true" = 116 :: lit "rue" from rfl, List.cons_append, pval]
    simp [lit]
  · intro n rest _ hn
    obtain ⟨n, rfl⟩ := pos_succ hn
    rw [show lit "false" = 102 :: lit "alse" from rfl, List.cons_append, pval]
    simp [lit]
  · intro t ht n rest hr hn
    obtain ⟨n, rfl⟩ := pos_succ hn
    obtain ⟨c, r, e, hc⟩ := number_head ht
    obtain ⟨d1, d2, d3, d4, d5, d6⟩ := digit_spec c (hc.imp (fun h => (dig_num h).2) id)
    have := pnum_run ht hr
    rw [e, List.cons_append] at this ⊢
    rw [pval, if_neg d1, if_neg d2, if_neg d3, if_neg d4, if_neg d5, if_neg d6, this]
  · intro t s ht n rest _ hn
    obtain ⟨n, rfl⟩ := pos_succ hn
    rw [List.cons_append, List.append_assoc, List.singleton_append, pval, if_pos rfl, pchars_run ht n rest (by simp at hn; omega)]
    rfl
  · intro w hw n rest _ hn
    obtain ⟨n, rfl⟩ := pos_succ hn
    rw [List.cons_append, List.append_assoc, List.singleton_append, pval, if_neg (by decide), if_pos rfl, skip_blank hw, skip_cons (by decide)]
    simp
  · intro l t ht ih n rest _ hn
    obtain ⟨n, rfl⟩ := pos_succ hn
    obtain ⟨c, q, e, hc⟩ := elems_head ht
    rw [List.cons_append, List.append_assoc, List.singleton_append, pval, if_neg (by decide), if_pos rfl, skip_append e, if_neg (by simpa using (first_spec c hc).2.1),
      ih n rest (by simp at hn; omega)]
    rfl
  · intro w hw n rest _ hn
    obtain ⟨n, rfl⟩ := pos_succ hn
    rw [List.cons_append, List.append_assoc, List.singleton_append, pval, if_neg (by decide), if_neg (by decide), if_pos rfl, skip_blank hw, skip_cons (by decide)]
    simp
  · intro l t ht ih n rest _ hn
    obtain ⟨n, rfl⟩ := pos_succ hn
    obtain ⟨q, e⟩ := members_head ht
    rw [List.cons_append, List.append_assoc, List.singleton_append, pval, if_neg (by decide), if_neg (by decide), if_pos rfl, skip_append e, if_neg (by simp),
      ih n rest (by simp at hn; omega)]
    rfl
  · intro v a t b ha hv hb ih n rest hn
    obtain ⟨n, rfl⟩ := pos_succ hn
    rw [List.append_assoc, List.append_assoc, pelems, skip_value hv ha, ih n _ (ends_blank hb (by simp) rest) (by simp at hn; omega)]
    simp only
    rw [skip_blank hb, skip_cons (by decide)]
    simp
  · intro v l a t b r ha hv hb hl ih1 ih2 n rest hn
    obtain ⟨n, rfl⟩ := pos_succ hn
    rw [List.append_assoc, List.append_assoc, List.append_assoc, List.cons_append, pelems, skip_value hv ha, ih1 n _ (ends_blank hb (by simp) _) (by simp at hn; omega)]
    simp only
    rw [skip_blank hb, skip_cons (by decide)]
    simp only [if_true]
    rw [if_neg (by decide), ih2 n rest (by simp at hn; omega)]
    rfl
  · intro k v a nm b c t d ha hk hb hc hv hd ih n rest hn
    obtain ⟨n, rfl⟩ := pos_succ hn
    simp only [List.append_assoc, List.cons_append]
    rw [pmembers, skip_blank ha, skip_cons (by decide)]
    simp only [if_true]
    rw [pchars_run hk n _ (by simp at hn; omega)]
    simp only
    rw [skip_blank hb, skip_cons (by decide)]
    simp only [if_true]
    rw [skip_value hv hc, ih n _ (ends_blank hd (by simp) rest) (by simp at hn; omega)]
    simp only
    rw [skip_blank hd, skip_cons (by decide)]
    simp
  · intro k v l a nm b c t d r ha hk hb hc hv hd hl ih1 ih2 n rest hn
    obtain ⟨n, rfl⟩ := pos_succ hn
    simp only [List.append_assoc, List.cons_append]
    rw [pmembers, skip_blank ha, skip_cons (by decide)]
    simp only [if_true]
    rw [pchars_run hk n _ (by simp at hn; omega)]
    simp only
    rw [skip_blank hb, skip_cons (by decide)]
    simp only [if_true]
    rw [skip_value hv hc, ih1 n _ (ends_blank hd (by simp) _) (by simp at hn; omega)]
    simp only
    rw [skip_blank hd, skip_cons (by decide)]
    simp only [if_true]
    rw [if_neg (by decide), ih2 n rest (by simp at hn; omega)]
    rfl

theorem parse_run {v : JVal} {t : Str} (h : IsJson v t) : parse t = some v := by
  obtain ⟨a, s, b, rfl, ha, hs, hb⟩ := h
  unfold parse
  rw [List.append_assoc, skip_value hs ha, pval_run hs _ b (ends_all hb) (by simp; omega)]
  simp only [skip_all hb, if_true]

end Verif.Json
