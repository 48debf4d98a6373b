import Verif.Proof.Printf2
/-!
# The texts printed by `%le` and `%.plf`
-/
namespace Verif.Tec
open Spec Xml Json

theorem pow_bound : 2 ^ 2098 * 10 ^ 324 < unit64 * 10 ^ 633 := by unfold unit64; decide +kernel

theorem magnitude_le {x : F64} (h : x.special = false) (h0 : x.abs ≠ 0) : magnitude x ≤ 633 := by
  obtain ⟨h1, h2, -⟩ := magnitude_bounds h0
  by_contra hn
  have h3 : unit64 * 10 ^ 633 ≤ unit64 * 10 ^ (magnitude x - 1) := Nat.mul_le_mul_left _ (Nat.pow_le_pow_right (by decide) (by omega))
  have h4 : x.abs * 10 ^ 324 ≤ 2 ^ 2098 * 10 ^ 324 := Nat.mul_le_mul_right _ (le_of_lt (F64.abs_lt h))
  exact absurd (lt_of_le_of_lt (h3.trans (h2.trans h4)) pow_bound) (lt_irrefl _)

theorem expText_length {e : Int} (h : e.natAbs < 1000) : (expText e).length ≤ 5 := by
  have h1 := decNat_length (k := 3) (by decide) h
  unfold expText
  rw [List.length_cons, List.length_cons]
  split
  · have h2 := decNat_length (k := 1) (n := e.natAbs) (by decide) (by omega)
    rw [List.length_cons]; omega
  · omega

theorem sciText_length {d : Nat} {e : Int} (hd : d < 10 ^ 7) (h : e.natAbs < 1000) : (sciText d e).length ≤ 13 := by
  have h1 := expText_length h
  have h2 := decNat_length (k := 1) (n := d / 10 ^ 6) (by decide) (by
    rw [Nat.div_lt_iff_lt_mul (by decide)]; exact hd)
  unfold sciText
  rw [List.length_append, List.length_cons, List.length_append, padded_length]
  omega

theorem minus_length (x : F64) : (minus x).length ≤ 1 := by
  unfold minus; split <;> simp

theorem specialText_length (x : F64) : (specialText x).length ≤ 4 := by
  have := minus_length x
  unfold specialText
  rw [List.length_append]
  split
  · have : (lit "inf").length = 3 := by decide
    omega
  · have : (lit "nan").length = 3 := by decide
    omega

/-- the parts of `%le` for a finite number -/
theorem printE_eq {x : F64} (h : x.special = false) : ∃ d e, printE x = minus x ++ sciText d e ∧ d < 10 ^ 7 ∧ -324 ≤ e ∧ e ≤ 309 ∧
    |x.sgn * (d : ℚ) * (10 : ℚ) ^ (e - 6) - realVal x| ≤ 5 / 10 ^ 7 * |realVal x| := by
  unfold printE
  rw [h]
  by_cases h0 : x.abs = 0
  · refine ⟨0, 0, by rw [if_neg (by decide), if_pos h0], by decide, by decide, by decide, ?_⟩
    rw [x.real_abs, x.real_eq, h0]
    simp
  · obtain ⟨b1, b2⟩ := sciDigits_bounds h0
    have m1 := (magnitude_bounds h0).1
    have m2 := magnitude_le h h0
    have er := sci_error h0
    by_cases hc : sciDigits x = 10 ^ 7
    · refine ⟨10 ^ 6, (magnitude x : Int) - 324, by rw [if_neg (by decide), if_neg h0, if_pos hc], by decide, by omega, by omega, ?_⟩
      rw [hc] at er
      have e : x.sgn * ((10 ^ 6 : ℕ) : ℚ) * (10 : ℚ) ^ ((magnitude x : Int) - 324 - 6) =
          x.sgn * ((10 ^ 7 : ℕ) : ℚ) * (10 : ℚ) ^ ((magnitude x : Int) - 325 - 6) := by
        rw [show (magnitude x : Int) - 324 - 6 = (magnitude x : Int) - 325 - 6 + 1 by ring, zpow_add_one₀ (by norm_num)]
        push_cast
        ring
      rw [e]; exact er
    · exact ⟨sciDigits x, (magnitude x : Int) - 325, by rw [if_neg (by decide), if_neg h0, if_neg hc], by omega, by omega, by omega, er⟩

theorem printE_length (x : F64) : (printE x).length ≤ 14 := by
  cases h : x.special with
  | true =>
    unfold printE
    rw [if_pos h]
    have := specialText_length x
    omega
  | false =>
    obtain ⟨d, e, h1, h2, h3, h4, -⟩ := printE_eq h
    rw [h1, List.length_append]
    have := minus_length x
    have := sciText_length h2 (e := e) (by omega)
    omega

theorem printF_length {p k : Nat} (x : F64) (h : x.special = false → x.abs < unit64 * 10 ^ k) : (printF p x).length ≤ k + p + 4 := by
  unfold printF
  split
  · have := specialText_length x
    omega
  · rename_i hs
    have hs : x.special = false := by simpa using hs
    have h1 := h hs
    have h2 : roundEven (x.abs * 10 ^ p) unit64 ≤ 10 ^ k * 10 ^ p := by
      apply roundEven_le unit64_pos
      calc x.abs * 10 ^ p ≤ unit64 * 10 ^ k * 10 ^ p := Nat.mul_le_mul_right _ (le_of_lt h1)
        _ = 10 ^ k * 10 ^ p * unit64 := by ring
    have h3 : roundEven (x.abs * 10 ^ p) unit64 / 10 ^ p < 10 ^ (k + 1) := by
      rw [Nat.div_lt_iff_lt_mul (Nat.pow_pos (by decide)), Nat.pow_succ]
      have : 0 < 10 ^ k * 10 ^ p := Nat.mul_pos (Nat.pow_pos (by decide)) (Nat.pow_pos (by decide))
      calc _ ≤ 10 ^ k * 10 ^ p := h2
        _ < 10 ^ k * 10 ^ p * 10 := by omega
        _ = 10 ^ k * 10 * 10 ^ p := by ring
    have h4 := decNat_length (k := k + 1) (by omega) h3
    have := minus_length x
    simp only [List.length_append, List.length_cons, padded_length]
    omega

/-! ## Which characters -/

theorem digit_printed {b : UInt8} (h : JDigit b) : 33 ≤ b ∧ b ≤ 126 ∧ b ≠ 34 ∧ b ≠ 38 ∧ b ≠ 60 := by
  revert h
  exact Json.all_bytes (p := fun b => JDigit b → 33 ≤ b ∧ b ≤ 126 ∧ b ≠ 34 ∧ b ≠ 38 ∧ b ≠ 60) (by decide +kernel) b

theorem printed_of {s : Str} (h0 : s ≠ []) (h : ∀ b ∈ s, JDigit b ∨ b ∈ [45, 43, 46, 101, 105, 110, 102, 97]) : Printed s := by
  refine ⟨h0, fun b hb => ?_⟩
  rcases h b hb with h | h
  · exact digit_printed h
  · revert h
    exact Json.all_bytes (p := fun b => b ∈ ([45, 43, 46, 101, 105, 110, 102, 97] : List UInt8) → 33 ≤ b ∧ b ≤ 126 ∧ b ≠ 34 ∧ b ≠ 38 ∧ b ≠ 60)
      (by decide +kernel) b

theorem minus_bytes (x : F64) : ∀ b ∈ minus x, JDigit b ∨ b ∈ ([45, 43, 46, 101, 105, 110, 102, 97] : List UInt8) := by
  intro b hb
  unfold minus at hb
  split at hb
  · obtain rfl := List.mem_singleton.mp hb
    right; decide
  · cases hb

theorem special_printed (x : F64) : Printed (specialText x) := by
  refine printed_of ?_ fun b hb => ?_
  · unfold specialText
    intro e
    have := (List.append_eq_nil_iff.mp e).2
    split at this <;> exact absurd this (by decide)
  · unfold specialText at hb
    rcases List.mem_append.mp hb with hb | hb
    · exact minus_bytes x b hb
    · right
      split at hb
      · exact (by decide : ∀ b ∈ lit "inf", b ∈ ([45, 43, 46, 101, 105, 110, 102, 97] : List UInt8)) b hb
      · exact (by decide : ∀ b ∈ lit "nan", b ∈ ([45, 43, 46, 101, 105, 110, 102, 97] : List UInt8)) b hb

theorem expText_bytes (e : Int) : ∀ b ∈ expText e, JDigit b ∨ b ∈ ([45, 43, 46, 101, 105, 110, 102, 97] : List UInt8) := by
  intro b hb
  unfold expText at hb
  rcases List.mem_cons.mp hb with rfl | hb
  · right; decide
  rcases List.mem_cons.mp hb with rfl | hb
  · right; split <;> decide
  left
  split at hb
  · rcases List.mem_cons.mp hb with rfl | hb
    · exact ⟨by decide, by decide⟩
    · exact (decNat_jdigits _).2 b hb
  · exact (decNat_jdigits _).2 b hb

theorem printE_printed (x : F64) : Printed (printE x) := by
  cases h : x.special with
  | true => unfold printE; rw [if_pos h]; exact special_printed x
  | false =>
    obtain ⟨d, e, h1, -⟩ := printE_eq h
    rw [h1]
    unfold sciText
    refine printed_of (fun e => ?_) fun b hb => ?_
    · have := (List.append_eq_nil_iff.mp e).2
      have := (List.append_eq_nil_iff.mp this).2
      cases this
    · rcases List.mem_append.mp hb with hb | hb
      · exact minus_bytes x b hb
      rcases List.mem_append.mp hb with hb | hb
      · exact Or.inl ((decNat_jdigits _).2 b hb)
      rcases List.mem_cons.mp hb with rfl | hb
      · right; decide
      rcases List.mem_append.mp hb with hb | hb
      · exact Or.inl (padded_digits _ _ b hb)
      · exact expText_bytes e b hb

theorem printF_printed (p : Nat) (x : F64) : Printed (printF p x) := by
  unfold printF
  split
  · exact special_printed x
  · refine printed_of (fun e => ?_) fun b hb => ?_
    · have := (List.append_eq_nil_iff.mp e).2
      have := (List.append_eq_nil_iff.mp this).2
      cases this
    · rcases List.mem_append.mp hb with hb | hb
      · exact minus_bytes x b hb
      rcases List.mem_append.mp hb with hb | hb
      · exact Or.inl ((decNat_jdigits _).2 b hb)
      rcases List.mem_cons.mp hb with rfl | hb
      · right; decide
      · exact Or.inl (padded_digits _ _ b hb)

theorem glibc_prints : PrintsNumbers glibc := fun x => ⟨printE_printed x, printF_printed 5 x⟩

theorem glibc_short : glibc.Short := fun x => (printE_length x).trans (by decide)

/-! ## Numbers of JSON -/

theorem expText_json (e : Int) : JExp (expText e) := by
  rcases expText_of e with ⟨h, -⟩ | ⟨d, hd, h | h⟩
  · exact Or.inl h
  · exact Or.inr ⟨lit "e", lit "+", d, h.1, Or.inl rfl, Or.inr (Or.inl rfl), hd⟩
  · exact Or.inr ⟨lit "e", lit "-", d, h.1, Or.inl rfl, Or.inr (Or.inr rfl), hd⟩

theorem minus_json (x : F64) : minus x = [] ∨ minus x = lit "-" := by
  unfold minus; split
  · right; rfl
  · left; rfl

theorem not_number_special (x : F64) : ¬ JNumber (specialText x) := by
  rintro ⟨m, i, f, e, h, hm, hi, -, -⟩
  have hd : ∃ c r, i = c :: r ∧ JDigit c := by
    rcases hi with rfl | ⟨⟨h1, h2⟩, -⟩
    · exact ⟨48, [], rfl, by decide, by decide⟩
    · cases i with
      | nil => exact absurd rfl h1
      | cons c r => exact ⟨c, r, rfl, h2 c (by simp)⟩
  obtain ⟨c, r, rfl, hc⟩ := hd
  have key : ∀ t : Str, (∀ b ∈ t, ¬ JDigit b) → c ∈ t → False := fun t ht hm => ht c hm hc
  refine key (specialText x) ?_ ?_
  · intro b hb
    unfold specialText minus at hb
    have : b ∈ ([45, 105, 110, 102, 97] : List UInt8) := by
      rcases List.mem_append.mp hb with hb | hb
      · split at hb
        · obtain rfl := List.mem_singleton.mp hb; decide
        · cases hb
      · split at hb
        · exact (by decide : ∀ b ∈ lit "inf", b ∈ ([45, 105, 110, 102, 97] : List UInt8)) b hb
        · exact (by decide : ∀ b ∈ lit "nan", b ∈ ([45, 105, 110, 102, 97] : List UInt8)) b hb
    exact (by decide : ∀ b ∈ ([45, 105, 110, 102, 97] : List UInt8), ¬ (48 ≤ b ∧ b ≤ 57)) b this
  · rw [h]; simp

theorem printE_json {x : F64} : JNumber (printE x) ↔ x.special = false := by
  cases h : x.special with
  | true =>
    unfold printE; rw [if_pos h]
    exact ⟨fun h => absurd h (not_number_special x), fun h => by cases h⟩
  | false =>
    obtain ⟨d, e, h1, -⟩ := printE_eq h
    rw [h1]
    refine ⟨fun _ => rfl, fun _ => ⟨minus x, decNat (d / 10 ^ 6), lit "." ++ padded 6 d, expText e, ?_, minus_json x, decNat_int _,
      Or.inr ⟨_, rfl, padded_jdigits (by decide) _⟩, expText_json e⟩⟩
    unfold sciText
    simp only [List.append_assoc]
    rfl

theorem printF_json {p : Nat} (hp : 0 < p) {x : F64} : JNumber (printF p x) ↔ x.special = false := by
  unfold printF
  cases h : x.special with
  | true =>
    rw [if_pos rfl]
    exact ⟨fun h => absurd h (not_number_special x), fun h => by cases h⟩
  | false =>
    rw [if_neg (by decide)]
    refine ⟨fun _ => rfl, fun _ => ⟨minus x, decNat (roundEven (x.abs * 10 ^ p) unit64 / 10 ^ p), lit "." ++ padded p (roundEven (x.abs * 10 ^ p) unit64), [],
      ?_, minus_json x, decNat_int _, Or.inr ⟨_, rfl, padded_jdigits hp _⟩, Or.inl rfl⟩⟩
    simp only [List.append_assoc, List.append_nil]
    rfl

end Verif.Tec
