import Verif.Proof.Printf1
/-!
# The numbers shown by `%le` and `%.plf`
-/
namespace Verif.Tec
open Spec Xml

theorem unit64_pos : 0 < unit64 := Nat.pow_pos (by decide)

theorem F64.scaled_eq (x : F64) : scaled 64 52 x.toNat = if x.neg then -(x.abs : Int) else (x.abs : Int) := by
  have hx := x.isLt
  have key : ∀ n, n < 2 ^ 63 → n % 2 ^ 52 = x.frac → n / 2 ^ 52 = x.expo → mag 52 n = x.abs := by
    intro n hn h1 h2
    unfold mag F64.abs
    rw [h1, h2]
  unfold scaled F64.neg
  by_cases h : x.toNat < 2 ^ (64 - 1)
  · rw [if_pos h, key _ h rfl (by unfold F64.expo; omega)]
    have : ¬(2 ^ 63 ≤ x.toNat) := by omega
    rw [decide_eq_false this]; rfl
  · rw [if_neg h, key (x.toNat - 2 ^ (64 - 1)) (by omega) (by unfold F64.frac; omega) (by unfold F64.expo; omega)]
    have : 2 ^ 63 ≤ x.toNat := by omega
    rw [decide_eq_true this]; rfl

theorem F64.finite_iff (x : F64) : IsFinite x ↔ x.special = false := by
  have hx := x.isLt
  unfold IsFinite finite F64.special F64.expo
  simp only [beq_eq_false_iff_ne, ne_eq]
  omega

/-- sign as a factor -/
def F64.sgn (x : F64) : ℚ := if x.neg then -1 else 1

theorem F64.real_eq (x : F64) : realVal x = x.sgn * ((x.abs : ℚ) / (unit64 : ℚ)) := by
  unfold realVal F64.sgn
  rw [x.scaled_eq]
  have e : ((unit64 : Nat) : ℚ) = 2 ^ 1074 := by unfold unit64; rw [Nat.cast_pow]; rfl
  rw [e]
  cases x.neg <;> simp [neg_div]

theorem F64.sgn_abs (x : F64) (a b : ℚ) : |x.sgn * a - x.sgn * b| = |a - b| := by
  unfold F64.sgn
  cases x.neg
  · simp
  · simp only [if_true]; rw [show (-1 : ℚ) * a - -1 * b = -(a - b) by ring, abs_neg]

theorem F64.real_abs (x : F64) : |realVal x| = (x.abs : ℚ) / (unit64 : ℚ) := by
  have h := x.sgn_abs ((x.abs : ℚ) / unit64) 0
  rw [mul_zero, sub_zero, sub_zero, ← x.real_eq] at h
  rw [h, abs_of_nonneg]
  positivity

theorem F64.abs_lt {x : F64} (h : x.special = false) : x.abs < 2 ^ 2098 := by
  have h1 : x.frac < 2 ^ 52 := Nat.mod_lt _ (by decide)
  have h2 : x.expo < 2047 := by
    have : x.expo < 2 ^ 11 := Nat.mod_lt _ (by decide)
    unfold F64.special at h
    have h := beq_eq_false_iff_ne.mp h
    omega
  unfold F64.abs
  split
  · exact lt_of_lt_of_le h1 (Nat.pow_le_pow_right (by decide) (by decide))
  · calc (2 ^ 52 + x.frac) * 2 ^ (x.expo - 1) < 2 ^ 53 * 2 ^ (x.expo - 1) := Nat.mul_lt_mul_of_pos_right (by omega) (Nat.pow_pos (by decide))
      _ ≤ 2 ^ 53 * 2 ^ 2045 := Nat.mul_le_mul_left _ (Nat.pow_le_pow_right (by decide) (by omega))
      _ = 2 ^ 2098 := by rw [← Nat.pow_add]

theorem minus_eq (x : F64) : minus x = if x.neg then lit "-" else [] := rfl

/-- digits before and after a point -/
theorem digits_split (p d : Nat) : digitsVal (decNat (d / 10 ^ p) ++ padded p d) = d := by
  rw [digitsVal_append, decNat_val, padded_val, padded_length, Nat.mul_comm, Nat.div_add_mod]

theorem padded_jdigits {p : Nat} (hp : 0 < p) (d : Nat) : JDigits (padded p d) := by
  refine ⟨fun e => ?_, padded_digits p d⟩
  have := padded_length p d
  rw [e] at this
  simp at this
  omega

theorem printF_shows {p : Nat} (hp : 0 < p) {x : F64} (h : x.special = false) :
    Denotes (printF p x) (x.sgn * ((roundEven (x.abs * 10 ^ p) unit64 : ℕ) : ℚ) * (10 : ℚ) ^ (0 - (p : Int))) := by
  unfold printF
  rw [h]
  refine ⟨x.neg, decNat (roundEven (x.abs * 10 ^ p) unit64 / 10 ^ p), padded p (roundEven (x.abs * 10 ^ p) unit64), [], 0, ?_, decNat_jdigits _,
    padded_jdigits hp _, Or.inl ⟨rfl, rfl⟩, ?_⟩
  · rw [List.append_nil]; rfl
  · rw [digits_split, padded_length]; rfl

theorem printF_error {p : Nat} (x : F64) :
    |x.sgn * ((roundEven (x.abs * 10 ^ p) unit64 : ℕ) : ℚ) * (10 : ℚ) ^ (0 - (p : Int)) - realVal x| ≤ 1 / 2 * (10 : ℚ) ^ (-(p : Int)) := by
  obtain ⟨h1, h2⟩ := roundEven_bound (x.abs * 10 ^ p) unit64_pos
  generalize roundEven (x.abs * 10 ^ p) unit64 = d at *
  rw [x.real_eq, mul_assoc, x.sgn_abs]
  have hu : (0 : ℚ) < (unit64 : ℚ) := by exact_mod_cast unit64_pos
  generalize unit64 = U at *
  have e : (10 : ℚ) ^ (0 - (p : Int)) = 1 / 10 ^ p := by rw [zero_sub, zpow_neg, zpow_natCast, one_div]
  have e' : (10 : ℚ) ^ (-(p : Int)) = 1 / 10 ^ p := by rw [zpow_neg, zpow_natCast, one_div]
  rw [e, e']
  have ht : (0 : ℚ) < 10 ^ p := by positivity
  have q1 : 2 * ((d : ℚ) * U) ≤ 2 * (x.abs * 10 ^ p) + U := by exact_mod_cast h1
  have q2 : 2 * ((x.abs : ℚ) * 10 ^ p) ≤ 2 * (d * U) + U := by exact_mod_cast h2
  generalize (10 : ℚ) ^ p = t at *
  have key : (d : ℚ) * (1 / t) - x.abs / U = (d * U - x.abs * t) / (t * U) := by field_simp
  rw [key, abs_le]
  constructor
  · rw [le_div_iff₀ (by positivity)]
    have : -(1 / 2 * (1 / t)) * (t * U) = -(U / 2) := by field_simp
    rw [this]; linarith
  · rw [div_le_iff₀ (by positivity)]
    have : 1 / 2 * (1 / t) * (t * U) = U / 2 := by field_simp
    rw [this]; linarith

/-! ## Scientific notation -/

theorem expText_of (e : Int) : ExpOf (expText e) e := by
  have hd : JDigits (if e.natAbs < 10 then 48 :: decNat e.natAbs else decNat e.natAbs) := by
    obtain ⟨h1, h2⟩ := decNat_jdigits e.natAbs
    split
    · refine ⟨by simp, fun b hb => ?_⟩
      rcases List.mem_cons.mp hb with rfl | hb
      · exact ⟨by decide, by decide⟩
      · exact h2 b hb
    · exact ⟨h1, h2⟩
  have hv : digitsVal (if e.natAbs < 10 then 48 :: decNat e.natAbs else decNat e.natAbs) = e.natAbs := by
    split
    · rw [show (48 : UInt8) :: decNat e.natAbs = [48] ++ decNat e.natAbs from rfl, digitsVal_append, decNat_val]
      show (10 * 0 + (48 - 48)) * _ + _ = _
      omega
    · exact decNat_val _
  refine Or.inr ⟨_, hd, ?_⟩
  rw [hv]
  unfold expText
  by_cases h : e < 0
  · rw [if_pos h]; exact Or.inr ⟨rfl, by omega⟩
  · rw [if_neg h]; exact Or.inl ⟨rfl, by omega⟩

theorem sci_shows (x : F64) (d : Nat) (e : Int) : Denotes (minus x ++ sciText d e) (x.sgn * (d : ℚ) * (10 : ℚ) ^ (e - 6)) := by
  refine ⟨x.neg, decNat (d / 10 ^ 6), padded 6 d, expText e, e, rfl, decNat_jdigits _, padded_jdigits (by decide) d, expText_of e, ?_⟩
  rw [digits_split, padded_length]; rfl

/-- the first digit of a number other than zero -/
theorem magnitude_bounds {x : F64} (h0 : x.abs ≠ 0) :
    1 ≤ magnitude x ∧ unit64 * 10 ^ (magnitude x - 1) ≤ x.abs * 10 ^ 324 ∧ x.abs * 10 ^ 324 < unit64 * 10 ^ magnitude x := by
  have hq : x.abs * 10 ^ 324 / unit64 ≠ 0 := by
    have h1 : unit64 ≤ 10 ^ 324 := by unfold unit64; decide +kernel
    have : 1 ≤ x.abs * 10 ^ 324 / unit64 := by
      rw [Nat.le_div_iff_mul_le unit64_pos, Nat.one_mul]
      exact le_trans h1 (Nat.le_mul_of_pos_left _ (by omega))
    omega
  have := decNat_length_bounds hq
  have hl : 1 ≤ (decNat (x.abs * 10 ^ 324 / unit64)).length := List.length_pos_iff.mpr (decNat_bytes _).1
  unfold magnitude
  obtain ⟨b1, b2⟩ := this
  refine ⟨hl, ?_, ?_⟩
  · rw [Nat.le_div_iff_mul_le unit64_pos] at b1
    rw [Nat.mul_comm]; exact b1
  · rw [Nat.div_lt_iff_lt_mul unit64_pos] at b2
    rw [Nat.mul_comm]; rw [Nat.mul_comm _ unit64] at b2; rw [Nat.mul_comm (10 ^ 324)] ; exact b2

theorem digits_bounds {M U k : Nat} (hU : 0 < U) (h2 : U * 10 ^ k ≤ M) (h3 : M < U * 10 ^ (k + 1)) :
    10 ^ 6 ≤ roundEven (M * 10 ^ 6) (U * 10 ^ k) ∧ roundEven (M * 10 ^ 6) (U * 10 ^ k) ≤ 10 ^ 7 := by
  have hp : 0 < U * 10 ^ k := Nat.mul_pos hU (Nat.pow_pos (by decide))
  constructor
  · apply le_roundEven hp
    rw [Nat.mul_comm]; exact Nat.mul_le_mul_right _ h2
  · apply roundEven_le hp
    rw [Nat.pow_succ, ← Nat.mul_assoc] at h3
    calc M * 10 ^ 6 ≤ (U * 10 ^ k * 10) * 10 ^ 6 := Nat.mul_le_mul_right _ (le_of_lt h3)
      _ = 10 ^ 7 * (U * 10 ^ k) := by ring

theorem sciDigits_bounds {x : F64} (h0 : x.abs ≠ 0) : 10 ^ 6 ≤ sciDigits x ∧ sciDigits x ≤ 10 ^ 7 := by
  obtain ⟨h1, h2, h3⟩ := magnitude_bounds h0
  have e : x.abs * 10 ^ 330 = x.abs * 10 ^ 324 * 10 ^ 6 := by rw [Nat.mul_assoc, ← Nat.pow_add]
  unfold sciDigits
  rw [e]
  exact digits_bounds unit64_pos h2 (by rw [Nat.sub_add_cancel h1]; exact h3)

theorem error_bound {a d U s t r : ℚ} (hU : 0 < U) (hs : 0 < s) (ht : 0 < t) (er : r = t * 10 ^ 6) (ha : 0 ≤ a)
    (q1 : 2 * (d * (U * s)) ≤ 2 * (a * r) + U * s) (q2 : 2 * (a * r) ≤ 2 * (d * (U * s)) + U * s) (q3 : U * s ≤ a * t) :
    |d * (s / r) - a / U| ≤ 5 / 10 ^ 7 * (a / U) := by
  subst er
  have key : d * (s / (t * 10 ^ 6)) - a / U = (d * (U * s) - a * (t * 10 ^ 6)) / (t * 10 ^ 6 * U) := by field_simp
  have rhs : (5 : ℚ) / 10 ^ 7 * (a / U) = (a * t / 2) / (t * 10 ^ 6 * U) := by field_simp; ring
  rw [key, rhs, abs_le, ← neg_div]
  constructor
  · apply div_le_div_of_nonneg_right _ (by positivity)
    linarith
  · apply div_le_div_of_nonneg_right _ (by positivity)
    linarith

theorem zpow_ten (k n : Nat) : (10 : ℚ) ^ ((k : Int) - (n : Int)) = 10 ^ k / 10 ^ n := by
  rw [zpow_sub₀ (by norm_num), zpow_natCast, zpow_natCast]

/-- seven digits are exact to a relative error of 5e-7 -/
theorem sci_error {x : F64} (h0 : x.abs ≠ 0) :
    |x.sgn * (sciDigits x : ℚ) * (10 : ℚ) ^ ((magnitude x : Int) - 325 - 6) - realVal x| ≤ 5 / 10 ^ 7 * |realVal x| := by
  obtain ⟨h1, h2, h3⟩ := magnitude_bounds h0
  have hp : 0 < unit64 * 10 ^ (magnitude x - 1) := Nat.mul_pos unit64_pos (Nat.pow_pos (by decide))
  obtain ⟨b1, b2⟩ := roundEven_bound (x.abs * 10 ^ 330) hp
  rw [x.real_abs, x.real_eq, mul_assoc, x.sgn_abs]
  change 2 * (sciDigits x * _) ≤ _ at b1
  change _ ≤ 2 * (sciDigits x * _) + _ at b2
  generalize sciDigits x = d at *
  have hk : magnitude x = magnitude x - 1 + 1 := by omega
  generalize magnitude x - 1 = k at *
  have hu : (0 : ℚ) < (unit64 : ℚ) := by exact_mod_cast unit64_pos
  rw [hk, show ((k + 1 : ℕ) : Int) - 325 - 6 = (k : Int) - ((330 : ℕ) : Int) by push_cast; ring, zpow_ten]
  generalize unit64 = U at *
  generalize x.abs = a at *
  exact error_bound (t := 10 ^ 324) hu (by positivity) (by positivity) (by rw [← pow_add]) (by positivity)
    (by exact_mod_cast b1) (by exact_mod_cast b2) (by exact_mod_cast h2)

end Verif.Tec
