import Verif.Proof.Scanf1
/-!
# The number read is the nearest `double`
-/
namespace Verif.Tec
open Spec Xml Json

/-- the exponent chosen by `nearest` -/
theorem nearest_exp (n : Nat) {q : Nat} (hq : 0 < q) : ∃ e f, nearest n q = min (e * 2 ^ 52 + f) (2047 * 2 ^ 52) ∧
    f = roundEven (n * unit64) (q * 2 ^ e) ∧ (0 < e → q * 2 ^ (52 + e) ≤ n * unit64) ∧ n * unit64 < q * 2 ^ (53 + e) ∧ f ≤ 2 ^ 53 ∧ (0 < e → 2 ^ 52 ≤ f) := by
  refine ⟨Nat.log2 (n * unit64 / q) - 52, _, rfl, rfl, ?_⟩
  generalize n * unit64 = N
  have h1 : ∀ e, e = Nat.log2 (N / q) - 52 → (0 < e → q * 2 ^ (52 + e) ≤ N) ∧ N < q * 2 ^ (53 + e) := by
    intro e he
    have hlt : N / q < 2 ^ (53 + e) := lt_of_lt_of_le Nat.lt_log2_self (Nat.pow_le_pow_right (by decide) (by omega))
    rw [Nat.div_lt_iff_lt_mul hq, Nat.mul_comm] at hlt
    refine ⟨fun h => ?_, hlt⟩
    have h0 : N / q ≠ 0 := by
      intro h0
      rw [h0, Nat.log2_zero] at he
      omega
    have := Nat.log2_self_le h0
    rw [show 52 + e = Nat.log2 (N / q) by omega, Nat.mul_comm]
    exact (Nat.le_div_iff_mul_le hq).mp this
  obtain ⟨a, b⟩ := h1 _ rfl
  generalize Nat.log2 (N / q) - 52 = e at *
  have hp : 0 < q * 2 ^ e := Nat.mul_pos hq (Nat.pow_pos (by decide))
  refine ⟨a, b, roundEven_le hp ?_, fun h => le_roundEven hp ?_⟩
  · rw [Nat.pow_add] at b
    calc N ≤ q * (2 ^ 53 * 2 ^ e) := le_of_lt b
      _ = 2 ^ 53 * (q * 2 ^ e) := by rw [Nat.mul_left_comm]
  · have := a h
    rw [Nat.pow_add] at this
    calc 2 ^ 52 * (q * 2 ^ e) = q * (2 ^ 52 * 2 ^ e) := by rw [Nat.mul_left_comm]
      _ ≤ N := this

theorem mag_pattern {e f : Nat} (h1 : f ≤ 2 ^ 53) (h2 : 0 < e → 2 ^ 52 ≤ f) : mag 52 (e * 2 ^ 52 + f) = f * 2 ^ e := by
  unfold mag
  by_cases c1 : f < 2 ^ 52
  · obtain rfl : e = 0 := by
      by_contra h
      have := h2 (by omega)
      omega
    rw [if_pos (by omega), Nat.pow_zero, Nat.mul_one, Nat.zero_mul, Nat.zero_add, Nat.mod_eq_of_lt c1]
  · by_cases c2 : f = 2 ^ 53
    · subst c2
      have d : (e * 2 ^ 52 + 2 ^ 53) / 2 ^ 52 = e + 2 := by omega
      have m : (e * 2 ^ 52 + 2 ^ 53) % 2 ^ 52 = 0 := by omega
      rw [d, m, if_neg (by omega), show e + 2 - 1 = e + 1 by omega, Nat.pow_succ]
      ring
    · have d : (e * 2 ^ 52 + f) / 2 ^ 52 = e + 1 := by omega
      have m : (e * 2 ^ 52 + f) % 2 ^ 52 = f - 2 ^ 52 := by omega
      rw [d, m, if_neg (by omega), show 2 ^ 52 + (f - 2 ^ 52) = f by omega, show e + 1 - 1 = e by omega]

/-- the pattern with a sign -/
theorem withSign_parts (neg : Bool) {p : Nat} (h : p ≤ 2047 * 2 ^ 52) :
    (withSign neg p).neg = neg ∧ ((withSign neg p).special = false ↔ p < 2047 * 2 ^ 52) ∧ (p < 2047 * 2 ^ 52 → (withSign neg p).abs = mag 52 p) := by
  have e : (withSign neg p).toNat = if neg then 2 ^ 63 + p else p := by
    unfold withSign
    rw [BitVec.toNat_ofNat, Nat.mod_eq_of_lt]
    split <;> omega
  refine ⟨?_, ?_, fun hp => ?_⟩
  · unfold F64.neg; rw [e]; cases neg <;> simp <;> omega
  · unfold F64.special F64.expo
    rw [beq_eq_false_iff_ne, e]
    cases neg <;> simp <;> omega
  · unfold F64.abs F64.expo F64.frac mag
    rw [e]
    have d : (if neg then 2 ^ 63 + p else p) / 2 ^ 52 % 2 ^ 11 = p / 2 ^ 52 := by cases neg <;> simp <;> omega
    have m : (if neg then 2 ^ 63 + p else p) % 2 ^ 52 = p % 2 ^ 52 := by cases neg <;> simp <;> omega
    rw [d, m]

/-- no multiple of `b` is nearer -/
theorem roundEven_nearest (a : Nat) {b : Nat} (hb : 0 < b) (m : Int) : |((roundEven a b : Int) * b - a)| ≤ |m * b - a| := by
  obtain ⟨h1, h2⟩ := roundEven_bound a hb
  generalize roundEven a b = f at *
  have h1 : 2 * ((f : Int) * b) ≤ 2 * a + b := by exact_mod_cast h1
  have h2 : 2 * (a : Int) ≤ 2 * ((f : Int) * b) + b := by exact_mod_cast h2
  have hb : (0 : Int) < b := by exact_mod_cast hb
  rcases lt_trichotomy m f with h | h | h
  · have : m * b ≤ ((f : Int) - 1) * b := mul_le_mul_of_nonneg_right (by omega) (le_of_lt hb)
    rw [sub_mul, one_mul] at this
    rw [abs_le]
    constructor
    · have := neg_abs_le (m * b - a); omega
    · have := neg_abs_le (m * b - a); omega
  · subst h; exact le_refl _
  · have : ((f : Int) + 1) * b ≤ m * b := mul_le_mul_of_nonneg_right (by omega) (le_of_lt hb)
    rw [add_mul, one_mul] at this
    rw [abs_le]
    constructor
    · have := le_abs_self (m * b - a); omega
    · have := le_abs_self (m * b - a); omega

/-- a number of the format is a multiple of 2^e or below 2^(52+e) -/
theorem F64.grid (y : F64) (e : Nat) : (∃ m, y.abs = m * 2 ^ e) ∨ (y.abs < 2 ^ (52 + e) ∧ 0 < e) := by
  have h1 : y.frac < 2 ^ 52 := Nat.mod_lt _ (by decide)
  by_cases he : e = 0
  · subst he; exact Or.inl ⟨y.abs, by simp⟩
  by_cases h0 : y.expo = 0
  · refine Or.inr ⟨?_, by omega⟩
    unfold F64.abs
    rw [if_pos h0]
    exact lt_of_lt_of_le h1 (Nat.pow_le_pow_right (by decide) (by omega))
  · unfold F64.abs
    rw [if_neg h0]
    by_cases hc : e ≤ y.expo - 1
    · left
      refine ⟨(2 ^ 52 + y.frac) * 2 ^ (y.expo - 1 - e), ?_⟩
      rw [Nat.mul_assoc, ← Nat.pow_add, Nat.sub_add_cancel hc]
    · right
      refine ⟨?_, by omega⟩
      calc (2 ^ 52 + y.frac) * 2 ^ (y.expo - 1) < 2 ^ 53 * 2 ^ (y.expo - 1) := Nat.mul_lt_mul_of_pos_right (by omega) (Nat.pow_pos (by decide))
        _ = 2 ^ (53 + (y.expo - 1)) := by rw [Nat.pow_add]
        _ ≤ 2 ^ (52 + e) := Nat.pow_le_pow_right (by decide) (by omega)

theorem nearest_le (n q : Nat) : nearest n q ≤ 2047 * 2 ^ 52 := Nat.min_le_right _ _

/-- the pattern found, if it is finite, is that of the nearest number -/
theorem nearest_abs (neg : Bool) (n : Nat) {q : Nat} (hq : 0 < q) (hf : nearest n q < 2047 * 2 ^ 52) (y : F64) :
    |((withSign neg (nearest n q)).abs : Int) * q - n * unit64| ≤ |(y.abs : Int) * q - n * unit64| := by
  rw [(withSign_parts neg (nearest_le n q)).2.2 hf]
  obtain ⟨e, f, h1, h2, h3, h4, h5, h6⟩ := nearest_exp n hq
  have h7 : nearest n q = e * 2 ^ 52 + f := by rw [h1] at hf ⊢; omega
  rw [h7, mag_pattern h5 h6]
  have hp : 0 < q * 2 ^ e := Nat.mul_pos hq (Nat.pow_pos (by decide))
  have key := roundEven_nearest (n * unit64) hp
  rw [← h2] at key
  generalize hN : n * unit64 = N at *
  have hN' : (n : Int) * (unit64 : Int) = N := by exact_mod_cast hN
  rw [hN']
  have el : ((f * 2 ^ e : Nat) : Int) * q = (f : Int) * ((q * 2 ^ e : Nat) : Int) := by push_cast; ring
  rw [el]
  rcases y.grid e with ⟨m, hm⟩ | ⟨hy, he⟩
  · have := key m
    rw [hm]
    have er : ((m * 2 ^ e : Nat) : Int) * q = (m : Int) * ((q * 2 ^ e : Nat) : Int) := by push_cast; ring
    rw [er]; exact this
  · refine (key (2 ^ 52)).trans ?_
    have a1 : (2 : Int) ^ 52 * ((q * 2 ^ e : Nat) : Int) = ((q * 2 ^ (52 + e) : Nat) : Int) := by
      rw [Nat.pow_add]; push_cast; ring
    have a2 := h3 he
    have a3 : y.abs * q ≤ q * 2 ^ (52 + e) := by rw [Nat.mul_comm]; exact Nat.mul_le_mul_left _ (le_of_lt hy)
    rw [a1]
    generalize q * 2 ^ (52 + e) = A at *
    have a4 : (y.abs : Int) * q = ((y.abs * q : Nat) : Int) := by push_cast; rfl
    rw [a4]
    generalize y.abs * q = B at *
    rw [abs_of_nonpos (by omega), abs_of_nonpos (by omega)]
    omega

/-- the largest finite magnitude -/
def maxAbs : Nat := (2 ^ 53 - 1) * 2 ^ 2045

theorem maxAbs_lt : maxAbs < 2 ^ 2098 := by unfold maxAbs; decide +kernel

theorem F64.abs_le {x : F64} (h : x.special = false) : x.abs ≤ maxAbs := by
  have h1 : x.frac < 2 ^ 52 := Nat.mod_lt _ (by decide)
  have h2 : x.expo < 2047 := by
    have : x.expo < 2 ^ 11 := Nat.mod_lt _ (by decide)
    unfold F64.special at h
    have h := beq_eq_false_iff_ne.mp h
    omega
  unfold F64.abs maxAbs
  split
  · have h3 : x.frac ≤ 2 ^ 53 - 1 := by omega
    have h4 : 0 < 2 ^ 2045 := Nat.pow_pos (by decide)
    generalize 2 ^ 2045 = P at *
    exact h3.trans (Nat.le_mul_of_pos_right _ h4)
  · exact Nat.mul_le_mul (by omega) (Nat.pow_le_pow_right (by decide) (by omega))

/-- a number that is not larger than the largest finite number is read as a finite one -/
theorem nearest_lt (n : Nat) {q : Nat} (hq : 0 < q) (h : n * unit64 ≤ maxAbs * q) : nearest n q < 2047 * 2 ^ 52 := by
  obtain ⟨e, f, h1, h2, h3, h4, h5, h6⟩ := nearest_exp n hq
  generalize n * unit64 = N at *
  have he : e ≤ 2045 := by
    by_contra hc
    have a1 := h3 (by omega)
    have a2 : q * 2 ^ 2098 ≤ q * 2 ^ (52 + e) := Nat.mul_le_mul_left _ (Nat.pow_le_pow_right (by decide) (by omega))
    have a3 : maxAbs * q < q * 2 ^ 2098 := by
      rw [Nat.mul_comm]
      refine Nat.mul_lt_mul_of_pos_left ?_ hq
      exact maxAbs_lt
    exact absurd (lt_of_le_of_lt h a3) (not_lt.mpr (a2.trans a1))
  have : e * 2 ^ 52 + f < 2047 * 2 ^ 52 := by
    by_cases hc : e = 2045
    · subst hc
      have : f ≤ 2 ^ 53 - 1 := by
        rw [h2]
        refine roundEven_le (Nat.mul_pos hq (Nat.pow_pos (by decide))) (h.trans (le_of_eq ?_))
        unfold maxAbs
        rw [Nat.mul_assoc, Nat.mul_comm (2 ^ 2045) q]
      omega
    · omega
  rw [h1]
  omega

end Verif.Tec
