import Mathlib.Tactic.Ring
import Mathlib.Tactic.Linarith
import Verif.Spec.TecMinMax
import Verif.Model.Tec.Zone
/-!
# Lemmas about conversions to `double`
-/
namespace Verif.Tec

theorem mag_lt (p n : Nat) : mag p n < 2 ^ (p + n / 2 ^ p) := by
  unfold mag
  have hf : n % 2 ^ p < 2 ^ p := Nat.mod_lt _ (by positivity)
  split
  · rename_i h; rw [h]; simpa using hf
  · rename_i h
    obtain ⟨e, he⟩ := Nat.exists_eq_succ_of_ne_zero h
    rw [Nat.succ_eq_add_one] at he
    rw [he, Nat.add_sub_cancel, show p + (e + 1) = p + 1 + e by omega, Nat.pow_add 2 (p + 1)]
    apply Nat.mul_lt_mul_of_pos_right _ (by positivity)
    rw [Nat.pow_succ]; omega

theorem mag_ge (p n : Nat) (h : n / 2 ^ p ≠ 0) : 2 ^ (p + n / 2 ^ p - 1) ≤ mag p n := by
  unfold mag
  rw [if_neg h]
  obtain ⟨e, he⟩ := Nat.exists_eq_succ_of_ne_zero h
  rw [Nat.succ_eq_add_one] at he
  rw [he, Nat.add_sub_cancel, show p + (e + 1) - 1 = p + e by omega, Nat.pow_add]
  apply Nat.mul_le_mul_right; omega

theorem mag_mono (p : Nat) {n m : Nat} (h : n ≤ m) : mag p n ≤ mag p m := by
  have he : n / 2 ^ p ≤ m / 2 ^ p := Nat.div_le_div_right h
  rcases Nat.lt_or_eq_of_le he with h1 | h1
  · have a := mag_lt p n
    have b := mag_ge p m (Nat.ne_of_gt (Nat.lt_of_le_of_lt (Nat.zero_le _) h1))
    have : 2 ^ (p + n / 2 ^ p) ≤ 2 ^ (p + m / 2 ^ p - 1) := by
      apply Nat.pow_le_pow_right (by omega)
      generalize n / 2 ^ p = x at *; generalize m / 2 ^ p = y at *; omega
    exact Nat.le_of_lt (Nat.lt_of_lt_of_le a (this.trans b))
  · have hn := Nat.div_add_mod n (2 ^ p)
    have hm := Nat.div_add_mod m (2 ^ p)
    rw [h1] at hn
    have hf : n % 2 ^ p ≤ m % 2 ^ p := by omega
    unfold mag
    rw [h1]
    split
    · exact hf
    · apply Nat.mul_le_mul_right; omega

theorem mag_zero (p : Nat) : mag p 0 = 0 := by simp [mag]

/-- the order of the patterns is the order of the values -/
theorem scaled_mono {w p a b : Nat} (h : ieeeKey w a ≤ ieeeKey w b) : scaled w p a ≤ scaled w p b := by
  unfold ieeeKey at h
  unfold scaled
  have hW : ((2 : Int) ^ (w - 1)) = ((2 ^ (w - 1) : Nat) : Int) := by push_cast; rfl
  rw [hW] at h
  generalize 2 ^ (w - 1) = W at *
  by_cases ha : a < W <;> by_cases hb : b < W
  · rw [if_pos ha, if_pos hb] at *
    have := mag_mono p (n := a) (m := b) (by omega)
    omega
  · rw [if_pos ha, if_neg hb] at *
    have h1 : a = 0 := by omega
    have h2 : b - W = 0 := by omega
    rw [h1, h2, mag_zero]; omega
  · rw [if_neg ha, if_pos hb] at *
    omega
  · rw [if_neg ha, if_neg hb] at *
    have := mag_mono p (n := b - W) (m := a - W) (by omega)
    omega

theorem mag_mk {p e f : Nat} (he : e ≠ 0) (hf : f < 2 ^ p) : mag p (e * 2 ^ p + f) = (2 ^ p + f) * 2 ^ (e - 1) := by
  have h1 : (e * 2 ^ p + f) / 2 ^ p = e := by
    rw [Nat.add_comm, Nat.add_mul_div_right _ _ (by positivity), Nat.div_eq_of_lt hf, Nat.zero_add]
  have h2 : (e * 2 ^ p + f) % 2 ^ p = f := by
    rw [Nat.add_comm, Nat.add_mul_mod_self_right, Nat.mod_eq_of_lt hf]
  unfold mag
  rw [h1, h2, if_neg he]

/-- a number with at most 53 bits, normalised -/
theorem norm53 {m : Nat} (h0 : m ≠ 0) (h : m.log2 ≤ 52) :
    2 ^ 52 ≤ m * 2 ^ (52 - m.log2) ∧ m * 2 ^ (52 - m.log2) < 2 ^ 53 := by
  have h1 : 2 ^ m.log2 ≤ m := Nat.log2_self_le h0
  have h2 : m < 2 ^ (m.log2 + 1) := Nat.lt_log2_self
  generalize m.log2 = e at *
  constructor
  · calc 2 ^ 52 = 2 ^ e * 2 ^ (52 - e) := by rw [← Nat.pow_add]; congr 1; omega
      _ ≤ _ := Nat.mul_le_mul_right _ h1
  · calc m * 2 ^ (52 - e) < 2 ^ (e + 1) * 2 ^ (52 - e) := Nat.mul_lt_mul_of_pos_right h2 (by positivity)
      _ = 2 ^ 53 := by rw [← Nat.pow_add]; congr 1; omega

theorem scaled_sign {n : Nat} (hn : n < 2 ^ 63) (s : Bool) :
    scaled 64 52 ((if s then 2 ^ 63 else 0) + n) = if s then -(mag 52 n : Int) else mag 52 n := by
  unfold scaled
  cases s with
  | true =>
    simp only [if_true, Nat.reduceSub]
    rw [if_neg (by omega), Nat.add_sub_cancel_left]
  | false =>
    simp only [Bool.false_eq_true, if_false, Nat.reduceSub, Nat.zero_add]
    rw [if_pos hn]

theorem f64OfInt_exact {x : Int} (h : x.natAbs < 2 ^ 53) : scaled 64 52 (f64OfInt x).toNat = x * 2 ^ 1074 := by
  unfold f64OfInt
  by_cases h0 : x = 0
  · subst h0; rw [if_pos rfl, Int.zero_mul]; decide
  · rw [if_neg h0]
    have hm0 : x.natAbs ≠ 0 := by omega
    have hl : x.natAbs.log2 ≤ 52 := by
      have := Nat.log2_self_le hm0
      by_contra hc
      have : 2 ^ 53 ≤ 2 ^ x.natAbs.log2 := Nat.pow_le_pow_right (by omega) (by omega)
      omega
    obtain ⟨n1, n2⟩ := norm53 hm0 hl
    simp only []
    generalize hM : x.natAbs * 2 ^ (52 - x.natAbs.log2) = M at *
    have hpay : (1023 + x.natAbs.log2) * 2 ^ 52 + (M - 2 ^ 52) < 2 ^ 63 := by
      have : 1023 + x.natAbs.log2 ≤ 1075 := by omega
      omega
    rw [BitVec.toNat_ofNat, Nat.mod_eq_of_lt (by split <;> omega)]
    have hs := scaled_sign hpay (decide (x < 0))
    simp only [decide_eq_true_eq] at hs
    rw [Nat.add_assoc, hs, mag_mk (by omega) (by omega), show 2 ^ 52 + (M - 2 ^ 52) = M by omega, ← hM]
    have e : x.natAbs * 2 ^ (52 - x.natAbs.log2) * 2 ^ (1023 + x.natAbs.log2 - 1) = x.natAbs * 2 ^ 1074 := by
      rw [Nat.mul_assoc, ← Nat.pow_add, show 52 - x.natAbs.log2 + (1023 + x.natAbs.log2 - 1) = 1074 by omega]
    rw [e]
    by_cases hx : x < 0
    · rw [if_pos hx]
      have : (x.natAbs : Int) = -x := by omega
      push_cast; rw [Int.natCast_natAbs] at this; rw [this, Int.neg_mul, Int.neg_neg]
    · rw [if_neg hx]
      have : (x.natAbs : Int) = x := by omega
      push_cast; rw [Int.natCast_natAbs] at this; rw [this]

theorem f64OfF32_exact {n : Nat} (hn : n < 2 ^ 32) (hf : finite 32 23 n) :
    scaled 64 52 (f64OfF32 n).toNat = scaled 32 23 n * 2 ^ 925 := by
  unfold finite at hf
  simp only [Nat.reduceSub, Nat.reducePow, Nat.reduceMul] at hf
  have hs : n / 2 ^ 31 = 0 ∧ n < 2 ^ 31 ∨ n / 2 ^ 31 = 1 ∧ ¬ n < 2 ^ 31 := by omega
  have he : n / 2 ^ 23 % 256 = n % 2 ^ 31 / 2 ^ 23 := by omega
  have hfr : n % 2 ^ 23 = n % 2 ^ 31 % 2 ^ 23 := by omega
  -- the magnitude
  have key : ∀ q, q < 2139095040 → ∃ r, r < 2 ^ 63 ∧ mag 52 r = mag 23 q * 2 ^ 925 ∧
      (if q / 2 ^ 23 = 255 then 2047 * 2 ^ 52 + q % 2 ^ 23 * 2 ^ 29
     else if q / 2 ^ 23 ≠ 0 then (q / 2 ^ 23 + 896) * 2 ^ 52 + q % 2 ^ 23 * 2 ^ 29
     else if q % 2 ^ 23 = 0 then 0
     else (((q % 2 ^ 23).log2 + 874) * 2 ^ 52 + (q % 2 ^ 23 * 2 ^ (52 - (q % 2 ^ 23).log2) - 2 ^ 52))) = r := by
    intro q hq
    rw [if_neg (by omega)]
    have hfl : q % 2 ^ 23 < 2 ^ 23 := Nat.mod_lt _ (by decide)
    by_cases h0 : q / 2 ^ 23 ≠ 0
    · rw [if_pos h0]
      refine ⟨_, ?_, ?_, rfl⟩
      · omega
      · rw [mag_mk (by omega) (by omega)]
        unfold mag
        rw [if_neg h0]
        obtain ⟨e, he⟩ : ∃ e, q / 2 ^ 23 = e + 1 := ⟨q / 2 ^ 23 - 1, by omega⟩
        rw [he, show e + 1 + 896 - 1 = 29 + 1 + e + 866 by omega, Nat.add_sub_cancel]
        rw [show 2 ^ 52 + q % 2 ^ 23 * 2 ^ 29 = (2 ^ 23 + q % 2 ^ 23) * 2 ^ 29 by rw [Nat.add_mul, ← Nat.pow_add]]
        rw [Nat.mul_assoc, Nat.mul_assoc, ← Nat.pow_add, ← Nat.pow_add, show 29 + (29 + 1 + e + 866) = e + 925 by omega]
    · rw [if_neg h0]
      have h0' : q / 2 ^ 23 = 0 := by omega
      by_cases h1 : q % 2 ^ 23 = 0
      · rw [if_pos h1]
        have : q = 0 := by omega
        subst this
        exact ⟨0, by decide, by rw [mag_zero, mag_zero, Nat.zero_mul], rfl⟩
      · rw [if_neg h1]
        have hl : (q % 2 ^ 23).log2 ≤ 22 := by
          have := Nat.log2_self_le h1
          by_contra hc
          have : 2 ^ 23 ≤ 2 ^ (q % 2 ^ 23).log2 := Nat.pow_le_pow_right (by omega) (by omega)
          omega
        obtain ⟨n1, n2⟩ := norm53 h1 (by omega)
        refine ⟨_, ?_, ?_, rfl⟩
        · generalize (q % 2 ^ 23) * 2 ^ (52 - (q % 2 ^ 23).log2) = M at *
          omega
        · rw [mag_mk (by omega) (by generalize (q % 2 ^ 23) * 2 ^ (52 - (q % 2 ^ 23).log2) = M at *; omega)]
          rw [Nat.add_sub_cancel' n1]
          unfold mag
          rw [if_pos h0', Nat.mul_assoc, ← Nat.pow_add]
          generalize (q % 2 ^ 23).log2 = L at *
          rw [show 52 - L + (L + 874 - 1) = 925 by omega]
  obtain ⟨r, hr, hmag, hval⟩ := key (n % 2 ^ 31) (by omega)
  unfold f64OfF32
  simp only []
  rw [he, hfr, hval]
  rcases hs with ⟨h1, h2⟩ | ⟨h1, h2⟩
  · rw [h1, Nat.zero_mul, Nat.zero_add, BitVec.toNat_ofNat, Nat.mod_eq_of_lt (by omega)]
    have := scaled_sign hr false
    simp only [Bool.false_eq_true, if_false, Nat.zero_add] at this
    rw [this, hmag]
    unfold scaled
    rw [if_pos (by exact h2), Nat.mod_eq_of_lt h2]
    push_cast; rfl
  · rw [h1, Nat.one_mul, BitVec.toNat_ofNat, Nat.mod_eq_of_lt (by omega)]
    have := scaled_sign hr true
    simp only [if_true] at this
    rw [this, hmag]
    unfold scaled
    rw [if_neg (by exact h2), show n % 2 ^ 31 = n - 2 ^ (32 - 1) by simp only [Nat.reduceSub]; omega]
    push_cast; rw [Int.neg_mul]

end Verif.Tec
