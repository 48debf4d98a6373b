import Verif.Proof.XmlFloat1
/-!
# The text of a `float` and what is read of it
-/
namespace Verif.Tec
open Spec Xml Json

/-- two numbers differ by at least 2^-24 of their size -/
theorem mag32_gap (x y : Nat) (h : mag 23 y ≠ mag 23 x) : mag 23 x ≤ 2 ^ 24 * Nat.dist (mag 23 y) (mag 23 x) := by
  have hd : 1 ≤ Nat.dist (mag 23 y) (mag 23 x) := by unfold Nat.dist; omega
  have h1 : x % 2 ^ 23 < 2 ^ 23 := Nat.mod_lt _ (by decide)
  by_cases h0 : x / 2 ^ 23 = 0
  · have : mag 23 x = x % 2 ^ 23 := by unfold mag; rw [if_pos h0]
    omega
  · have hx : mag 23 x = (2 ^ 23 + x % 2 ^ 23) * 2 ^ (x / 2 ^ 23 - 1) := by unfold mag; rw [if_neg h0]
    generalize x / 2 ^ 23 - 1 = e at *
    have lt : mag 23 x < 2 ^ 24 * 2 ^ e := by
      rw [hx]; exact Nat.mul_lt_mul_of_pos_right (by omega) (Nat.pow_pos (by decide))
    rcases mag32_grid y e with ⟨m, hm⟩ | ⟨hy, he⟩
    · have g : 2 ^ e ≤ Nat.dist (mag 23 y) (mag 23 x) := by
        rw [hm, hx]; exact mul_gap (by rw [← hm, ← hx]; exact h)
      exact le_trans (le_of_lt lt) (Nat.mul_le_mul_left _ g)
    · obtain ⟨e', rfl⟩ : ∃ e', e = e' + 1 := ⟨e - 1, by omega⟩
      have hp : 0 < 2 ^ e' := Nat.pow_pos (by decide)
      have ex : mag 23 x = 2 * (2 ^ 23 + x % 2 ^ 23) * 2 ^ e' := by rw [hx, Nat.pow_succ]; ring
      have ey : mag 23 y < 2 ^ 24 * 2 ^ e' := by
        calc _ < _ := hy
          _ = _ := by rw [show 23 + (e' + 1) = 24 + e' by omega, Nat.pow_add]
      by_cases hf : x % 2 ^ 23 = 0
      · rw [hf] at ex
        rcases mag32_grid y e' with ⟨m, hm⟩ | ⟨hy', -⟩
        · have g : 2 ^ e' ≤ Nat.dist (mag 23 y) (mag 23 x) := by
            rw [hm, ex]; exact mul_gap (by rw [← hm, ← ex]; exact h)
          refine le_trans (le_of_eq ?_) (Nat.mul_le_mul_left _ g)
          rw [ex, Nat.add_zero, ← Nat.pow_succ']
        · rw [Nat.pow_add] at hy'
          generalize 2 ^ e' = P at *
          unfold Nat.dist
          omega
      · have : (2 * (2 ^ 23 + 1)) * 2 ^ e' ≤ mag 23 x := by rw [ex]; exact Nat.mul_le_mul_right _ (by omega)
        rw [Nat.pow_succ] at lt
        generalize 2 ^ e' = P at *
        unfold Nat.dist
        omega

theorem mag32_inj {x y : Nat} (h : mag 23 x = mag 23 y) : x / 2 ^ 23 = y / 2 ^ 23 ∧ x % 2 ^ 23 = y % 2 ^ 23 := by
  have h1 : x % 2 ^ 23 < 2 ^ 23 := Nat.mod_lt _ (by decide)
  have h2 : y % 2 ^ 23 < 2 ^ 23 := Nat.mod_lt _ (by decide)
  have key : ∀ x y : Nat, x % 2 ^ 23 < 2 ^ 23 → y % 2 ^ 23 < 2 ^ 23 → mag 23 x = mag 23 y → x / 2 ^ 23 ≤ y / 2 ^ 23 := by
    intro x y h1 h2 h
    by_contra hc
    unfold mag at h
    rw [if_neg (by omega)] at h
    have e1 : 2 ^ (y / 2 ^ 23 - 1) ≤ 2 ^ (x / 2 ^ 23 - 1) := Nat.pow_le_pow_right (by decide) (by omega)
    have p1 : 1 ≤ 2 ^ (x / 2 ^ 23 - 1) := Nat.pow_pos (by decide)
    have p2 : 2 ^ 23 * 2 ^ (x / 2 ^ 23 - 1) ≤ (2 ^ 23 + x % 2 ^ 23) * 2 ^ (x / 2 ^ 23 - 1) := Nat.mul_le_mul_right _ (by omega)
    split at h
    · omega
    · have e2 : 2 * 2 ^ (y / 2 ^ 23 - 1) ≤ 2 ^ (x / 2 ^ 23 - 1) := by
        rw [← Nat.pow_succ']; exact Nat.pow_le_pow_right (by decide) (by omega)
      have p3 : 0 < 2 ^ (y / 2 ^ 23 - 1) := Nat.pow_pos (by decide)
      have p4 : (2 ^ 23 + y % 2 ^ 23) * 2 ^ (y / 2 ^ 23 - 1) < 2 ^ 24 * 2 ^ (y / 2 ^ 23 - 1) := Nat.mul_lt_mul_of_pos_right (by omega) p3
      omega
  have he : x / 2 ^ 23 = y / 2 ^ 23 := Nat.le_antisymm (key x y h1 h2 h) (key y x h2 h1 h.symm)
  refine ⟨he, ?_⟩
  unfold mag at h
  rw [he] at h
  split at h
  · exact h
  · have := Nat.eq_of_mul_eq_mul_right (Nat.pow_pos (by decide)) h
    omega

theorem dist_cast (A B : Nat) : ((Nat.dist A B : Nat) : ℚ) = |(A : ℚ) - (B : ℚ)| := by
  unfold Nat.dist
  rcases le_total A B with h | h
  · have h' : (A : ℚ) ≤ B := by exact_mod_cast h
    rw [Nat.sub_eq_zero_of_le h, Nat.zero_add, Nat.cast_sub h, abs_of_nonpos (by linarith)]
    ring
  · have h' : (B : ℚ) ≤ A := by exact_mod_cast h
    rw [Nat.sub_eq_zero_of_le h, Nat.add_zero, Nat.cast_sub h, abs_of_nonneg (by linarith)]

/-- two numbers with the same sign differ by at least 2^-24 of their size -/
theorem floatVal_gap {x r : Nat} (hx : x < 2 ^ 32) (hr : r < 2 ^ 32) (hs : FloatNeg r ↔ FloatNeg x) (h : r ≠ x) : |floatVal x| ≤ 2 ^ 24 * |floatVal r - floatVal x| := by
  obtain ⟨s, s1, s2, s3⟩ := floatVal_parts hx
  obtain ⟨t, t1, t2, t3⟩ := floatVal_parts hr
  have est : t = s := by
    rcases s1 with h1 | h1 <;> rcases t1 with h2 | h2
    · rw [h1, h2]
    · exact absurd (s3.mpr (hs.mp (t3.mp h2))) (by rw [h1]; norm_num)
    · exact absurd (t3.mpr (hs.mpr (s3.mp h1))) (by rw [h2]; norm_num)
    · rw [h1, h2]
  subst est
  have hne : mag 23 (r % 2 ^ 31) ≠ mag 23 (x % 2 ^ 31) := by
    intro e
    obtain ⟨e1, e2⟩ := mag32_inj e
    unfold FloatNeg at hs
    omega
  have g := mag32_gap (x % 2 ^ 31) (r % 2 ^ 31) hne
  have g : (mag 23 (x % 2 ^ 31) : ℚ) ≤ 2 ^ 24 * |(mag 23 (r % 2 ^ 31) : ℚ) - (mag 23 (x % 2 ^ 31) : ℚ)| := by
    rw [← dist_cast]; exact_mod_cast g
  have ht : |t| = 1 := by rcases s1 with h | h <;> rw [h] <;> simp
  rw [s2, t2, ← mul_sub, abs_mul, abs_mul, ht, one_mul, one_mul, ← sub_div, abs_div, abs_div, Nat.abs_cast, ← mul_div_assoc]
  exact div_le_div_of_nonneg_right g (abs_nonneg _)

theorem floatVal_inj {x r : Nat} (hx : x < 2 ^ 32) (hr : r < 2 ^ 32) (hs : FloatNeg r ↔ FloatNeg x) (h : floatVal r = floatVal x) : r = x := by
  by_contra hc
  have g := floatVal_gap hx hr hs hc
  rw [h, sub_self, abs_zero, mul_zero] at g
  have h0 := abs_eq_zero.mp (le_antisymm g (abs_nonneg _))
  have z : ∀ y, y < 2 ^ 32 → floatVal y = 0 → y % 2 ^ 31 = 0 := by
    intro y hy h0
    obtain ⟨s, s1, s2, -⟩ := floatVal_parts hy
    rw [h0] at s2
    have : (mag 23 (y % 2 ^ 31) : ℚ) / 2 ^ 149 = 0 := by
      rcases s1 with h | h <;> rw [h] at s2 <;> linarith
    have e : mag 23 (y % 2 ^ 31) = 0 := by
      rw [div_eq_zero_iff] at this
      rcases this with h | h
      · exact_mod_cast h
      · norm_num at h
    obtain ⟨e1, e2⟩ := mag32_inj (x := y % 2 ^ 31) (y := 0) (by rw [e]; rfl)
    omega
  have a := z x hx h0
  have b := z r hr (by rw [h]; exact h0)
  unfold FloatNeg at hs
  omega

/-! ## The text -/

theorem f64OfF32_toNat {n : Nat} (hn : n < 2 ^ 32) : ∃ w, w < 2 ^ 63 ∧ (f64OfF32 n).toNat = n / 2 ^ 31 * 2 ^ 63 + w ∧
    (n / 2 ^ 23 % 256 = 255 → w = 2047 * 2 ^ 52 + n % 2 ^ 23 * 2 ^ 29) := by
  have hf : n % 2 ^ 23 < 2 ^ 23 := Nat.mod_lt _ (by decide)
  have key : ∀ w, w < 2 ^ 63 → (BitVec.ofNat 64 (n / 2 ^ 31 * 2 ^ 63 + w)).toNat = n / 2 ^ 31 * 2 ^ 63 + w := by
    intro w hw
    rw [BitVec.toNat_ofNat, Nat.mod_eq_of_lt]
    omega
  unfold f64OfF32
  dsimp only
  refine ⟨_, ?_, key _ ?_, fun h => by rw [if_pos h]⟩ <;>
  · split
    · omega
    · split
      · omega
      · split
        · omega
        · rename_i h0
          have h1 : n % 2 ^ 23 < 2 ^ ((n % 2 ^ 23).log2 + 1) := Nat.lt_log2_self
          have h2 : (n % 2 ^ 23).log2 < 23 := (Nat.log2_lt h0).mpr hf
          generalize (n % 2 ^ 23).log2 = k at *
          have h3 : n % 2 ^ 23 * 2 ^ (52 - k) < 2 ^ 53 := by
            calc _ < 2 ^ (k + 1) * 2 ^ (52 - k) := Nat.mul_lt_mul_of_pos_right h1 (Nat.pow_pos (by decide))
              _ = 2 ^ 53 := by rw [← Nat.pow_add]; congr 1; omega
          omega

theorem f64OfF32_neg {n : Nat} (hn : n < 2 ^ 32) : (f64OfF32 n).neg = true ↔ FloatNeg n := by
  obtain ⟨w, h1, h2, -⟩ := f64OfF32_toNat hn
  unfold F64.neg FloatNeg
  rw [h2, decide_eq_true_iff]
  omega

/-- the digits are exact to half a unit of the last of them -/
theorem gDigits_half (p : Nat) {x : F64} (h0 : x.abs ≠ 0) :
    |x.sgn * (gDigits p x : ℚ) * (10 : ℚ) ^ ((magnitude x : Int) - 325 - (p : Int)) - realVal x| ≤ 1 / 2 * (10 : ℚ) ^ ((magnitude x : Int) - 325 - (p : Int)) := by
  obtain ⟨h1, h2, h3⟩ := magnitude_bounds h0
  have hp : 0 < unit64 * 10 ^ (magnitude x - 1) := Nat.mul_pos unit64_pos (Nat.pow_pos (by decide))
  obtain ⟨q1, q2⟩ := roundEven_bound (x.abs * 10 ^ (324 + p)) hp
  have e : (magnitude x : Int) - 325 - (p : Int) = ((magnitude x - 1 : Nat) : Int) - ((324 + p : Nat) : Int) := by omega
  rw [x.real_eq, mul_assoc, F64.sgn_abs, e, zpow_ten]
  unfold gDigits
  generalize roundEven _ _ = d at *
  generalize magnitude x - 1 = k at *
  have hU := unit64_pos
  generalize x.abs = a at *
  generalize unit64 = U at *
  generalize hs : 10 ^ k = s at *
  generalize hr : 10 ^ (324 + p) = r at *
  have cs : (10 : ℚ) ^ k = s := by rw [← hs]; push_cast; rfl
  have cr : (10 : ℚ) ^ (324 + p) = r := by rw [← hr]; push_cast; rfl
  rw [cs, cr]
  have p2 : 0 < r := by rw [← hr]; exact Nat.pow_pos (by decide)
  have q1 : 2 * ((d : ℚ) * (U * s)) ≤ 2 * (a * r) + U * s := by exact_mod_cast q1
  have q2 : 2 * ((a : ℚ) * r) ≤ 2 * (d * (U * s)) + U * s := by exact_mod_cast q2
  have hU : (0 : ℚ) < U := by exact_mod_cast hU
  have p2 : (0 : ℚ) < r := by exact_mod_cast p2
  have e : (d : ℚ) * (s / r) - a / U = (d * (U * s) - a * r) / (U * r) := by field_simp
  rw [e, abs_div, abs_of_pos (mul_pos hU p2), div_le_iff₀ (mul_pos hU p2)]
  have e2 : 1 / 2 * ((s : ℚ) / r) * (U * r) = U * s / 2 := by field_simp
  rw [e2, _root_.abs_le]
  constructor <;> linarith

/-- the number shown by the text of a number: eight digits, exact to half a unit of the last of them -/
theorem floatText_shows {n : Nat} (h : IsFloat n) : ∃ neg v, ShowsNum (floatText n) neg v ∧ (neg = true ↔ FloatNeg n) ∧ |v - floatVal n| ≤ 5 / 10 ^ 8 * |floatVal n| ∧
    ((floatVal n = 0 ∧ v = 0) ∨ ∃ (d j : Int), v = d * (10 : ℚ) ^ j ∧ |v - floatVal n| ≤ 1 / 2 * (10 : ℚ) ^ j ∧ (10 : ℚ) ^ (j + 7) ≤ |floatVal n|) := by
  obtain ⟨hn, hf⟩ := h
  have hs := f64OfF32_abs hn hf
  have e : floatText n = printG 7 (f64OfF32 n) := snprintf_all ((printG_length (by decide) _).trans (by decide))
  have hv : realVal (f64OfF32 n) = floatVal n := f64OfF32_real hn hf
  refine ⟨_, _, by rw [e]; exact printG_shows 7 hs, f64OfF32_neg hn, ?_, ?_⟩
  · have := gParts_error 7 (f64OfF32 n)
    rw [hv] at this
    refine this.trans (le_of_eq ?_)
    norm_num
  · rw [← hv]
    generalize f64OfF32 n = x at *
    by_cases h0 : x.abs = 0
    · left
      refine ⟨by rw [x.real_eq, h0]; simp, ?_⟩
      have hg : gParts 7 x = (0, 0) := by unfold gParts; rw [if_pos h0]
      rw [hg]; simp
    · right
      have hg : gParts 7 x = if gDigits 7 x = 10 ^ (7 + 1) then (10 ^ 7, (magnitude x : Int) - 324) else (gDigits 7 x, (magnitude x : Int) - 325) := by
        unfold gParts; rw [if_neg h0]
      have er := gDigits_half 7 h0
      obtain ⟨h1, h2, -⟩ := magnitude_bounds h0
      have hsg : ∃ z : Int, x.sgn = z := by
        rcases x.sgn_cases with h | h
        · exact ⟨1, by rw [h]; norm_num⟩
        · exact ⟨-1, by rw [h]; norm_num⟩
      obtain ⟨z, hz⟩ := hsg
      have low : (10 : ℚ) ^ ((magnitude x : Int) - 325 - ((7 : Nat) : Int) + 7) ≤ |realVal x| := by
        have e3 : (magnitude x : Int) - 325 - ((7 : Nat) : Int) + 7 = ((magnitude x - 1 : Nat) : Int) - ((324 : Nat) : Int) := by omega
        rw [e3, zpow_ten, x.real_abs]
        have hU := unit64_pos
        generalize magnitude x - 1 = k at *
        generalize x.abs = a at *
        generalize unit64 = U at *
        have hU : (0 : ℚ) < U := by exact_mod_cast hU
        generalize hT : 324 = T at *
        rw [div_le_div_iff₀ (pow_pos (by norm_num) _) hU, mul_comm]
        exact_mod_cast h2
      have vv : ∀ P : Nat × Int, P = (if gDigits 7 x = 10 ^ (7 + 1) then (10 ^ 7, (magnitude x : Int) - 324) else (gDigits 7 x, (magnitude x : Int) - 325)) →
          x.sgn * (P.1 : ℚ) * (10 : ℚ) ^ (P.2 - ((7 : Nat) : Int)) = x.sgn * (gDigits 7 x : ℚ) * (10 : ℚ) ^ ((magnitude x : Int) - 325 - ((7 : Nat) : Int)) := by
        intro P hP
        by_cases hc : gDigits 7 x = 10 ^ (7 + 1)
        · rw [if_pos hc] at hP
          subst hP
          dsimp only
          rw [hc, show (magnitude x : Int) - 324 - ((7 : Nat) : Int) = (magnitude x : Int) - 325 - ((7 : Nat) : Int) + 1 by ring, zpow_add_one₀ (by norm_num)]
          push_cast
          ring
        · rw [if_neg hc] at hP
          subst hP
          dsimp only
      rw [vv _ hg]
      refine ⟨z * (gDigits 7 x : Int), (magnitude x : Int) - 325 - ((7 : Nat) : Int), ?_, er, low⟩
      rw [hz]
      push_cast
      ring

end Verif.Tec
