import Verif.Proof.Scanf2
import Verif.Spec.XmlBack
/-!
# What `%lf` reads, and what it reads of what `%le` and `%.5lf` print
-/
namespace Verif.Tec
open Spec Xml Json

/-- signs can only increase the distance -/
theorem signed_distance (a b s t : ℚ) (ha : 0 ≤ a) (hb : 0 ≤ b) (hs : s = 1 ∨ s = -1) (ht : t = 1 ∨ t = -1) : |a - b| ≤ |s * a - t * b| := by
  rcases hs with rfl | rfl <;> rcases ht with rfl | rfl
  · simp
  · rw [show (1 : ℚ) * a - -1 * b = a + b by ring, abs_of_nonneg (add_nonneg ha hb), _root_.abs_le]
    constructor <;> linarith
  · rw [show (-1 : ℚ) * a - 1 * b = -(a + b) by ring, abs_neg, abs_of_nonneg (add_nonneg ha hb), _root_.abs_le]
    constructor <;> linarith
  · rw [show (-1 : ℚ) * a - -1 * b = -(a - b) by ring, abs_neg]

theorem div_distance {a U b q : ℚ} (hU : 0 < U) (hq : 0 < q) : |a / U - b / q| = |a * q - b * U| / (U * q) := by
  have : a / U - b / q = (a * q - b * U) / (U * q) := by field_simp
  rw [this, abs_div, abs_of_pos (mul_pos hU hq)]

theorem F64.sgn_cases (x : F64) : x.sgn = 1 ∨ x.sgn = -1 := by
  unfold F64.sgn; cases x.neg <;> simp

/-- the number `n / q` with a sign -/
theorem read_ratio (neg : Bool) (n : Nat) {q : Nat} (hq : 0 < q) {v : ℚ} (hv : v = (if neg then -1 else 1) * ((n : ℚ) / (q : ℚ))) :
    (IsFinite (withSign neg (nearest n q)) → ∀ y, IsFinite y → |realVal (withSign neg (nearest n q)) - v| ≤ |realVal y - v|) ∧
    (∀ y, IsFinite y → |v| ≤ |realVal y| → IsFinite (withSign neg (nearest n q))) := by
  obtain ⟨p1, p2, -⟩ := withSign_parts neg (nearest_le n q)
  have hU : (0 : ℚ) < (unit64 : ℚ) := by exact_mod_cast unit64_pos
  have hq' : (0 : ℚ) < (q : ℚ) := by exact_mod_cast hq
  have ht : (if neg then (-1 : ℚ) else 1) = 1 ∨ (if neg then (-1 : ℚ) else 1) = -1 := by cases neg <;> simp
  constructor
  · intro hf y _
    have hf := p2.mp ((F64.finite_iff _).mp hf)
    have key := nearest_abs neg n hq hf y
    have es : (withSign neg (nearest n q)).sgn = if neg then -1 else 1 := by unfold F64.sgn; rw [p1]
    rw [F64.real_eq, es, hv, ← es, F64.sgn_abs, y.real_eq]
    have l := signed_distance ((y.abs : ℚ) / unit64) ((n : ℚ) / q) y.sgn (if neg then -1 else 1)
      (div_nonneg (Nat.cast_nonneg _) (Nat.cast_nonneg _)) (div_nonneg (Nat.cast_nonneg _) (Nat.cast_nonneg _)) y.sgn_cases ht
    rw [es]
    refine le_trans ?_ l
    rw [div_distance hU hq', div_distance hU hq']
    refine div_le_div_of_nonneg_right ?_ (le_of_lt (mul_pos hU hq'))
    generalize (withSign neg (nearest n q)).abs = A at *
    generalize y.abs = B at *
    generalize unit64 = U at *
    exact_mod_cast key
  · intro y hy hle
    refine (F64.finite_iff _).mpr (p2.mpr (nearest_lt n hq ?_))
    have hy := F64.abs_le ((F64.finite_iff _).mp hy)
    rw [y.real_abs, hv, abs_mul] at hle
    have h1 : |(if neg then (-1 : ℚ) else 1)| = 1 := by cases neg <;> simp
    rw [h1, one_mul, abs_of_nonneg (div_nonneg (Nat.cast_nonneg _) (Nat.cast_nonneg _)), div_le_div_iff₀ hq' hU] at hle
    generalize y.abs = B at *
    generalize maxAbs = M at *
    generalize unit64 = U at *
    have h2 : n * U ≤ B * q := by exact_mod_cast hle
    exact h2.trans (Nat.mul_le_mul_right _ hy)

/-- the number shown by a text is read as the nearest number -/
theorem scan_nearest {s : Str} {v : ℚ} (h : Denotes s v) : ∃ r, scanLf s = some r ∧
    (IsFinite r → ∀ y, IsFinite y → |realVal r - v| ≤ |realVal y - v|) ∧ (∀ y, IsFinite y → |v| ≤ |realVal y| → IsFinite r) := by
  obtain ⟨neg, i, f, e, k, rfl, hi, hf, he, hv⟩ := h
  refine ⟨_, scan_number hi hf he, ?_⟩
  generalize Spec.digitsVal (i ++ f) = n at *
  generalize k - (f.length : Int) = m at *
  unfold nearest10
  split
  · rename_i hm
    refine read_ratio neg _ (by decide) ?_
    obtain ⟨j, rfl⟩ := Int.eq_ofNat_of_zero_le hm
    rw [hv, zpow_natCast]
    push_cast
    simp only [Int.toNat_natCast]
    ring
  · rename_i hm
    refine read_ratio neg _ (Nat.pow_pos (by decide)) ?_
    obtain ⟨j, hj⟩ := Int.eq_ofNat_of_zero_le (by omega : 0 ≤ -m)
    obtain rfl : m = -(j : Int) := by omega
    rw [hv, zpow_neg, zpow_natCast]
    simp only [neg_neg, Int.toNat_natCast]
    push_cast
    rw [mul_assoc, div_eq_mul_inv]

/-- read again, a finite number is at most twice as far from the original as the text is -/
theorem reread {s : Str} {v : ℚ} {x y : F64} {t : ℚ} (h : Denotes s v) (hx : IsFinite x) (hy : IsFinite y) (hv : |v| ≤ |realVal y|) (ht : |v - realVal x| ≤ t) :
    ∃ r, scanLf s = some r ∧ IsFinite r ∧ |realVal r - realVal x| ≤ 2 * t := by
  obtain ⟨r, h1, h2, h3⟩ := scan_nearest h
  have hr := h3 y hy hv
  refine ⟨r, h1, hr, ?_⟩
  have a := h2 hr x hx
  rw [abs_sub_comm (realVal x)] at a
  have b := abs_sub_le (realVal r) v (realVal x)
  linarith

/-! ## No printed finite number is too large to be read -/

/-- the largest number -/
def maxF64 : F64 := 0x7FEFFFFFFFFFFFFF#64

theorem maxF64_finite : IsFinite maxF64 := (F64.finite_iff _).mpr (by decide)

theorem maxF64_abs : maxF64.abs = maxAbs := by unfold maxAbs; decide +kernel

theorem maxF64_real : |realVal maxF64| = (maxAbs : ℚ) / (unit64 : ℚ) := by rw [maxF64.real_abs, maxF64_abs]

theorem printF_le {p : Nat} {x : F64} (h : x.special = false) :
    |x.sgn * ((roundEven (x.abs * 10 ^ p) unit64 : ℕ) : ℚ) * (10 : ℚ) ^ (0 - (p : Int))| ≤ |realVal maxF64| := by
  have hU : (0 : ℚ) < (unit64 : ℚ) := by exact_mod_cast unit64_pos
  have hs : |x.sgn| = 1 := by rcases x.sgn_cases with h | h <;> rw [h] <;> simp
  rw [maxF64_real, abs_mul, abs_mul, hs, one_mul, abs_of_nonneg (Nat.cast_nonneg (roundEven (x.abs * 10 ^ p) unit64) : (0 : ℚ) ≤ _), abs_of_nonneg (zpow_nonneg (by norm_num) _),
    show (0 : Int) - (p : Int) = -(p : Int) by ring, zpow_neg, zpow_natCast, ← div_eq_mul_inv, div_le_div_iff₀ (pow_pos (by norm_num) _) hU]
  have key : roundEven (x.abs * 10 ^ p) unit64 * unit64 ≤ maxAbs * 10 ^ p := by
    have e : maxAbs = ((2 ^ 53 - 1) * 2 ^ 971) * unit64 := by unfold maxAbs unit64; decide +kernel
    have h1 := F64.abs_le h
    rw [e] at h1 ⊢
    generalize (2 ^ 53 - 1) * 2 ^ 971 = A at *
    have h2 := unit64_pos
    generalize unit64 = U at *
    have h3 : roundEven (x.abs * 10 ^ p) U ≤ A * 10 ^ p := by
      refine roundEven_le h2 ?_
      calc x.abs * 10 ^ p ≤ A * U * 10 ^ p := Nat.mul_le_mul_right _ h1
        _ = A * 10 ^ p * U := by ring
    calc _ ≤ A * 10 ^ p * U := Nat.mul_le_mul_right _ h3
      _ = A * U * 10 ^ p := by ring
  generalize maxAbs = M at *
  generalize unit64 = U at *
  exact_mod_cast key

theorem roundEven_lt {a b n : Nat} (hb : 0 < b) (h : 2 * a < (2 * n + 1) * b) : roundEven a b ≤ n := by
  obtain ⟨h1, -⟩ := roundEven_bound a hb
  by_contra hn
  have h2 : (n + 1) * b ≤ roundEven a b * b := Nat.mul_le_mul_right b (by omega)
  rw [Nat.add_mul, Nat.one_mul] at h2
  rw [Nat.add_mul, Nat.one_mul, Nat.mul_assoc] at h
  omega

/-- the digits of the largest numbers -/
theorem sciDigits_top {x : F64} (h : x.special = false) (hm : magnitude x = 633) : sciDigits x ≤ 1797693 := by
  unfold sciDigits
  rw [hm]
  refine roundEven_lt (Nat.mul_pos unit64_pos (Nat.pow_pos (by decide))) ?_
  have h1 := F64.abs_le h
  refine lt_of_le_of_lt (Nat.mul_le_mul_left 2 (Nat.mul_le_mul_right _ h1)) ?_
  unfold maxAbs unit64
  decide +kernel

theorem sci_le {U M d k : ℚ} (hU : 0 < U) (h : d * k * U ≤ M) : d * k ≤ M / U := by
  rw [le_div_iff₀ hU]; exact h

theorem sciNat_le {d : Nat} {j : Nat} (h : (d ≤ 1797693 ∧ j = 633) ∨ (d ≤ 10 ^ 7 ∧ j ≤ 632)) : d * 10 ^ j * unit64 ≤ maxAbs * 10 ^ 331 := by
  have aux : 1797693 * 10 ^ 633 * unit64 ≤ maxAbs * 10 ^ 331 := by unfold maxAbs unit64; decide +kernel
  have aux2 : 10 ^ 7 * 10 ^ 632 * unit64 ≤ maxAbs * 10 ^ 331 := by unfold maxAbs unit64; decide +kernel
  rcases h with ⟨h1, rfl⟩ | ⟨h1, h2⟩
  · refine le_trans (Nat.mul_le_mul_right _ (Nat.mul_le_mul_right _ h1)) aux
  · have h3 : 10 ^ j ≤ 10 ^ 632 := Nat.pow_le_pow_right (by decide) h2
    generalize 10 ^ 632 = A at *
    exact le_trans (Nat.mul_le_mul_right _ (Nat.mul_le_mul h1 h3)) aux2

theorem sci_top (x : F64) {d : Nat} {j : Nat} (h : (d ≤ 1797693 ∧ j = 633) ∨ (d ≤ 10 ^ 7 ∧ j ≤ 632)) :
    |x.sgn * (d : ℚ) * (10 : ℚ) ^ ((j : Int) - 325 - 6)| ≤ |realVal maxF64| := by
  have hU : (0 : ℚ) < (unit64 : ℚ) := by exact_mod_cast unit64_pos
  have hs : |x.sgn| = 1 := by rcases x.sgn_cases with h | h <;> rw [h] <;> simp
  rw [maxF64_real, abs_mul, abs_mul, hs, one_mul, abs_of_nonneg (Nat.cast_nonneg d : (0 : ℚ) ≤ _), abs_of_nonneg (zpow_nonneg (by norm_num) _),
    show (j : Int) - 325 - 6 = (j : Int) - ((331 : Nat) : Int) by push_cast; ring, zpow_ten, ← mul_div_assoc, div_le_div_iff₀ (pow_pos (by norm_num) _) hU]
  have key := sciNat_le h
  generalize maxAbs = M at *
  generalize unit64 = U at *
  generalize 331 = P at *
  exact_mod_cast key

/-- `%le` of a finite number -/
theorem printE_read {x : F64} (h : x.special = false) : ∃ v, Denotes (printE x) v ∧ |v - realVal x| ≤ 5 / 10 ^ 7 * |realVal x| ∧ |v| ≤ |realVal maxF64| := by
  unfold printE
  rw [h]
  by_cases h0 : x.abs = 0
  · rw [if_neg (by decide), if_pos h0]
    refine ⟨_, sci_shows x 0 0, ?_, ?_⟩
    · rw [x.real_abs, x.real_eq, h0]; simp
    · simp
  · obtain ⟨b1, b2⟩ := sciDigits_bounds h0
    have m2 := magnitude_le h h0
    have er := sci_error h0
    have cs : (sciDigits x ≤ 1797693 ∧ magnitude x = 633) ∨ (sciDigits x ≤ 10 ^ 7 ∧ magnitude x ≤ 632) := by
      by_cases hm : magnitude x = 633
      · exact Or.inl ⟨sciDigits_top h hm, hm⟩
      · exact Or.inr ⟨b2, by omega⟩
    have top := sci_top x cs
    by_cases hc : sciDigits x = 10 ^ 7
    · rw [if_neg (by decide), if_neg h0, if_pos hc]
      have e : x.sgn * ((10 ^ 6 : ℕ) : ℚ) * (10 : ℚ) ^ ((magnitude x : Int) - 324 - 6) =
          x.sgn * ((10 ^ 7 : ℕ) : ℚ) * (10 : ℚ) ^ ((magnitude x : Int) - 325 - 6) := by
        rw [show (magnitude x : Int) - 324 - 6 = (magnitude x : Int) - 325 - 6 + 1 by ring, zpow_add_one₀ (by norm_num)]
        push_cast
        ring
      rw [hc] at er top
      rw [← e] at er top
      exact ⟨_, sci_shows x _ _, er, top⟩
    · rw [if_neg (by decide), if_neg h0, if_neg hc]
      exact ⟨_, sci_shows x _ _, er, top⟩

/-- what `%lf` reads of a text of `%le` -/
def backE (x : F64) : F64 := (scanLf (printE x)).getD 0
/-- what `%lf` reads of a text of `%.5lf` -/
def backF (x : F64) : F64 := (scanLf (printF 5 x)).getD 0

theorem backE_run (x : F64) : scanLf (printE x) = some (backE x) ∧ (IsFinite x → IsFinite (backE x) ∧ |realVal (backE x) - realVal x| ≤ 1 / 10 ^ 6 * |realVal x|) := by
  unfold backE
  cases h : x.special with
  | true =>
    obtain ⟨y, hy, -⟩ := scan_special h
    have e : printE x = specialText x := by unfold printE; rw [if_pos h]
    rw [e, hy]
    refine ⟨rfl, fun hf => ?_⟩
    rw [F64.finite_iff, h] at hf
    cases hf
  | false =>
    obtain ⟨v, h1, h2, h3⟩ := printE_read h
    obtain ⟨r, h4, h5, h6⟩ := reread h1 ((F64.finite_iff _).mpr h) maxF64_finite h3 h2
    rw [h4]
    refine ⟨rfl, fun _ => ⟨h5, h6.trans (le_of_eq ?_)⟩⟩
    ring

theorem backF_run (x : F64) : scanLf (printF 5 x) = some (backF x) ∧ (IsFinite x → IsFinite (backF x) ∧ |realVal (backF x) - realVal x| ≤ 1 / 10 ^ 5) := by
  unfold backF
  cases h : x.special with
  | true =>
    obtain ⟨y, hy, -⟩ := scan_special h
    have e : printF 5 x = specialText x := by unfold printF; rw [if_pos h]
    rw [e, hy]
    refine ⟨rfl, fun hf => ?_⟩
    rw [F64.finite_iff, h] at hf
    cases hf
  | false =>
    obtain ⟨r, h4, h5, h6⟩ := reread (printF_shows (p := 5) (by decide) h) ((F64.finite_iff _).mpr h) maxF64_finite (printF_le h) (printF_error x)
    rw [h4]
    refine ⟨rfl, fun _ => ⟨h5, h6.trans (le_of_eq ?_)⟩⟩
    rw [zpow_neg]
    norm_num

theorem glibc_scans : Scans glibc scanLf backE backF := ⟨fun x => (backE_run x).1, fun x => (backF_run x).1⟩

end Verif.Tec
