import Verif.Spec.TecValue
import Verif.Proof.TecFloat
import Verif.Proof.TecMinMax
/-!
# Element values and their conversion to `double`
-/
namespace Verif.Tec

theorem leVal_lt (l : Str) : leVal l < 2 ^ (8 * l.length) := by
  induction l with
  | nil => simp [leVal]
  | cons b l ih =>
    have hb := b.toNat_lt
    rw [leVal, List.length_cons, Nat.mul_add, Nat.pow_add]
    omega

theorem Finite.key {t : TecType} {n : Nat} (f : Finite t n) : (t.key n).isSome := by
  cases t with
  | float =>
    have f : finite 32 23 n := f
    have : isNaN 32 23 n = false := by unfold isNaN; unfold finite at f; simp only [decide_eq_false_iff_not]; omega
    simp [TecType.key, this]
  | double =>
    have f : finite 64 52 n := f
    have : isNaN 64 52 n = false := by unfold isNaN; unfold finite at f; simp only [decide_eq_false_iff_not]; omega
    simp [TecType.key, this]
  | null => rfl
  | longint => rfl
  | shortint => rfl
  | byte => rfl

/-- the conversion to `FLOAT64` is exact -/
theorem toF64_exact {t : TecType} (ht : t ≠ .null) {n : Nat} (hn : n < 2 ^ (8 * t.bytes)) (f : Finite t n) :
    scaled 64 52 (t.toF64 n).toNat = value t n := by
  have ints : ∀ k, 1 ≤ k → k ≤ 4 → n < 2 ^ (8 * k) → (signed k n).natAbs < 2 ^ 53 := by
    intro k h1 h4 hn
    have h2 : (2 : Int) ^ (8 * k) ≤ 2 ^ 32 := pow_le_pow_right₀ (by norm_num) (by omega)
    have h3 : (n : Int) < 2 ^ (8 * k) := by exact_mod_cast hn
    have h5 : (2 : Int) ^ 32 = 4294967296 := by norm_num
    have h6 : (2 : Nat) ^ 53 = 9007199254740992 := by norm_num
    unfold signed
    split <;> omega
  cases t with
  | null => exact absurd rfl ht
  | float => exact f64OfF32_exact hn f
  | double =>
    show scaled 64 52 (BitVec.ofNat 64 n).toNat = scaled 64 52 n
    rw [BitVec.toNat_ofNat, Nat.mod_eq_of_lt (by exact hn)]
  | longint => exact f64OfInt_exact (ints 4 (by omega) (by omega) hn)
  | shortint => exact f64OfInt_exact (ints 2 (by omega) (by omega) hn)
  | byte => exact f64OfInt_exact (ints 1 (by omega) (by omega) hn)

/-- the comparison used by the code is the comparison of the values -/
theorem value_mono {t : TecType} {a b : Nat} (fa : Finite t a) (fb : Finite t b) (h : (t.key a).getD 0 ≤ (t.key b).getD 0) :
    value t a ≤ value t b := by
  have ints : ∀ x y : Int, x ≤ y → x * 2 ^ 1074 ≤ y * 2 ^ 1074 := fun x y h =>
    Int.mul_le_mul_of_nonneg_right h (by positivity)
  cases t with
  | float =>
    have na : isNaN 32 23 a = false := by
      have f : finite 32 23 a := fa
      unfold isNaN; unfold finite at f; simp only [decide_eq_false_iff_not]; omega
    have nb : isNaN 32 23 b = false := by
      have f : finite 32 23 b := fb
      unfold isNaN; unfold finite at f; simp only [decide_eq_false_iff_not]; omega
    simp only [TecType.key, na, nb] at h
    exact Int.mul_le_mul_of_nonneg_right (scaled_mono h) (by positivity)
  | double =>
    have na : isNaN 64 52 a = false := by
      have f : finite 64 52 a := fa
      unfold isNaN; unfold finite at f; simp only [decide_eq_false_iff_not]; omega
    have nb : isNaN 64 52 b = false := by
      have f : finite 64 52 b := fb
      unfold isNaN; unfold finite at f; simp only [decide_eq_false_iff_not]; omega
    simp only [TecType.key, na, nb] at h
    exact scaled_mono h
  | null => exact ints _ _ h
  | longint => exact ints _ _ h
  | shortint => exact ints _ _ h
  | byte => exact ints _ _ h

end Verif.Tec
