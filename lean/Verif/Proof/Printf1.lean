import Verif.Model.Printf
import Verif.Spec.Decimal
import Verif.Proof.TecText
import Verif.Proof.Xml3
import Verif.Proof.Json2
import Mathlib.Tactic.FieldSimp
import Mathlib.Tactic.Ring
import Mathlib.Tactic.Linarith
import Mathlib.Tactic.Positivity
import Mathlib.Tactic.NormNum
/-!
# Rounding and digits
-/
namespace Verif.Tec
open Spec Xml

theorem roundEven_bound (a : Nat) {b : Nat} (hb : 0 < b) :
    2 * (roundEven a b * b) ≤ 2 * a + b ∧ 2 * a ≤ 2 * (roundEven a b * b) + b := by
  have h := Nat.div_add_mod a b
  have hm : b * (a / b) = a / b * b := Nat.mul_comm _ _
  unfold roundEven
  split
  · omega
  · split
    · have := Nat.mod_lt a hb
      rw [Nat.add_mul]; omega
    · rcases Nat.mod_two_eq_zero_or_one (a / b) with e | e <;> rw [e, Nat.add_mul] <;> omega

theorem le_roundEven {a b n : Nat} (hb : 0 < b) (h : n * b ≤ a) : n ≤ roundEven a b := by
  have : n ≤ a / b := (Nat.le_div_iff_mul_le hb).mpr h
  unfold roundEven
  split
  · exact this
  · split <;> omega

theorem roundEven_le {a b n : Nat} (hb : 0 < b) (h : a ≤ n * b) : roundEven a b ≤ n := by
  obtain ⟨h1, -⟩ := roundEven_bound a hb
  by_contra hn
  have hn : n + 1 ≤ roundEven a b := by omega
  have h2 := Nat.mul_le_mul_right b hn
  rw [Nat.add_mul, Nat.one_mul] at h2
  omega

theorem roundEven_zero (b : Nat) : roundEven 0 b = 0 := by
  unfold roundEven
  simp

theorem foldl_digits (l : Str) (n : Nat) : l.foldl (fun a b => 10 * a + (b.toNat - 48)) n = n * 10 ^ l.length + digitsVal l := by
  unfold digitsVal
  induction l generalizing n with
  | nil => simp
  | cons b l ih =>
    rw [List.foldl_cons, List.foldl_cons, ih, ih (10 * 0 + _), List.length_cons, Nat.pow_succ]
    ring

theorem digitsVal_append (a b : Str) : digitsVal (a ++ b) = digitsVal a * 10 ^ b.length + digitsVal b := by
  show (a ++ b).foldl _ 0 = _
  rw [List.foldl_append, foldl_digits]
  rfl

theorem digit_byte {n : Nat} (h : n < 10) : (UInt8.ofNat (48 + n)).toNat = 48 + n := by
  rw [UInt8.toNat_ofNat']; omega

theorem digitsVal_one {n : Nat} (h : n < 10) : digitsVal [UInt8.ofNat (48 + n)] = n := by
  show 10 * 0 + ((UInt8.ofNat (48 + n)).toNat - 48) = n
  rw [digit_byte h]; omega

theorem padded_length (k n : Nat) : (padded k n).length = k := by
  induction k generalizing n with
  | zero => rfl
  | succ k ih => unfold padded; rw [List.length_append, ih]; rfl

theorem padded_val (k n : Nat) : digitsVal (padded k n) = n % 10 ^ k := by
  induction k generalizing n with
  | zero => simp [padded, digitsVal, Nat.mod_one]
  | succ k ih =>
    unfold padded
    rw [digitsVal_append, ih, digitsVal_one (Nat.mod_lt _ (by decide))]
    show n / 10 % 10 ^ k * 10 ^ 1 + n % 10 = _
    rw [Nat.pow_succ (m := k), Nat.mul_comm (10 ^ k) 10, Nat.mod_mul]
    omega

theorem padded_digits (k n : Nat) : ∀ b ∈ padded k n, JDigit b := by
  induction k generalizing n with
  | zero => intro b hb; cases hb
  | succ k ih =>
    intro b hb
    unfold padded at hb
    rcases List.mem_append.mp hb with hb | hb
    · exact ih _ b hb
    · obtain rfl := List.mem_singleton.mp hb
      have h := digit_byte (Nat.mod_lt n (by decide : 0 < 10))
      have hl := Nat.mod_lt n (by decide : 0 < 10)
      constructor <;> rw [UInt8.le_iff_toNat_le, h]
      · exact Nat.le_add_right ..
      · show 48 + n % 10 ≤ 57; omega

theorem decNat_val (n : Nat) : digitsVal (decNat n) = n := by
  unfold decNat
  split
  · rename_i h; subst h; rfl
  · have key : ∀ l : List Nat, (∀ d ∈ l, d < 10) → digitsVal (l.reverse.map fun d => UInt8.ofNat (48 + d)) = Nat.ofDigits 10 l := by
      intro l
      induction l with
      | nil => intro _; rfl
      | cons d l ih =>
        intro h
        rw [List.reverse_cons, List.map_append, digitsVal_append, ih (fun d hd => h d (by simp [hd])), Nat.ofDigits_cons]
        show _ * 10 ^ 1 + digitsVal [UInt8.ofNat (48 + d)] = _
        rw [digitsVal_one (h d (by simp))]
        ring
    rw [key _ (fun d hd => Nat.digits_lt_base (by decide) hd), Nat.ofDigits_digits]

theorem decNat_jdigits (n : Nat) : JDigits (decNat n) := decNat_bytes n

/-- as many digits as the number needs -/
theorem decNat_length_bounds {n : Nat} (h : n ≠ 0) : 10 ^ ((decNat n).length - 1) ≤ n ∧ n < 10 ^ (decNat n).length := by
  unfold decNat
  rw [if_neg h, List.length_map, List.length_reverse]
  refine ⟨?_, Nat.lt_base_pow_length_digits (by decide)⟩
  have := Nat.base_pow_length_digits_le' 8 n h
  have hp : 0 < (Nat.digits 10 n).length := List.length_pos_iff.mpr (Nat.digits_ne_nil_iff_ne_zero.mpr h)
  obtain ⟨k, hk⟩ : ∃ k, (Nat.digits 10 n).length = k + 1 := ⟨_, (Nat.succ_pred_eq_of_pos hp).symm⟩
  rw [hk] at this ⊢
  rw [Nat.pow_succ] at this
  simp only [Nat.add_sub_cancel]
  have e : (8 + 2 : Nat) = 10 := rfl
  rw [e] at this
  omega

end Verif.Tec
