import Verif.Model.GetTime
import Verif.Spec.GetTime
import Verif.Proof.TecText
/-!
# Lemmas about time stamps
-/
namespace Verif
open Spec Tec Sp

theorem decNat_lt10 {n : Nat} (h : n < 10) : decNat n = [digitAt n 1] := by
  unfold decNat digitAt
  by_cases h0 : n = 0
  · subst h0; rfl
  · rw [if_neg h0, Nat.digits_of_lt 10 n h0 h, Nat.div_one, Nat.mod_eq_of_lt h]; rfl

theorem decNat_step {n : Nat} (h : 10 ≤ n) : decNat n = decNat (n / 10) ++ [digitAt n 1] := by
  unfold decNat digitAt
  rw [if_neg (by omega), if_neg (by omega), Nat.digits_def' (by decide) (by omega), List.reverse_cons, List.map_append, Nat.div_one]
  rfl

theorem digitAt_div (n w : Nat) : digitAt (n / 10) w = digitAt n (10 * w) := by unfold digitAt; rw [Nat.div_div_eq_div_mul]

theorem two_eq {n : Nat} (h : n < 100) : two n = [digitAt n 10, digitAt n 1] := by
  unfold two
  split
  · rename_i h1
    rw [decNat_lt10 h1]
    have : digitAt n 10 = 48 := by unfold digitAt; rw [Nat.div_eq_of_lt h1]; rfl
    rw [this]
  · rename_i h1
    rw [decNat_step (by omega), decNat_lt10 (by omega), digitAt_div]
    rfl

theorem year_eq {n : Nat} (h : 1000 ≤ n) (h' : n ≤ 9999) : decNat n = [digitAt n 1000, digitAt n 100, digitAt n 10, digitAt n 1] := by
  rw [decNat_step (by omega), decNat_step (by omega), decNat_step (by omega), decNat_lt10 (by omega)]
  simp only [digitAt_div]
  rfl

/-- a character that is copied -/
theorem expand_char (other : UInt8 → Tm → Option Str) (t : Tm) {c : UInt8} (f : Str) (hc : c ≠ 37) :
    expand other t (c :: f) = (do let b ← expand other t f; pure (c :: b)) := by
  conv => lhs; unfold expand
  split
  · rename_i e; cases e
  · rename_i e; exact absurd (by injection e) hc
  · rename_i e; exact absurd (by injection e) hc
  · rename_i e
    injection e with e1 e2
    subst e1 e2
    rfl

/-! ## order -/

theorem digitAt_toNat (n w : Nat) : (digitAt n w).toNat = 48 + n / w % 10 := by
  unfold digitAt
  rw [UInt8.toNat_ofNat']
  omega

theorem digitAt_lt (a b w : Nat) : digitAt a w < digitAt b w ↔ a / w % 10 < b / w % 10 := by
  rw [UInt8.lt_iff_toNat_lt, digitAt_toNat, digitAt_toNat]; omega

theorem digitAt_inj (a b w : Nat) : digitAt a w = digitAt b w ↔ a / w % 10 = b / w % 10 := by
  rw [← UInt8.toNat_inj, digitAt_toNat, digitAt_toNat]; omega

theorem two_lt {a b : Nat} (ha : a < 100) (hb : b < 100) (s t : List UInt8) :
    (digitAt a 10 :: digitAt a 1 :: s < digitAt b 10 :: digitAt b 1 :: t) ↔ a < b ∨ a = b ∧ s < t := by
  rw [List.cons_lt_cons_iff, List.cons_lt_cons_iff, digitAt_lt, digitAt_lt, digitAt_inj, digitAt_inj]
  by_cases h : s < t
  · simp only [h, and_true]; omega
  · simp only [h, and_false, or_false]; omega

theorem four_digits {a : Nat} (h : a < 10000) : ∃ x y z u, a = 1000 * x + 100 * y + 10 * z + u ∧ x < 10 ∧ y < 10 ∧ z < 10 ∧ u < 10 ∧
    a / 1000 % 10 = x ∧ a / 100 % 10 = y ∧ a / 10 % 10 = z ∧ a / 1 % 10 = u :=
  ⟨a / 1000 % 10, a / 100 % 10, a / 10 % 10, a / 1 % 10, by omega, by omega, by omega, by omega, by omega, rfl, rfl, rfl, rfl⟩

theorem year_lt {a b : Nat} (ha : a < 10000) (hb : b < 10000) (s t : List UInt8) :
    (digitAt a 1000 :: digitAt a 100 :: digitAt a 10 :: digitAt a 1 :: s < digitAt b 1000 :: digitAt b 100 :: digitAt b 10 :: digitAt b 1 :: t)
      ↔ a < b ∨ a = b ∧ s < t := by
  rw [List.cons_lt_cons_iff, List.cons_lt_cons_iff, List.cons_lt_cons_iff, List.cons_lt_cons_iff]
  simp only [digitAt_lt, digitAt_inj]
  obtain ⟨x, y, z, u, e, h1, h2, h3, h4, e1, e2, e3, e4⟩ := four_digits ha
  obtain ⟨x', y', z', u', e', h1', h2', h3', h4', e1', e2', e3', e4'⟩ := four_digits hb
  rw [e1, e2, e3, e4, e1', e2', e3', e4', e, e']
  clear e1 e2 e3 e4 e1' e2' e3' e4' e e' ha hb
  by_cases h : s < t
  · simp only [h, and_true]; omega
  · simp only [h, and_false, or_false]; omega

theorem stamp_lt {a b : Moment} (ha : a.Proper) (hb : b.Proper) : a.stamp < b.stamp ↔ a.before b := by
  obtain ⟨a1, a2, a3, a4, a5, a6⟩ := ha
  obtain ⟨b1, b2, b3, b4, b5, b6⟩ := hb
  unfold Moment.stamp Moment.before
  rw [year_lt (by omega) (by omega), two_lt (by omega) (by omega), two_lt (by omega) (by omega), List.cons_lt_cons_iff,
    two_lt (by omega) (by omega), two_lt (by omega) (by omega), two_lt (by omega) (by omega)]
  simp only [List.cons_lt_cons_iff]
  have h : ¬ ((84 : UInt8) < 84) := by decide
  simp [h]

theorem stamp_inj {a b : Moment} (ha : a.Proper) (hb : b.Proper) (h : a.stamp = b.stamp) : a = b := by
  obtain ⟨a1, a2, a3, a4, a5, a6⟩ := ha
  obtain ⟨b1, b2, b3, b4, b5, b6⟩ := hb
  unfold Moment.stamp at h
  simp only [List.cons.injEq, digitAt_inj, and_true, true_and] at h
  cases a; cases b
  simp only [Moment.mk.injEq] at *
  omega

end Verif
