import Verif.Proof.Number1
import Verif.Proof.XmlFloat3
import Verif.Proof.XmlForeign1
/-!
# `%lf`: two nearest numbers, and numbers too large
-/
namespace Verif.Tec
open Spec Xml Json

theorem nearest_tie (neg : Bool) (n : Nat) {q : Nat} (hq : 0 < q) (hf : nearest n q < 2047 * 2 ^ 52) {y : F64} (hne : y.abs ≠ (withSign neg (nearest n q)).abs)
    (h : |(y.abs : Int) * q - ((n * unit64 : Nat) : Int)| ≤ |((withSign neg (nearest n q)).abs : Int) * q - ((n * unit64 : Nat) : Int)|) : nearest n q % 2 = 0 := by
  rw [(withSign_parts neg (nearest_le n q)).2.2 hf] at h hne
  obtain ⟨e, f, h1, h2, h3, h4, h5, h6⟩ := nearest_exp n hq
  have h7 : nearest n q = e * 2 ^ 52 + f := by rw [h1] at hf ⊢; omega
  rw [h7, mag_pattern h5 h6] at h hne
  have hp : 0 < q * 2 ^ e := Nat.mul_pos hq (Nat.pow_pos (by decide))
  have key := roundEven_nearest (n * unit64) hp
  have tie := fun m : Int => roundEven_tie (n * unit64) hp (m := m)
  rw [← h2] at key tie
  generalize n * unit64 = N at *
  have el : ((f * 2 ^ e : Nat) : Int) * q = (f : Int) * ((q * 2 ^ e : Nat) : Int) := by push_cast; ring
  rw [el] at h
  rw [h7]
  rcases y.grid e with ⟨m, hm⟩ | ⟨hy, he⟩
  · have er : ((m * 2 ^ e : Nat) : Int) * q = (m : Int) * ((q * 2 ^ e : Nat) : Int) := by push_cast; ring
    rw [hm, er] at h
    have := tie m (by intro c; apply hne; rw [hm]; congr 1; exact_mod_cast c) h
    omega
  · exfalso
    have k := key (2 ^ 52)
    have a1 : (2 : Int) ^ 52 * ((q * 2 ^ e : Nat) : Int) = ((q * 2 ^ (52 + e) : Nat) : Int) := by
      rw [Nat.pow_add]; push_cast; ring
    have a2 := h3 he
    have a3 : y.abs * q < q * 2 ^ (52 + e) := by rw [Nat.mul_comm]; exact Nat.mul_lt_mul_of_pos_left hy hq
    rw [a1] at k
    generalize q * 2 ^ (52 + e) = A at *
    have a4 : (y.abs : Int) * q = ((y.abs * q : Nat) : Int) := by push_cast; rfl
    rw [a4] at h
    generalize y.abs * q = B at *
    have h := h.trans k
    rw [abs_of_nonpos (by omega), abs_of_nonpos (by omega)] at h
    omega

theorem ratio_tie64 (neg : Bool) (n : Nat) {q : Nat} (hq : 0 < q) {v : ℚ} (hv : v = (if neg then -1 else 1) * ((n : ℚ) / (q : ℚ))) {y : F64} (hf : IsFinite (withSign neg (nearest n q)))
    (hne : realVal y ≠ realVal (withSign neg (nearest n q))) (he : |realVal y - v| = |realVal (withSign neg (nearest n q)) - v|) :
    (withSign neg (nearest n q)).toNat % 2 = 0 := by
  obtain ⟨p1, p2, -⟩ := withSign_parts neg (nearest_le n q)
  have hfin := p2.mp ((F64.finite_iff _).mp hf)
  have near := (read_ratio neg n hq hv).1 hf
  have hU : (0 : ℚ) < (unit64 : ℚ) := by exact_mod_cast unit64_pos
  have hq' : (0 : ℚ) < (q : ℚ) := by exact_mod_cast hq
  have ht : (if neg then (-1 : ℚ) else 1) = 1 ∨ (if neg then (-1 : ℚ) else 1) = -1 := by cases neg <;> simp
  have e := y.real_eq
  have hs := y.sgn_cases
  have e' := (withSign neg (nearest n q)).real_eq
  have es : (withSign neg (nearest n q)).sgn = if neg then -1 else 1 := by unfold F64.sgn; rw [p1]
  rw [es] at e'
  have tie := nearest_tie neg n hq hfin (y := y)
  have fz : realVal (0 : F64) = 0 := by
    rw [F64.real_eq, show (0 : F64).abs = 0 by decide]; simp
  have z0 := near 0 ((F64.finite_iff _).mpr (by decide))
  have hn : nearest n q ≤ 2047 * 2 ^ 52 := nearest_le n q
  have even : nearest n q % 2 = 0 := by
    generalize (withSign neg (nearest n q)).abs = A at *
    have l0 : |(if neg then (-1 : ℚ) else 1) * ((A : ℚ) / unit64) - (if neg then -1 else 1) * ((n : ℚ) / q)| = |(A : ℚ) / unit64 - (n : ℚ) / q| := by
      rw [← mul_sub, abs_mul]
      rcases ht with h | h <;> rw [h] <;> simp
    have l := signed_distance ((y.abs : ℚ) / unit64) ((n : ℚ) / q) y.sgn (if neg then -1 else 1) (div_nonneg (Nat.cast_nonneg _) (Nat.cast_nonneg _))
      (div_nonneg (Nat.cast_nonneg _) (Nat.cast_nonneg _)) hs ht
    rw [e', hv, l0] at he z0
    rw [fz, zero_sub, abs_neg, abs_mul] at z0
    rw [e, e'] at hne
    rw [e] at he
    have hm : y.abs ≠ A := by
      intro c
      rw [c] at he hne
      have hA : 0 ≤ (A : ℚ) / unit64 := div_nonneg (Nat.cast_nonneg _) (Nat.cast_nonneg _)
      have hB : 0 ≤ (n : ℚ) / q := div_nonneg (Nat.cast_nonneg _) (Nat.cast_nonneg _)
      generalize (A : ℚ) / unit64 = A at *
      generalize (n : ℚ) / q = B at *
      have fin : A + B = |A - B| → A = 0 := by
        intro hh
        have hz : |A - B| ≤ B := by
          refine z0.trans (le_of_eq ?_)
          rw [abs_of_nonneg hB]
          rcases ht with h | h <;> rw [h] <;> simp
        linarith
      have zero : A ≠ 0 := by rintro rfl; exact hne (by ring)
      rcases hs with h1 | h1 <;> rcases ht with h2 | h2 <;> rw [h1, h2] at he hne
      · exact hne rfl
      · refine zero (fin ?_)
        rw [← he, show (1 : ℚ) * A - -1 * B = A + B by ring, abs_of_nonneg (by linarith)]
      · refine zero (fin ?_)
        rw [← he, show (-1 : ℚ) * A - 1 * B = -(A + B) by ring, abs_neg, abs_of_nonneg (by linarith)]
      · exact hne rfl
    have l := l.trans (le_of_eq he)
    rw [div_distance hU hq', div_distance hU hq'] at l
    have l := (div_le_div_iff_of_pos_right (mul_pos hU hq')).mp l
    refine tie hm ?_
    have key2 : |((y.abs : ℚ) * q - ((n * unit64 : Nat) : ℚ))| ≤ |((A : ℚ) * q - ((n * unit64 : Nat) : ℚ))| := by
      rw [Nat.cast_mul]; exact l
    generalize n * unit64 = N at *
    exact_mod_cast key2
  unfold withSign
  rw [BitVec.toNat_ofNat]
  cases neg <;> simp <;> omega

/-- which numbers are read as finite ones -/
theorem nearest_lt_iff (n : Nat) {q : Nat} (hq : 0 < q) : nearest n q < 2047 * 2 ^ 52 ↔ 2 * (n * unit64) < (2 ^ 54 - 1) * (q * 2 ^ 2045) := by
  obtain ⟨e, f, h1, h2, h3, h4, h5, h6⟩ := nearest_exp n hq
  generalize n * unit64 = N at *
  obtain ⟨T, hT⟩ : ∃ T, T = 2045 := ⟨_, rfl⟩
  rw [← hT]
  have hk : ∀ k, q * 2 ^ (k + T) = 2 ^ k * (q * 2 ^ T) := fun k => by rw [Nat.pow_add]; ring
  have hp : 0 < q * 2 ^ T := Nat.mul_pos hq (Nat.pow_pos (by decide))
  constructor
  · intro h
    by_contra hc
    rcases Nat.lt_trichotomy e T with he | he | he
    · have a1 : q * 2 ^ (53 + e) ≤ q * 2 ^ (52 + T) := Nat.mul_le_mul_left _ (Nat.pow_le_pow_right (by decide) (by omega))
      rw [hk] at a1
      generalize q * 2 ^ T = P at *
      omega
    · rw [he] at h2
      have := roundEven_ge (n := 2 ^ 53 - 1) hp (by decide) (le_trans (le_of_eq rfl) (not_lt.mp hc))
      rw [← h2] at this
      omega
    · have := h6 (by omega)
      omega
  · intro h
    have he : e ≤ T := by
      by_contra hc
      have a1 := h3 (by omega)
      have a2 : q * 2 ^ (53 + T) ≤ q * 2 ^ (52 + e) := Nat.mul_le_mul_left _ (Nat.pow_le_pow_right (by decide) (by omega))
      rw [hk] at a2
      generalize q * 2 ^ T = P at *
      omega
    have : e * 2 ^ 52 + f < 2047 * 2 ^ 52 := by
      by_cases hc : e = T
      · have : f ≤ 2 ^ 53 - 1 := by
          rw [h2, hc]
          exact roundEven_lt hp (lt_of_lt_of_le h (le_of_eq rfl))
        omega
      · omega
    rw [h1]
    omega

theorem pow_split {a b c : Nat} (h : c = a + b + 1) : 2 ^ c = 2 * 2 ^ a * 2 ^ b := by rw [h, Nat.pow_succ, Nat.pow_add]; ring

theorem ratio_finite64 (neg : Bool) (n : Nat) {q : Nat} (hq : 0 < q) {v : ℚ} (hv : v = (if neg then -1 else 1) * ((n : ℚ) / (q : ℚ))) :
    (IsFinite (withSign neg (nearest n q)) ↔ |v| < (2 ^ 54 - 1) * 2 ^ 970) ∧ (¬ IsFinite (withSign neg (nearest n q)) → (withSign neg (nearest n q)).toNat % 2 ^ 63 = 0x7FF0000000000000) := by
  obtain ⟨p1, p2, -⟩ := withSign_parts neg (nearest_le n q)
  have hq' : (0 : ℚ) < (q : ℚ) := by exact_mod_cast hq
  have ht : (if neg then (-1 : ℚ) else 1) = 1 ∨ (if neg then (-1 : ℚ) else 1) = -1 := by cases neg <;> simp
  have habs : |v| = (n : ℚ) / q := by
    rw [hv, abs_mul, abs_of_nonneg (div_nonneg (Nat.cast_nonneg n) (Nat.cast_nonneg q) : (0 : ℚ) ≤ (n : ℚ) / q)]
    rcases ht with h | h <;> rw [h] <;> simp
  constructor
  · rw [F64.finite_iff, p2, nearest_lt_iff n hq, habs, div_lt_iff₀ hq']
    have e2 : (2 : Nat) ^ 2045 = 2 * unit64 * 2 ^ 970 := by
      unfold unit64
      rw [← pow_split (c := 2045) rfl]
    rw [e2]
    have hU := unit64_pos
    generalize unit64 = U at *
    have hW : (2 : ℚ) ^ 970 = ((2 ^ 970 : Nat) : ℚ) := by rw [Nat.cast_pow]; rfl
    rw [hW]
    generalize 2 ^ 970 = W at *
    have e1 : ((2 : ℚ) ^ 54 - 1) = ((2 ^ 54 - 1 : Nat) : ℚ) := by norm_num
    rw [e1]
    generalize (2 ^ 54 - 1 : Nat) = C at *
    have : (n : ℚ) < (C : ℚ) * W * q ↔ n < C * W * q := by exact_mod_cast Iff.rfl
    rw [this]
    have e3 : C * (q * (2 * U * W)) = (2 * U) * (C * W * q) := by ring
    have e4 : 2 * (n * U) = (2 * U) * n := by ring
    rw [e3, e4]
    exact Nat.mul_lt_mul_left (by omega)
  · intro h
    rw [F64.finite_iff, p2] at h
    have := nearest_le n q
    have e : nearest n q = 2047 * 2 ^ 52 := by omega
    rw [e]
    cases neg <;> decide

theorem ten_ratio (n : Nat) (m : Int) : ∃ a q : Nat, 0 < q ∧ (n : ℚ) * 10 ^ m = (a : ℚ) / (q : ℚ) ∧ nearest10 n m = nearest a q := by
  by_cases hm : 0 ≤ m
  · refine ⟨_, 1, Nat.one_pos, ?_, if_pos hm⟩
    obtain ⟨j, rfl⟩ := Int.eq_ofNat_of_zero_le hm
    rw [zpow_natCast]
    push_cast
    simp only [Int.toNat_natCast]
    ring
  · refine ⟨n, _, ?_, ?_, if_neg hm⟩
    · exact Nat.pow_pos (by decide)
    obtain ⟨j, hj⟩ := Int.eq_ofNat_of_zero_le (by omega : 0 ≤ -m)
    obtain rfl : m = -(j : Int) := by omega
    rw [zpow_neg, zpow_natCast]
    simp only [neg_neg, Int.toNat_natCast]
    push_cast
    rw [div_eq_mul_inv]

/-- what a text that shows a number is read as -/
theorem shows_ratio {s t : Str} {neg : Bool} {v : ℚ} (h : ShowsNum s neg v) (ht : BlankC t) :
    ∃ n q : Nat, 0 < q ∧ v = (if neg then -1 else 1) * ((n : ℚ) / (q : ℚ)) ∧ scanLf (s ++ t) = some (withSign neg (nearest n q)) := by
  obtain ⟨i, f, q, e, k, rfl, hi, hfd, hq, hex, hv⟩ := h
  obtain ⟨a, b, h1, h2, h3⟩ := ten_ratio (Spec.digitsVal (i ++ f)) (k - (f.length : Int))
  refine ⟨a, b, h1, ?_, ?_⟩
  · rw [hv, ← h2, mul_assoc]
  · rw [List.append_assoc, List.append_assoc, List.append_assoc, scan_shown hi hfd hq hex ht, h3]

theorem withSign_ge (neg : Bool) {n : Nat} (h : n ≤ 2047 * 2 ^ 52) : 2 ^ 63 ≤ (withSign neg n).toNat ↔ neg = true := by
  unfold withSign
  rw [BitVec.toNat_ofNat]
  cases neg <;> simp <;> omega

theorem conv_none {t : Str} (h : ∀ v, ¬ ShowsInt t v) : scanInt t = .ok none ∧ scanInt64 t = .ok none ∧ scanUnsigned t = .ok none := by
  have := noInt_iff.mp h
  unfold scanInt scanInt64 scanUnsigned
  rw [this]
  exact ⟨rfl, rfl, rfl⟩

theorem conv_int (t : Str) : (∀ v, ShowsInt t v → Ty.int.conv t = if -2 ^ 31 ≤ v ∧ v < 2 ^ 31 then .ok (some (.int v)) else .ub .overflow) ∧
    ((∀ v, ¬ ShowsInt t v) → Ty.int.conv t = .ok none) := by
  constructor
  · intro v hv
    obtain ⟨p, hp, rfl⟩ := showsInt_iff.mp hv
    show (scanInt t >>= _) = _
    unfold scanInt
    rw [hp]
    simp only
    by_cases h : InI32 (sgn p)
    · rw [if_pos h, if_pos (by unfold InI32 at h; omega)]; rfl
    · rw [if_neg h, if_neg (by unfold InI32 at h; omega)]; rfl
  · intro h
    show (scanInt t >>= _) = _
    rw [(conv_none h).1]; rfl

theorem conv_int64 (t : Str) : (∀ v, ShowsInt t v → Ty.int64.conv t = if -2 ^ 63 ≤ v ∧ v < 2 ^ 63 then .ok (some (.int64 v)) else .ub .overflow) ∧
    ((∀ v, ¬ ShowsInt t v) → Ty.int64.conv t = .ok none) := by
  constructor
  · intro v hv
    obtain ⟨p, hp, rfl⟩ := showsInt_iff.mp hv
    show (scanInt64 t >>= _) = _
    unfold scanInt64
    rw [hp]
    simp only
    by_cases h : -9223372036854775808 ≤ sgn p ∧ sgn p ≤ 9223372036854775807
    · rw [if_pos h, if_pos (by omega)]; rfl
    · rw [if_neg h, if_neg (by omega)]; rfl
  · intro h
    show (scanInt64 t >>= _) = _
    rw [(conv_none h).2.1]; rfl

theorem conv_unsigned (t : Str) : (∀ v, ShowsInt t v → Ty.unsigned.conv t = if -2 ^ 32 < v ∧ v < 2 ^ 32 then .ok (some (.unsigned (v % 2 ^ 32).toNat)) else .ub .overflow) ∧
    ((∀ v, ¬ ShowsInt t v) → Ty.unsigned.conv t = .ok none) := by
  constructor
  · intro v hv
    obtain ⟨⟨b, n⟩, hp, rfl⟩ := showsInt_iff.mp hv
    show (scanUnsigned t >>= _) = _
    unfold scanUnsigned
    rw [hp]
    simp only
    by_cases h : n < 4294967296
    · have hc : -2 ^ 32 < sgn (b, n) ∧ sgn (b, n) < 2 ^ 32 := by unfold sgn; cases b <;> simp <;> omega
      rw [if_pos h, if_pos hc]
      have e : (if b = true then u32 (4294967296 - n) else n) = (sgn (b, n) % 2 ^ 32).toNat := by
        unfold sgn
        cases b <;> simp [u32] <;> omega
      rw [e]; rfl
    · have hc : ¬ (-2 ^ 32 < sgn (b, n) ∧ sgn (b, n) < 2 ^ 32) := by unfold sgn; cases b <;> simp <;> omega
      rw [if_neg h, if_neg hc]; rfl
  · intro h
    show (scanUnsigned t >>= _) = _
    rw [(conv_none h).2.2]; rfl

theorem conv_bool (t : Str) : (∀ v, ShowsInt t v → Ty.bool.conv t = if -2 ^ 31 ≤ v ∧ v < 2 ^ 31 then .ok (some (.bool (v ≠ 0))) else .ub .overflow) ∧
    ((∀ v, ¬ ShowsInt t v) → (t = lit "true" → Ty.bool.conv t = .ok (some (.bool true))) ∧ (t = lit "false" → Ty.bool.conv t = .ok (some (.bool false))) ∧
      (t ≠ lit "true" → t ≠ lit "false" → Ty.bool.conv t = .ok none)) := by
  constructor
  · intro v hv
    obtain ⟨p, hp, rfl⟩ := showsInt_iff.mp hv
    show (scanBool t >>= _) = _
    unfold scanBool scanInt
    rw [hp]
    simp only
    by_cases h : InI32 (sgn p)
    · have hc : -2 ^ 31 ≤ sgn p ∧ sgn p < 2 ^ 31 := by unfold InI32 at h; omega
      rw [if_pos h, if_pos hc]
      generalize sgn p = v
      show Out.ok (some (Scalar.bool (if v = 0 then false else true))) = _
      by_cases h0 : v = 0 <;> simp [h0]
    · have hc : ¬ (-2 ^ 31 ≤ sgn p ∧ sgn p < 2 ^ 31) := by unfold InI32 at h; omega
      rw [if_neg h, if_neg hc]; rfl
  · intro h
    have e : Ty.bool.conv t = .ok ((if t = lit "true" then some true else if t = lit "false" then some false else none).map Scalar.bool) := by
      show (scanBool t >>= _) = _
      unfold scanBool
      rw [(conv_none h).1]; rfl
    rw [e]
    refine ⟨fun h1 => by rw [if_pos h1]; rfl, fun h1 => ?_, fun h1 h2 => by rw [if_neg h1, if_neg h2]; rfl⟩
    subst h1
    rfl

end Verif.Tec
