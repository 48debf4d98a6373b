import Verif.Proof.Number2
import Verif.Model.Xml.Float
import Verif.Spec.XmlFloat
/-!
# The number read by `%f` is the nearest `float`
-/
namespace Verif.Tec
open Spec Xml Json

/-- the exponent chosen by `nearest32` -/
theorem nearest32_exp (n : Nat) {q : Nat} (hq : 0 < q) : ∃ e f, nearest32 n q = min (e * 2 ^ 23 + f) (255 * 2 ^ 23) ∧
    f = roundEven (n * unit32) (q * 2 ^ e) ∧ (0 < e → q * 2 ^ (23 + e) ≤ n * unit32) ∧ n * unit32 < q * 2 ^ (24 + e) ∧ f ≤ 2 ^ 24 ∧ (0 < e → 2 ^ 23 ≤ f) := by
  refine ⟨Nat.log2 (n * unit32 / q) - 23, _, rfl, rfl, ?_⟩
  generalize n * unit32 = N
  have h1 : ∀ e, e = Nat.log2 (N / q) - 23 → (0 < e → q * 2 ^ (23 + e) ≤ N) ∧ N < q * 2 ^ (24 + e) := by
    intro e he
    have hlt : N / q < 2 ^ (24 + e) := lt_of_lt_of_le Nat.lt_log2_self (Nat.pow_le_pow_right (by decide) (by omega))
    rw [Nat.div_lt_iff_lt_mul hq, Nat.mul_comm] at hlt
    refine ⟨fun h => ?_, hlt⟩
    have h0 : N / q ≠ 0 := by
      intro h0
      rw [h0, Nat.log2_zero] at he
      omega
    have := Nat.log2_self_le h0
    rw [show 23 + e = Nat.log2 (N / q) by omega, Nat.mul_comm]
    exact (Nat.le_div_iff_mul_le hq).mp this
  obtain ⟨a, b⟩ := h1 _ rfl
  generalize Nat.log2 (N / q) - 23 = e at *
  have hp : 0 < q * 2 ^ e := Nat.mul_pos hq (Nat.pow_pos (by decide))
  refine ⟨a, b, roundEven_le hp ?_, fun h => le_roundEven hp ?_⟩
  · rw [Nat.pow_add] at b
    calc N ≤ q * (2 ^ 24 * 2 ^ e) := le_of_lt b
      _ = 2 ^ 24 * (q * 2 ^ e) := by rw [Nat.mul_left_comm]
  · have := a h
    rw [Nat.pow_add] at this
    calc 2 ^ 23 * (q * 2 ^ e) = q * (2 ^ 23 * 2 ^ e) := by rw [Nat.mul_left_comm]
      _ ≤ N := this

theorem mag32_pattern {e f : Nat} (h1 : f ≤ 2 ^ 24) (h2 : 0 < e → 2 ^ 23 ≤ f) : mag 23 (e * 2 ^ 23 + f) = f * 2 ^ e := by
  unfold mag
  by_cases c1 : f < 2 ^ 23
  · obtain rfl : e = 0 := by
      by_contra h
      have := h2 (by omega)
      omega
    rw [if_pos (by omega), Nat.pow_zero, Nat.mul_one, Nat.zero_mul, Nat.zero_add, Nat.mod_eq_of_lt c1]
  · by_cases c2 : f = 2 ^ 24
    · subst c2
      have d : (e * 2 ^ 23 + 2 ^ 24) / 2 ^ 23 = e + 2 := by omega
      have m : (e * 2 ^ 23 + 2 ^ 24) % 2 ^ 23 = 0 := by omega
      rw [d, m, if_neg (by omega), show e + 2 - 1 = e + 1 by omega, Nat.pow_succ]
      ring
    · have d : (e * 2 ^ 23 + f) / 2 ^ 23 = e + 1 := by omega
      have m : (e * 2 ^ 23 + f) % 2 ^ 23 = f - 2 ^ 23 := by omega
      rw [d, m, if_neg (by omega), show 2 ^ 23 + (f - 2 ^ 23) = f by omega, show e + 1 - 1 = e by omega]

theorem scanF_digits {neg : Bool} {i r : Str} (hi : JDigits i) :
    scanF ((if neg then lit "-" else []) ++ (i ++ r)) =
      (let i' := (i ++ r).takeWhile isDigitB
       let r' := (i ++ r).dropWhile isDigitB
       let f := match r' with
        | 46 :: t => t.takeWhile isDigitB
        | _ => []
       let r'' := match r' with
        | 46 :: t => t.dropWhile isDigitB
        | r => r
       if i' ++ f = [] then none
       else (scanExp r'').map fun k => withSign32 neg (nearest32Ten (numOf (i' ++ f)) (k - f.length))) := by
  obtain ⟨b, i, rfl⟩ := List.exists_cons_of_ne_nil hi.1
  have hb := lowerB_digit (hi.2 b (by simp))
  have hd : ((if neg then lit "-" else []) ++ ((b :: i) ++ r)).dropWhile isSpaceB = (if neg then lit "-" else []) ++ ((b :: i) ++ r) := by
    apply dropSpace
    intro c t h
    cases neg with
    | true => obtain rfl := (List.cons.inj h).1; decide
    | false => obtain rfl := (List.cons.inj h).1; exact hb.2.2
  have hs : scanSign ((if neg then lit "-" else []) ++ ((b :: i) ++ r)) = (neg, (b :: i) ++ r) := by
    cases neg with
    | true => rfl
    | false => exact scanSign_digit (hi.2 b (by simp)) _
  unfold scanF
  rw [hd, hs]
  simp only
  have w1 : (((b :: i) ++ r).take 3).map lowerB ≠ lit "inf" := fun h => hb.1 (List.cons.inj h).1
  have w2 : (((b :: i) ++ r).take 3).map lowerB ≠ lit "nan" := fun h => hb.2.1 (List.cons.inj h).1
  rw [if_neg w1, if_neg w2]
  rfl

theorem scanF_shown {neg : Bool} {i f q e t : Str} {k : Int} (hi : JDigits i) (hf : ∀ b ∈ f, JDigit b) (hq : (q = [] ∧ f = []) ∨ q = lit "." ++ f) (he : ExpOf e k)
    (ht : BlankC t) :
    scanF ((if neg then lit "-" else []) ++ (i ++ (q ++ (e ++ t)))) = some (withSign32 neg (nearest32Ten (Spec.digitsVal (i ++ f)) (k - f.length))) := by
  rw [scanF_digits hi]
  obtain ⟨e1, e2⟩ := scanExp_blank he ht
  rcases hq with ⟨rfl, rfl⟩ | rfl
  · obtain ⟨i1, i2⟩ := span_digits (i := i) (r := e ++ t) hi.2 fun c r h => (e2 c r h).1
    rw [List.nil_append]
    simp only
    rw [i1, i2]
    generalize e ++ t = w at *
    have hi' : i ++ [] ≠ [] := by rw [List.append_nil]; exact hi.1
    repeat' split
    all_goals first
      | exact absurd rfl (e2 _ _ rfl).2
      | skip
    · rename_i h; exact absurd h hi'
    · rw [e1]; rfl
  · obtain ⟨i1, i2⟩ := span_digits (i := i) (r := lit "." ++ (f ++ (e ++ t))) hi.2 fun c t h => by obtain rfl := (List.cons.inj h).1; decide
    obtain ⟨f1, f2⟩ := span_digits (i := f) (r := e ++ t) hf fun c r h => (e2 c r h).1
    rw [List.append_assoc]
    simp only
    rw [i1, i2]
    show (if i ++ (f ++ (e ++ t)).takeWhile isDigitB = [] then none else
      (scanExp ((f ++ (e ++ t)).dropWhile isDigitB)).map fun k => withSign32 neg (nearest32Ten (numOf (i ++ (f ++ (e ++ t)).takeWhile isDigitB)) (k - ((f ++ (e ++ t)).takeWhile isDigitB).length))) = _
    rw [f1, f2, e1, if_neg (fun h => hi.1 (List.append_eq_nil_iff.mp h).1)]
    rfl

/-- a number of the format is a multiple of 2^e or below 2^(23+e) -/
theorem mag32_grid (p e : Nat) : (∃ m, mag 23 p = m * 2 ^ e) ∨ (mag 23 p < 2 ^ (23 + e) ∧ 0 < e) := by
  have h1 : p % 2 ^ 23 < 2 ^ 23 := Nat.mod_lt _ (by decide)
  by_cases he : e = 0
  · subst he; exact Or.inl ⟨mag 23 p, by simp⟩
  by_cases h0 : p / 2 ^ 23 = 0
  · refine Or.inr ⟨?_, by omega⟩
    unfold mag
    rw [if_pos h0]
    exact lt_of_lt_of_le h1 (Nat.pow_le_pow_right (by decide) (by omega))
  · unfold mag
    rw [if_neg h0]
    generalize p % 2 ^ 23 = f at *
    generalize p / 2 ^ 23 = x at *
    by_cases hc : e ≤ x - 1
    · left
      refine ⟨(2 ^ 23 + f) * 2 ^ (x - 1 - e), ?_⟩
      rw [Nat.mul_assoc, ← Nat.pow_add, Nat.sub_add_cancel hc]
    · right
      refine ⟨?_, by omega⟩
      calc (2 ^ 23 + f) * 2 ^ (x - 1) < 2 ^ 24 * 2 ^ (x - 1) := Nat.mul_lt_mul_of_pos_right (by omega) (Nat.pow_pos (by decide))
        _ = 2 ^ (24 + (x - 1)) := by rw [Nat.pow_add]
        _ ≤ 2 ^ (23 + e) := Nat.pow_le_pow_right (by decide) (by omega)

theorem nearest32_le (n q : Nat) : nearest32 n q ≤ 255 * 2 ^ 23 := Nat.min_le_right _ _

/-- the pattern found, if it is finite, is that of the nearest number -/
theorem nearest32_abs (n : Nat) {q : Nat} (hq : 0 < q) (hf : nearest32 n q < 255 * 2 ^ 23) (y : Nat) :
    |(mag 23 (nearest32 n q) : Int) * q - ((n * unit32 : Nat) : Int)| ≤ |(mag 23 y : Int) * q - ((n * unit32 : Nat) : Int)| := by
  obtain ⟨e, f, h1, h2, h3, h4, h5, h6⟩ := nearest32_exp n hq
  have h7 : nearest32 n q = e * 2 ^ 23 + f := by rw [h1] at hf ⊢; omega
  rw [h7, mag32_pattern h5 h6]
  have hp : 0 < q * 2 ^ e := Nat.mul_pos hq (Nat.pow_pos (by decide))
  have key := roundEven_nearest (n * unit32) hp
  rw [← h2] at key
  generalize n * unit32 = N at *
  have el : ((f * 2 ^ e : Nat) : Int) * q = (f : Int) * ((q * 2 ^ e : Nat) : Int) := by push_cast; ring
  rw [el]
  rcases mag32_grid y e with ⟨m, hm⟩ | ⟨hy, he⟩
  · have := key m
    rw [hm]
    have er : ((m * 2 ^ e : Nat) : Int) * q = (m : Int) * ((q * 2 ^ e : Nat) : Int) := by push_cast; ring
    rw [er]; exact this
  · refine (key (2 ^ 23)).trans ?_
    have a1 : (2 : Int) ^ 23 * ((q * 2 ^ e : Nat) : Int) = ((q * 2 ^ (23 + e) : Nat) : Int) := by
      rw [Nat.pow_add]; push_cast; ring
    have a2 := h3 he
    have a3 : mag 23 y * q ≤ q * 2 ^ (23 + e) := by rw [Nat.mul_comm]; exact Nat.mul_le_mul_left _ (le_of_lt hy)
    rw [a1]
    generalize q * 2 ^ (23 + e) = A at *
    have a4 : (mag 23 y : Int) * q = ((mag 23 y * q : Nat) : Int) := by push_cast; rfl
    rw [a4]
    generalize mag 23 y * q = B at *
    rw [abs_of_nonpos (by omega), abs_of_nonpos (by omega)]
    omega

theorem roundEven_ge {a b n : Nat} (hb : 0 < b) (hn : n % 2 = 1) (h : (2 * n + 1) * b ≤ 2 * a) : n + 1 ≤ roundEven a b := by
  have h1 := Nat.div_add_mod a b
  have h2 := Nat.mod_lt a hb
  by_cases hc : n + 1 ≤ a / b
  · unfold roundEven
    split
    · exact hc
    · split <;> omega
  · have h3 : n ≤ a / b := by
      rw [Nat.le_div_iff_mul_le hb]
      rw [Nat.add_mul, Nat.one_mul, Nat.mul_assoc] at h
      omega
    have h4 : a / b = n := by omega
    rw [h4] at h1
    rw [Nat.add_mul, Nat.one_mul, Nat.mul_assoc, Nat.mul_comm n b] at h
    unfold roundEven
    rw [h4, if_neg (by omega)]
    split <;> omega

/-- which numbers are read as finite ones -/
theorem nearest32_lt (n : Nat) {q : Nat} (hq : 0 < q) : nearest32 n q < 255 * 2 ^ 23 ↔ 2 * (n * unit32) < (2 ^ 25 - 1) * (q * 2 ^ 253) := by
  obtain ⟨e, f, h1, h2, h3, h4, h5, h6⟩ := nearest32_exp n hq
  generalize n * unit32 = N at *
  obtain ⟨P, hP⟩ : ∃ P, P = q * 2 ^ 253 := ⟨_, rfl⟩
  have hk : ∀ k, q * 2 ^ (k + 253) = 2 ^ k * P := fun k => by rw [hP, Nat.pow_add]; ring
  have hp : 0 < P := by rw [hP]; exact Nat.mul_pos hq (Nat.pow_pos (by decide))
  rw [← hP]
  constructor
  · intro h
    by_contra hc
    rcases Nat.lt_trichotomy e 253 with he | he | he
    · have aux : ∀ k, e + 1 ≤ k → q * 2 ^ (24 + e) ≤ q * 2 ^ (23 + k) := fun k hk => Nat.mul_le_mul_left _ (Nat.pow_le_pow_right (by decide) (by omega))
      have a1 := aux 253 (by omega)
      rw [hk] at a1
      omega
    · subst he
      rw [← hP] at h2
      have := roundEven_ge (n := 2 ^ 24 - 1) hp (by decide) (le_trans (le_of_eq rfl) (not_lt.mp hc))
      rw [← h2] at this
      omega
    · have := h6 (by omega)
      omega
  · intro h
    have he : e ≤ 253 := by
      by_contra hc
      have a1 := h3 (by omega)
      have a2 : q * 2 ^ (24 + 253) ≤ q * 2 ^ (23 + e) := Nat.mul_le_mul_left _ (Nat.pow_le_pow_right (by decide) (by omega))
      rw [hk] at a2
      omega
    have : e * 2 ^ 23 + f < 255 * 2 ^ 23 := by
      by_cases hc : e = 253
      · subst hc
        have : f ≤ 2 ^ 24 - 1 := by
          rw [h2, ← hP]
          exact roundEven_lt hp (lt_of_lt_of_le h (le_of_eq rfl))
        omega
      · omega
    rw [h1]
    omega

/-! ## With the sign -/

theorem unit32_cast : ((unit32 : Nat) : ℚ) = 2 ^ 149 := by unfold unit32; push_cast; rfl

theorem withSign32_parts (neg : Bool) {p : Nat} (h : p ≤ 255 * 2 ^ 23) : withSign32 neg p < 2 ^ 32 ∧ (FloatNeg (withSign32 neg p) ↔ neg = true) ∧
    (finite 32 23 (withSign32 neg p) ↔ p < 255 * 2 ^ 23) ∧ (scaled 32 23 (withSign32 neg p) : ℚ) = (if neg then -1 else 1) * (mag 23 p : ℚ) ∧ withSign32 neg p % 2 ^ 31 = p := by
  unfold withSign32 FloatNeg finite scaled
  cases neg
  · refine ⟨by simp; omega, by simp; omega, by simp; omega, ?_, by simp; omega⟩
    simp only [Bool.false_eq_true, if_false]
    rw [if_pos (by omega)]
    simp
  · refine ⟨by simp; omega, by simp, by simp; omega, ?_, by simp; omega⟩
    simp only [if_true]
    rw [if_neg (by omega), show 2 ^ 31 + p - 2 ^ (32 - 1) = p by omega]
    push_cast
    ring

/-- sign and magnitude -/
theorem floatVal_parts {y : Nat} (h : y < 2 ^ 32) : ∃ s : ℚ, (s = 1 ∨ s = -1) ∧ floatVal y = s * ((mag 23 (y % 2 ^ 31) : ℚ) / 2 ^ 149) ∧ (s = -1 ↔ FloatNeg y) := by
  unfold floatVal scaled FloatNeg
  by_cases hc : y < 2 ^ 31
  · refine ⟨1, .inl rfl, ?_, by constructor <;> intro h <;> [norm_num at h; omega]⟩
    rw [if_pos hc, Nat.mod_eq_of_lt hc]
    push_cast
    ring
  · refine ⟨-1, .inr rfl, ?_, by constructor <;> intro h <;> [omega; rfl]⟩
    rw [if_neg hc, show y - 2 ^ (32 - 1) = y % 2 ^ 31 by omega]
    push_cast
    ring

/-- the number `n / q` with a sign -/
theorem read_ratio32 (neg : Bool) (n : Nat) {q : Nat} (hq : 0 < q) {v : ℚ} (hv : v = (if neg then -1 else 1) * ((n : ℚ) / (q : ℚ))) :
    withSign32 neg (nearest32 n q) < 2 ^ 32 ∧ (FloatNeg (withSign32 neg (nearest32 n q)) ↔ neg = true) ∧
    (finite 32 23 (withSign32 neg (nearest32 n q)) ↔ |v| < 2 ^ 128 - 2 ^ 103) ∧
    (¬ finite 32 23 (withSign32 neg (nearest32 n q)) → withSign32 neg (nearest32 n q) % 2 ^ 31 = 0x7F800000) ∧
    (finite 32 23 (withSign32 neg (nearest32 n q)) → ∀ y, IsFloat y → |floatVal (withSign32 neg (nearest32 n q)) - v| ≤ |floatVal y - v|) := by
  obtain ⟨p1, p2, p3, p4, p5⟩ := withSign32_parts neg (nearest32_le n q)
  have hU : (0 : ℚ) < 2 ^ 149 := by positivity
  have hq' : (0 : ℚ) < (q : ℚ) := by exact_mod_cast hq
  have ht : (if neg then (-1 : ℚ) else 1) = 1 ∨ (if neg then (-1 : ℚ) else 1) = -1 := by cases neg <;> simp
  have habs : |v| = (n : ℚ) / q := by
    rw [hv, abs_mul, abs_of_nonneg (div_nonneg (Nat.cast_nonneg n) (Nat.cast_nonneg q) : (0 : ℚ) ≤ (n : ℚ) / q)]
    rcases ht with h | h <;> rw [h] <;> simp
  refine ⟨p1, p2, ?_, ?_, ?_⟩
  · rw [p3, nearest32_lt n hq, habs, div_lt_iff₀ hq']
    have e1 : ((2 ^ 128 - 2 ^ 103 : ℚ)) = (2 ^ 25 - 1) * 2 ^ 103 := by norm_num
    rw [e1]
    constructor
    · intro h
      have h : (2 : ℚ) * (n * 2 ^ 149) < (2 ^ 25 - 1) * (q * 2 ^ 253) := by
        have : ((2 * (n * unit32) : Nat) : ℚ) < (((2 ^ 25 - 1) * (q * 2 ^ 253) : Nat) : ℚ) := by exact_mod_cast h
        rw [Nat.cast_mul, Nat.cast_mul, Nat.cast_mul, Nat.cast_mul, unit32_cast, Nat.cast_sub (by norm_num)] at this
        push_cast at this
        exact this
      have e2 : (2 : ℚ) ^ 253 = 2 * 2 ^ 149 * 2 ^ 103 := by norm_num
      rw [e2] at h
      have h2 : (2 * 2 ^ 149 : ℚ) * n < (2 * 2 ^ 149) * ((2 ^ 25 - 1) * 2 ^ 103 * q) := by linarith
      exact lt_of_mul_lt_mul_left h2 (by positivity)
    · intro h
      have e2 : (2 : ℚ) ^ 253 = 2 * 2 ^ 149 * 2 ^ 103 := by norm_num
      have h2 : (2 * 2 ^ 149 : ℚ) * n < (2 * 2 ^ 149) * ((2 ^ 25 - 1) * 2 ^ 103 * q) := mul_lt_mul_of_pos_left h (by positivity)
      have h3 : (2 : ℚ) * (n * 2 ^ 149) < (2 ^ 25 - 1) * (q * 2 ^ 253) := by rw [e2]; linarith
      have : ((2 * (n * unit32) : Nat) : ℚ) < (((2 ^ 25 - 1) * (q * 2 ^ 253) : Nat) : ℚ) := by
        rw [Nat.cast_mul, Nat.cast_mul, Nat.cast_mul, Nat.cast_mul, unit32_cast, Nat.cast_sub (by norm_num)]
        push_cast
        exact h3
      exact_mod_cast this
  · intro h
    rw [p3] at h
    have := nearest32_le n q
    rw [p5]
    omega
  · intro hf y hy
    have key := nearest32_abs n hq (p3.mp hf) (y % 2 ^ 31)
    obtain ⟨s, hs, e, -⟩ := floatVal_parts hy.1
    have e' : floatVal (withSign32 neg (nearest32 n q)) = (if neg then -1 else 1) * ((mag 23 (nearest32 n q) : ℚ) / 2 ^ 149) := by
      unfold floatVal; rw [p4]; ring
    rw [e, e', hv]
    have l := signed_distance ((mag 23 (y % 2 ^ 31) : ℚ) / 2 ^ 149) ((n : ℚ) / q) s (if neg then -1 else 1) (by positivity) (by positivity) hs ht
    have l0 : |(if neg then (-1 : ℚ) else 1) * ((mag 23 (nearest32 n q) : ℚ) / 2 ^ 149) - (if neg then -1 else 1) * ((n : ℚ) / q)| = |(mag 23 (nearest32 n q) : ℚ) / 2 ^ 149 - (n : ℚ) / q| := by
      rw [← mul_sub, abs_mul]
      rcases ht with h | h <;> rw [h] <;> simp
    rw [l0]
    refine le_trans ?_ l
    rw [div_distance hU hq', div_distance hU hq']
    refine div_le_div_of_nonneg_right ?_ (le_of_lt (mul_pos hU hq'))
    generalize mag 23 (nearest32 n q) = A at *
    generalize mag 23 (y % 2 ^ 31) = B at *
    have key2 : |((A : ℚ) * q - ((n * unit32 : Nat) : ℚ))| ≤ |((B : ℚ) * q - ((n * unit32 : Nat) : ℚ))| := by
      generalize n * unit32 = N at *
      exact_mod_cast key
    rw [Nat.cast_mul, unit32_cast] at key2
    exact key2

/-- the number shown by a text is read as the nearest number, with the sign of the text -/
theorem scanF_shows {s t : Str} {neg : Bool} {v : ℚ} (h : ShowsNum s neg v) (ht : BlankC t) : ∃ r, scanF (s ++ t) = some r ∧ r < 2 ^ 32 ∧ (FloatNeg r ↔ neg = true) ∧
    (finite 32 23 r ↔ |v| < 2 ^ 128 - 2 ^ 103) ∧ (¬ finite 32 23 r → r % 2 ^ 31 = 0x7F800000) ∧ (finite 32 23 r → ∀ y, IsFloat y → |floatVal r - v| ≤ |floatVal y - v|) := by
  obtain ⟨i, f, q, e, k, rfl, hi, hf, hq, he, hv⟩ := h
  rw [List.append_assoc, List.append_assoc, List.append_assoc]
  refine ⟨_, scanF_shown hi hf hq he ht, ?_⟩
  generalize Spec.digitsVal (i ++ f) = n at *
  generalize k - (f.length : Int) = m at *
  unfold nearest32Ten
  split
  · rename_i hm
    refine read_ratio32 neg _ (by decide) ?_
    obtain ⟨j, rfl⟩ := Int.eq_ofNat_of_zero_le hm
    rw [hv, zpow_natCast]
    push_cast
    simp only [Int.toNat_natCast]
    ring
  · rename_i hm
    refine read_ratio32 neg _ (Nat.pow_pos (by decide)) ?_
    obtain ⟨j, hj⟩ := Int.eq_ofNat_of_zero_le (by omega : 0 ≤ -m)
    obtain rfl : m = -(j : Int) := by omega
    rw [hv, zpow_neg, zpow_natCast]
    simp only [neg_neg, Int.toNat_natCast]
    push_cast
    rw [mul_assoc, div_eq_mul_inv]

end Verif.Tec
