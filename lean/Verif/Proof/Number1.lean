import Verif.Proof.Scanf3
import Verif.Proof.TecFloat
import Verif.Spec.XmlNumber
import Mathlib.Data.Nat.Dist
/-!
# What `%.17g` prints is read back exactly
-/
namespace Verif.Tec
open Spec Xml Json

/-! ## Zeros at the end -/

theorem trimZeros_split (s : Str) : ∃ j, s = trimZeros s ++ List.replicate j 48 := by
  refine ⟨(s.reverse.takeWhile (· == 48)).length, ?_⟩
  have h : s.reverse.takeWhile (· == 48) = List.replicate (s.reverse.takeWhile (· == 48)).length 48 := by
    refine List.eq_replicate_iff.2 ⟨rfl, fun b hb => ?_⟩
    exact beq_iff_eq.1 (List.all_eq_true.1 (List.all_takeWhile (l := s.reverse) (p := (· == 48))) b hb)
  have h2 := List.takeWhile_append_dropWhile (p := (· == 48)) (l := s.reverse)
  have h3 := congrArg List.reverse h2
  rw [List.reverse_reverse, List.reverse_append] at h3
  unfold trimZeros
  rw [← List.reverse_replicate, ← h]
  exact h3.symm

theorem digitsVal_zeros (j : Nat) : Spec.digitsVal (List.replicate j 48) = 0 := by
  induction j with
  | zero => rfl
  | succ j ih =>
    rw [List.replicate_succ, show (48 : UInt8) :: List.replicate j 48 = [48] ++ List.replicate j 48 from rfl, digitsVal_append, ih]
    rw [show Spec.digitsVal [48] = 0 from rfl, Nat.zero_mul]

theorem fraction_cases (s : Str) : (fraction s = [] ∧ trimZeros s = []) ∨ fraction s = lit "." ++ trimZeros s := by
  unfold fraction
  split
  · rename_i h; exact .inl ⟨rfl, h⟩
  · exact .inr rfl

theorem shows_fraction (x : F64) (d k : Nat) {e : Str} {m : Int} (he : ExpOf e m) :
    ShowsNum (minus x ++ (decNat (d / 10 ^ k) ++ (fraction (padded k d) ++ e))) x.neg (x.sgn * (d : ℚ) * (10 : ℚ) ^ (m - (k : Int))) := by
  obtain ⟨j, hj⟩ := trimZeros_split (padded k d)
  have hd := digits_split k d
  have hk := padded_length k d
  have hb := padded_digits k d
  refine ⟨_, trimZeros (padded k d), fraction (padded k d), e, m, rfl, decNat_jdigits _, fun b hm => hb b (by rw [hj]; exact List.mem_append_left _ hm), fraction_cases _, he, ?_⟩
  rw [hj, ← List.append_assoc, digitsVal_append, digitsVal_zeros, List.length_replicate, Nat.add_zero] at hd
  rw [hj, List.length_append, List.length_replicate] at hk
  generalize Spec.digitsVal (decNat (d / 10 ^ k) ++ trimZeros (padded k d)) = n at *
  have e1 : (d : ℚ) = n * 10 ^ j := by rw [← hd]; push_cast; rfl
  have e2 : m - ((trimZeros (padded k d)).length : Int) = m - (k : Int) + (j : Int) := by omega
  rw [e1, e2, zpow_add₀ (by norm_num), zpow_natCast]
  unfold F64.sgn
  ring

/-! ## The error of the digits -/

theorem gDigits_bounds (p : Nat) {x : F64} (h0 : x.abs ≠ 0) : 10 ^ p ≤ gDigits p x ∧ gDigits p x ≤ 10 ^ (p + 1) := by
  obtain ⟨h1, h2, h3⟩ := magnitude_bounds h0
  have e : x.abs * 10 ^ (324 + p) = x.abs * 10 ^ 324 * 10 ^ p := by rw [Nat.mul_assoc, ← Nat.pow_add]
  unfold gDigits
  obtain ⟨k, hk⟩ : ∃ k, magnitude x = k + 1 := ⟨magnitude x - 1, by omega⟩
  rw [hk] at h2 h3 ⊢
  rw [Nat.add_sub_cancel] at h2 ⊢
  rw [e]
  have hU := unit64_pos
  generalize unit64 = U at *
  generalize x.abs * 10 ^ 324 = M at *
  have hp : 0 < U * 10 ^ k := Nat.mul_pos hU (Nat.pow_pos (by decide))
  constructor
  · apply le_roundEven hp
    rw [Nat.mul_comm]
    exact Nat.mul_le_mul_right _ h2
  · apply roundEven_le hp
    calc M * 10 ^ p ≤ U * 10 ^ (k + 1) * 10 ^ p := Nat.mul_le_mul_right _ (le_of_lt h3)
      _ = 10 ^ (p + 1) * (U * 10 ^ k) := by rw [Nat.pow_succ, Nat.pow_succ]; ring

theorem error_boundG {a d U s t r T : ℚ} (hU : 0 < U) (ht : 0 < t) (hT : 0 < T) (er : r = t * T)
    (q1 : 2 * (d * (U * s)) ≤ 2 * (a * r) + U * s) (q2 : 2 * (a * r) ≤ 2 * (d * (U * s)) + U * s) (q3 : U * s ≤ a * t) :
    |d * (s / r) - a / U| ≤ 1 / (2 * T) * (a / U) := by
  subst er
  have e : d * (s / (t * T)) - a / U = (d * (U * s) - a * (t * T)) / (U * (t * T)) := by field_simp
  rw [e, abs_div, abs_of_pos (show 0 < U * (t * T) by positivity), div_le_iff₀ (by positivity)]
  have e2 : 1 / (2 * T) * (a / U) * (U * (t * T)) = a * t / 2 := by field_simp
  rw [e2, _root_.abs_le]
  constructor <;> linarith

theorem gDigits_error (p : Nat) {x : F64} (h0 : x.abs ≠ 0) :
    |x.sgn * (gDigits p x : ℚ) * (10 : ℚ) ^ ((magnitude x : Int) - 325 - (p : Int)) - realVal x| ≤ 1 / (2 * 10 ^ p) * |realVal x| := by
  obtain ⟨h1, h2, h3⟩ := magnitude_bounds h0
  have hp : 0 < unit64 * 10 ^ (magnitude x - 1) := Nat.mul_pos unit64_pos (Nat.pow_pos (by decide))
  obtain ⟨q1, q2⟩ := roundEven_bound (x.abs * 10 ^ (324 + p)) hp
  have e : (magnitude x : Int) - 325 - (p : Int) = ((magnitude x - 1 : Nat) : Int) - ((324 + p : Nat) : Int) := by omega
  rw [x.real_abs, x.real_eq, mul_assoc, F64.sgn_abs, e, zpow_ten]
  unfold gDigits
  generalize roundEven _ _ = d at *
  generalize magnitude x - 1 = k at *
  have hU := unit64_pos
  have er : (10 : ℚ) ^ (324 + p) = 10 ^ 324 * 10 ^ p := pow_add _ _ _
  generalize x.abs = a at *
  generalize unit64 = U at *
  generalize hs : 10 ^ k = s at *
  generalize ht : 10 ^ 324 = t at *
  generalize hr : 10 ^ (324 + p) = r at *
  have cs : (10 : ℚ) ^ k = s := by rw [← hs]; push_cast; rfl
  have ct : (10 : ℚ) ^ 324 = t := by rw [← ht]; push_cast; rfl
  have cr : (10 : ℚ) ^ (324 + p) = r := by rw [← hr]; push_cast; rfl
  rw [cs, cr]
  have p2 : 0 < t := by rw [← ht]; exact Nat.pow_pos (by decide)
  refine error_boundG (by exact_mod_cast hU) (by exact_mod_cast p2 : (0 : ℚ) < t) (pow_pos (by norm_num) _) ?_ (by exact_mod_cast q1) (by exact_mod_cast q2) (by exact_mod_cast h2)
  rw [← cr, er, ct]

/-- the digits and the exponent -/
theorem gParts_error (p : Nat) (x : F64) :
    |x.sgn * ((gParts p x).1 : ℚ) * (10 : ℚ) ^ ((gParts p x).2 - (p : Int)) - realVal x| ≤ 1 / (2 * 10 ^ p) * |realVal x| := by
  unfold gParts
  split
  · rename_i h0
    rw [x.real_abs, x.real_eq, h0, Nat.cast_zero, zero_div, mul_zero, mul_zero, zero_mul, sub_zero, abs_zero]
  · rename_i h0
    have er := gDigits_error p h0
    split
    · rename_i hc
      rw [hc] at er
      have e : x.sgn * ((10 ^ p : ℕ) : ℚ) * (10 : ℚ) ^ ((magnitude x : Int) - 324 - (p : Int)) =
          x.sgn * ((10 ^ (p + 1) : ℕ) : ℚ) * (10 : ℚ) ^ ((magnitude x : Int) - 325 - (p : Int)) := by
        rw [show (magnitude x : Int) - 324 - (p : Int) = (magnitude x : Int) - 325 - (p : Int) + 1 by ring, zpow_add_one₀ (by norm_num)]
        push_cast
        ring
      dsimp only
      rw [e]; exact er
    · dsimp only; exact er

/-- what `%g` prints shows a number near the one printed -/
theorem printG_shows (p : Nat) {x : F64} (h : x.special = false) :
    ShowsNum (printG p x) x.neg (x.sgn * ((gParts p x).1 : ℚ) * (10 : ℚ) ^ ((gParts p x).2 - (p : Int))) := by
  unfold printG
  rw [if_neg (by rw [h]; decide)]
  split
  · exact shows_fraction x _ p (expText_of _)
  · rename_i hc
    have h1 := shows_fraction x (gParts p x).1 ((p : Int) - (gParts p x).2).toNat (e := []) (m := 0) (.inl ⟨rfl, rfl⟩)
    rw [List.append_nil] at h1
    have e : (0 : Int) - ((((p : Int) - (gParts p x).2).toNat : Nat) : Int) = (gParts p x).2 - (p : Int) := by omega
    rw [e] at h1
    exact h1

/-! ## Reading -/

theorem blank_not {t : Str} (h : BlankC t) : ∀ c r, t = c :: r → isDigitB c = false ∧ c ≠ 46 ∧ lowerB c ≠ 101 := by
  intro c r e
  have := h c (by rw [e]; simp)
  revert this
  exact Json.all_bytes (p := fun b => (b = 32 ∨ (9 ≤ b ∧ b ≤ 13)) → isDigitB b = false ∧ b ≠ 46 ∧ lowerB b ≠ 101) (by decide +kernel) c

theorem scanExp_blank {e t : Str} {k : Int} (h : ExpOf e k) (ht : BlankC t) : scanExp (e ++ t) = some k ∧ ∀ c r, e ++ t = c :: r → isDigitB c = false ∧ c ≠ 46 := by
  rcases h with ⟨rfl, rfl⟩ | ⟨d, hd, ⟨rfl, rfl⟩ | ⟨rfl, rfl⟩⟩
  · refine ⟨?_, fun c r h => ⟨(blank_not ht c r h).1, (blank_not ht c r h).2.1⟩⟩
    cases t with
    | nil => rfl
    | cons c t =>
      show (if lowerB c = 101 then _ else some 0) = _
      rw [if_neg (blank_not ht c t rfl).2.2]
  · refine ⟨?_, fun c t h => by obtain rfl := (List.cons.inj h).1; decide⟩
    show (if lowerB 101 = 101 then (if (d ++ t).takeWhile isDigitB = [] then none else some (numOf ((d ++ t).takeWhile isDigitB) : Int)) else some 0) = _
    rw [(span_digits hd.2 fun c r h => (blank_not ht c r h).1).1, if_pos (by decide), if_neg hd.1]
    rfl
  · refine ⟨?_, fun c t h => by obtain rfl := (List.cons.inj h).1; decide⟩
    show (if lowerB 101 = 101 then (if (d ++ t).takeWhile isDigitB = [] then none else some (-(numOf ((d ++ t).takeWhile isDigitB) : Int))) else some 0) = _
    rw [(span_digits hd.2 fun c r h => (blank_not ht c r h).1).1, if_pos (by decide), if_neg hd.1]
    rfl

theorem scan_digits {neg : Bool} {i r : Str} (hi : JDigits i) :
    scanLf ((if neg then lit "-" else []) ++ (i ++ r)) =
      (let i' := (i ++ r).takeWhile isDigitB
       let r' := (i ++ r).dropWhile isDigitB
       let f := match r' with
        | 46 :: t => t.takeWhile isDigitB
        | _ => []
       let r'' := match r' with
        | 46 :: t => t.dropWhile isDigitB
        | r => r
       if i' ++ f = [] then none
       else (scanExp r'').map fun k => withSign neg (nearest10 (numOf (i' ++ f)) (k - f.length))) := by
  obtain ⟨b, i, rfl⟩ := List.exists_cons_of_ne_nil hi.1
  have hb := lowerB_digit (hi.2 b (by simp))
  have hd : ((if neg then lit "-" else []) ++ ((b :: i) ++ r)).dropWhile isSpaceB = (if neg then lit "-" else []) ++ ((b :: i) ++ r) := by
    apply dropSpace
    intro c t h
    cases neg with
    | true => obtain rfl := (List.cons.inj h).1; decide
    | false => obtain rfl := (List.cons.inj h).1; exact hb.2.2
  have hs : scanSign ((if neg then lit "-" else []) ++ ((b :: i) ++ r)) = (neg, (b :: i) ++ r) := by
    cases neg with
    | true => rfl
    | false => exact scanSign_digit (hi.2 b (by simp)) _
  unfold scanLf
  rw [hd, hs]
  simp only
  have w1 : (((b :: i) ++ r).take 3).map lowerB ≠ lit "inf" := fun h => hb.1 (List.cons.inj h).1
  have w2 : (((b :: i) ++ r).take 3).map lowerB ≠ lit "nan" := fun h => hb.2.1 (List.cons.inj h).1
  rw [if_neg w1, if_neg w2]
  rfl

theorem scan_shown {neg : Bool} {i f q e t : Str} {k : Int} (hi : JDigits i) (hf : ∀ b ∈ f, JDigit b) (hq : (q = [] ∧ f = []) ∨ q = lit "." ++ f) (he : ExpOf e k)
    (ht : BlankC t) :
    scanLf ((if neg then lit "-" else []) ++ (i ++ (q ++ (e ++ t)))) = some (withSign neg (nearest10 (Spec.digitsVal (i ++ f)) (k - f.length))) := by
  rw [scan_digits hi]
  obtain ⟨e1, e2⟩ := scanExp_blank he ht
  rcases hq with ⟨rfl, rfl⟩ | rfl
  · obtain ⟨i1, i2⟩ := span_digits (i := i) (r := e ++ t) hi.2 fun c r h => (e2 c r h).1
    rw [List.nil_append]
    simp only
    rw [i1, i2]
    generalize e ++ t = w at *
    have hi' : i ++ [] ≠ [] := by rw [List.append_nil]; exact hi.1
    repeat' split
    all_goals first
      | exact absurd rfl (e2 _ _ rfl).2
      | skip
    · rename_i h; exact absurd h hi'
    · rw [e1]; rfl
  · obtain ⟨i1, i2⟩ := span_digits (i := i) (r := lit "." ++ (f ++ (e ++ t))) hi.2 fun c t h => by obtain rfl := (List.cons.inj h).1; decide
    obtain ⟨f1, f2⟩ := span_digits (i := f) (r := e ++ t) hf fun c r h => (e2 c r h).1
    rw [List.append_assoc]
    simp only
    rw [i1, i2]
    show (if i ++ (f ++ (e ++ t)).takeWhile isDigitB = [] then none else
      (scanExp ((f ++ (e ++ t)).dropWhile isDigitB)).map fun k => withSign neg (nearest10 (numOf (i ++ (f ++ (e ++ t)).takeWhile isDigitB)) (k - ((f ++ (e ++ t)).takeWhile isDigitB).length))) = _
    rw [f1, f2, e1, if_neg (fun h => hi.1 (List.append_eq_nil_iff.mp h).1)]
    rfl

theorem nearest10_le (n : Nat) (k : Int) : nearest10 n k ≤ 2047 * 2 ^ 52 := by
  unfold nearest10; split <;> exact nearest_le _ _

/-- the number shown by a text is read as the nearest number, with the sign of the text -/
theorem scan_shows {s t : Str} {neg : Bool} {v : ℚ} (h : ShowsNum s neg v) (ht : BlankC t) : ∃ r, scanLf (s ++ t) = some r ∧ r.neg = neg ∧
    (IsFinite r → ∀ y, IsFinite y → |realVal r - v| ≤ |realVal y - v|) ∧ (∀ y, IsFinite y → |v| ≤ |realVal y| → IsFinite r) := by
  obtain ⟨i, f, q, e, k, rfl, hi, hf, hq, he, hv⟩ := h
  rw [List.append_assoc, List.append_assoc, List.append_assoc]
  refine ⟨_, scan_shown hi hf hq he ht, (withSign_parts neg (nearest10_le _ _)).1, ?_⟩
  generalize Spec.digitsVal (i ++ f) = n at *
  generalize k - (f.length : Int) = m at *
  unfold nearest10
  split
  · rename_i hm
    refine read_ratio neg _ (by decide) ?_
    obtain ⟨j, rfl⟩ := Int.eq_ofNat_of_zero_le hm
    rw [hv, zpow_natCast]
    push_cast
    simp only [Int.toNat_natCast]
    ring
  · rename_i hm
    refine read_ratio neg _ (Nat.pow_pos (by decide)) ?_
    obtain ⟨j, hj⟩ := Int.eq_ofNat_of_zero_le (by omega : 0 ≤ -m)
    obtain rfl : m = -(j : Int) := by omega
    rw [hv, zpow_neg, zpow_natCast]
    simp only [neg_neg, Int.toNat_natCast]
    push_cast
    rw [mul_assoc, div_eq_mul_inv]

/-! ## The gap around a number -/

theorem mul_gap {m n P : Nat} (h : m * P ≠ n * P) : P ≤ Nat.dist (m * P) (n * P) := by
  have hmn : m ≠ n := fun e => h (by rw [e])
  rcases Nat.lt_or_gt_of_ne hmn with c | c
  · have : (m + 1) * P ≤ n * P := Nat.mul_le_mul_right _ c
    rw [Nat.add_mul, Nat.one_mul] at this
    unfold Nat.dist; omega
  · have : (n + 1) * P ≤ m * P := Nat.mul_le_mul_right _ c
    rw [Nat.add_mul, Nat.one_mul] at this
    unfold Nat.dist; omega

/-- two numbers differ by at least 2^-53 of their size -/
theorem F64.gap (x y : F64) (h : y.abs ≠ x.abs) : x.abs ≤ 2 ^ 53 * Nat.dist y.abs x.abs := by
  have hd : 1 ≤ Nat.dist y.abs x.abs := by unfold Nat.dist; omega
  have h1 : x.frac < 2 ^ 52 := Nat.mod_lt _ (by decide)
  by_cases h0 : x.expo = 0
  · have : x.abs = x.frac := by unfold F64.abs; rw [if_pos h0]
    omega
  · have hx : x.abs = (2 ^ 52 + x.frac) * 2 ^ (x.expo - 1) := by unfold F64.abs; rw [if_neg h0]
    generalize x.expo - 1 = e at *
    have lt : x.abs < 2 ^ 53 * 2 ^ e := by
      rw [hx]; exact Nat.mul_lt_mul_of_pos_right (by omega) (Nat.pow_pos (by decide))
    rcases y.grid e with ⟨m, hm⟩ | ⟨hy, he⟩
    · have g : 2 ^ e ≤ Nat.dist y.abs x.abs := by
        rw [hm, hx]; exact mul_gap (by rw [← hm, ← hx]; exact h)
      exact le_trans (le_of_lt lt) (Nat.mul_le_mul_left _ g)
    · obtain ⟨e', rfl⟩ : ∃ e', e = e' + 1 := ⟨e - 1, by omega⟩
      have hp : 0 < 2 ^ e' := Nat.pow_pos (by decide)
      have ex : x.abs = 2 * (2 ^ 52 + x.frac) * 2 ^ e' := by rw [hx, Nat.pow_succ]; ring
      have ey : y.abs < 2 ^ 53 * 2 ^ e' := by
        calc _ < _ := hy
          _ = _ := by rw [show 52 + (e' + 1) = 53 + e' by omega, Nat.pow_add]
      by_cases hf : x.frac = 0
      · rw [hf] at ex
        rcases y.grid e' with ⟨m, hm⟩ | ⟨hy', -⟩
        · have g : 2 ^ e' ≤ Nat.dist y.abs x.abs := by
            rw [hm, ex]; exact mul_gap (by rw [← hm, ← ex]; exact h)
          refine le_trans (le_of_eq ?_) (Nat.mul_le_mul_left _ g)
          rw [ex, Nat.add_zero, ← Nat.pow_succ']
        · rw [Nat.pow_add] at hy'
          generalize 2 ^ e' = P at *
          unfold Nat.dist
          omega
      · have : (2 * (2 ^ 52 + 1)) * 2 ^ e' ≤ x.abs := by rw [ex]; exact Nat.mul_le_mul_right _ (by omega)
        rw [Nat.pow_succ] at lt
        generalize 2 ^ e' = P at *
        unfold Nat.dist
        omega

theorem F64.abs_inj {x y : F64} (h : x.abs = y.abs) : x.expo = y.expo ∧ x.frac = y.frac := by
  have h1 : x.frac < 2 ^ 52 := Nat.mod_lt _ (by decide)
  have h2 : y.frac < 2 ^ 52 := Nat.mod_lt _ (by decide)
  have key : ∀ x y : F64, x.frac < 2 ^ 52 → y.frac < 2 ^ 52 → x.abs = y.abs → x.expo ≤ y.expo := by
    intro x y h1 h2 h
    by_contra hc
    unfold F64.abs at h
    rw [if_neg (by omega)] at h
    have e1 : 2 ^ (y.expo - 1) ≤ 2 ^ (x.expo - 1) := Nat.pow_le_pow_right (by decide) (by omega)
    have p1 : 1 ≤ 2 ^ (x.expo - 1) := Nat.pow_pos (by decide)
    have p2 : 2 ^ 52 * 2 ^ (x.expo - 1) ≤ (2 ^ 52 + x.frac) * 2 ^ (x.expo - 1) := Nat.mul_le_mul_right _ (by omega)
    split at h
    · omega
    · have e2 : 2 * 2 ^ (y.expo - 1) ≤ 2 ^ (x.expo - 1) := by
        rw [← Nat.pow_succ']; exact Nat.pow_le_pow_right (by decide) (by omega)
      have p3 : 0 < 2 ^ (y.expo - 1) := Nat.pow_pos (by decide)
      have p4 : (2 ^ 52 + y.frac) * 2 ^ (y.expo - 1) < 2 ^ 53 * 2 ^ (y.expo - 1) := Nat.mul_lt_mul_of_pos_right (by omega) p3
      omega
  have he : x.expo = y.expo := Nat.le_antisymm (key x y h1 h2 h) (key y x h2 h1 h.symm)
  refine ⟨he, ?_⟩
  unfold F64.abs at h
  rw [he] at h
  split at h
  · exact h
  · have := Nat.eq_of_mul_eq_mul_right (Nat.pow_pos (by decide)) h
    omega

theorem F64.ext {x y : F64} (hn : x.neg = y.neg) (h : x.abs = y.abs) : x = y := by
  obtain ⟨h1, h2⟩ := F64.abs_inj h
  have hx := x.isLt
  have hy := y.isLt
  unfold F64.neg at hn
  unfold F64.expo at h1
  unfold F64.frac at h2
  apply BitVec.eq_of_toNat_eq
  rw [decide_eq_decide] at hn
  omega

/-! ## Seventeen digits -/

theorem gDigits_top {x : F64} (h : x.special = false) (hm : magnitude x = 633) : gDigits 16 x ≤ 17976931348623157 := by
  unfold gDigits
  rw [hm]
  refine roundEven_lt (Nat.mul_pos unit64_pos (Nat.pow_pos (by decide))) ?_
  have h1 := F64.abs_le h
  refine lt_of_le_of_lt (Nat.mul_le_mul_left 2 (Nat.mul_le_mul_right _ h1)) ?_
  unfold maxAbs unit64
  decide +kernel

theorem gNat_le {d : Nat} {j : Nat} (h : (d ≤ 17976931348623157 ∧ j = 633) ∨ (d ≤ 10 ^ 17 ∧ j ≤ 632)) : d * 10 ^ j * unit64 ≤ maxAbs * 10 ^ 341 := by
  have aux : 17976931348623157 * 10 ^ 633 * unit64 ≤ maxAbs * 10 ^ 341 := by unfold maxAbs unit64; decide +kernel
  have aux2 : 10 ^ 17 * 10 ^ 632 * unit64 ≤ maxAbs * 10 ^ 341 := by unfold maxAbs unit64; decide +kernel
  rcases h with ⟨h1, rfl⟩ | ⟨h1, h2⟩
  · refine le_trans (Nat.mul_le_mul_right _ (Nat.mul_le_mul_right _ h1)) aux
  · have h3 : 10 ^ j ≤ 10 ^ 632 := Nat.pow_le_pow_right (by decide) h2
    generalize 10 ^ 632 = A at *
    exact le_trans (Nat.mul_le_mul_right _ (Nat.mul_le_mul h1 h3)) aux2

theorem gTop (x : F64) {d : Nat} {j : Nat} (h : (d ≤ 17976931348623157 ∧ j = 633) ∨ (d ≤ 10 ^ 17 ∧ j ≤ 632)) :
    |x.sgn * (d : ℚ) * (10 : ℚ) ^ ((j : Int) - 325 - 16)| ≤ |realVal maxF64| := by
  have hU : (0 : ℚ) < (unit64 : ℚ) := by exact_mod_cast unit64_pos
  have hs : |x.sgn| = 1 := by rcases x.sgn_cases with h | h <;> rw [h] <;> simp
  rw [maxF64_real, abs_mul, abs_mul, hs, one_mul, abs_of_nonneg (Nat.cast_nonneg d : (0 : ℚ) ≤ _), abs_of_nonneg (zpow_nonneg (by norm_num) _),
    show (j : Int) - 325 - 16 = (j : Int) - ((341 : Nat) : Int) by push_cast; ring, zpow_ten, ← mul_div_assoc, div_le_div_iff₀ (pow_pos (by norm_num) _) hU]
  have key := gNat_le h
  generalize maxAbs = M at *
  generalize unit64 = U at *
  generalize 341 = P at *
  exact_mod_cast key

theorem gParts_top {x : F64} (h : x.special = false) :
    |x.sgn * ((gParts 16 x).1 : ℚ) * (10 : ℚ) ^ ((gParts 16 x).2 - ((16 : Nat) : Int))| ≤ |realVal maxF64| := by
  unfold gParts
  split
  · simp
  · rename_i h0
    obtain ⟨b1, b2⟩ := gDigits_bounds 16 h0
    have m2 := magnitude_le h h0
    have cs : (gDigits 16 x ≤ 17976931348623157 ∧ magnitude x = 633) ∨ (gDigits 16 x ≤ 10 ^ 17 ∧ magnitude x ≤ 632) := by
      by_cases hm : magnitude x = 633
      · exact Or.inl ⟨gDigits_top h hm, hm⟩
      · exact Or.inr ⟨b2, by omega⟩
    have top := gTop x cs
    split
    · rename_i hc
      dsimp only
      rw [hc] at top
      have e : x.sgn * ((10 ^ 16 : ℕ) : ℚ) * (10 : ℚ) ^ ((magnitude x : Int) - 324 - ((16 : Nat) : Int)) =
          x.sgn * ((10 ^ (16 + 1) : ℕ) : ℚ) * (10 : ℚ) ^ ((magnitude x : Int) - 325 - 16) := by
        rw [show (magnitude x : Int) - 324 - ((16 : Nat) : Int) = (magnitude x : Int) - 325 - 16 + 1 by push_cast; ring, zpow_add_one₀ (by norm_num)]
        push_cast
        ring
      rw [e]
      exact top
    · dsimp only
      rw [Nat.cast_ofNat]
      exact top

/-- a text that shows a number to 17 digits is read as this number -/
theorem read_exact {s t : Str} {v : ℚ} {x : F64} (h : ShowsNum s x.neg v) (ht : BlankC t) (hx : IsFinite x) (he : |v - realVal x| ≤ 1 / (2 * 10 ^ 16) * |realVal x|)
    (hv : |v| ≤ |realVal maxF64|) : scanLf (s ++ t) = some x := by
  obtain ⟨r, h1, hn, h2, h3⟩ := scan_shows h ht
  have hr := h3 _ maxF64_finite hv
  rw [h1]
  congr 1
  refine F64.ext hn ?_
  by_contra hne
  have gap := x.gap r hne
  have a := h2 hr x hx
  rw [abs_sub_comm (realVal x)] at a
  have b := abs_sub_le (realVal r) v (realVal x)
  have c : |realVal r - realVal x| ≤ 1 / 10 ^ 16 * |realVal x| := by
    have : (1 : ℚ) / (2 * 10 ^ 16) * |realVal x| + 1 / (2 * 10 ^ 16) * |realVal x| = 1 / 10 ^ 16 * |realVal x| := by ring
    linarith
  have hU : (0 : ℚ) < (unit64 : ℚ) := by exact_mod_cast unit64_pos
  have es : r.sgn = x.sgn := by unfold F64.sgn; rw [hn]
  rw [x.real_abs, r.real_eq, x.real_eq, es, F64.sgn_abs, ← sub_div, abs_div, abs_of_pos hU, ← mul_div_assoc, div_le_div_iff_of_pos_right hU] at c
  have d : |(r.abs : ℚ) - (x.abs : ℚ)| = (Nat.dist r.abs x.abs : ℕ) := by
    rcases Nat.le_total r.abs x.abs with l | l
    · rw [Nat.dist_eq_sub_of_le l, Nat.cast_sub l, abs_of_nonpos (by rw [sub_nonpos]; exact_mod_cast l)]; ring
    · rw [Nat.dist_eq_sub_of_le_right l, Nat.cast_sub l, abs_of_nonneg (by rw [sub_nonneg]; exact_mod_cast l)]
  rw [d] at c
  have hd : 1 ≤ Nat.dist r.abs x.abs := by unfold Nat.dist; omega
  have c2 : (Nat.dist r.abs x.abs : ℚ) * 10 ^ 16 ≤ x.abs := by
    rw [div_mul_eq_mul_div, one_mul, le_div_iff₀ (by positivity)] at c
    exact c
  have c3 : Nat.dist r.abs x.abs * 10 ^ 16 ≤ x.abs := by exact_mod_cast c2
  omega

/-- `%.17g` of a number that is not NaN is read exactly -/
theorem printG_read {x : F64} (h : ¬ IsNaN x) {t : Str} (ht : BlankC t) : scanLf (printG 16 x ++ t) = some x := by
  cases hs : x.special with
  | false => exact read_exact (printG_shows 16 hs) ht ((F64.finite_iff x).2 hs) (gParts_error 16 x) (gParts_top hs)
  | true =>
    have hf : x.frac = 0 := by
      have hx := x.isLt
      have h1 : x.expo = 2047 := by unfold F64.special at hs; exact beq_iff_eq.mp hs
      unfold F64.expo at h1
      unfold IsNaN at h
      unfold F64.frac
      omega
    obtain ⟨y, h1, -, h2, -⟩ := scan_special hs
    rw [h2 hf] at h1
    unfold printG
    rw [if_pos hs, ← h1]
    unfold specialText minus
    rw [if_pos hf]
    cases x.neg <;> rfl

end Verif.Tec
