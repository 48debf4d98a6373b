import Verif.Proof.XmlFloat3
import Verif.Props.XmlNumber
/-!
# C118: reading of `float`
-/
namespace Verif.Props
open Spec Tec Xml

/-- C118: a decimal number, with white space behind it, is read as the nearest `float`, with the sign of the text; it is read as infinite exactly if it is not
nearer to zero than the number halfway between the largest `float` and 2^128 -/
theorem C118_nearest {s t : Str} {neg : Bool} {v : ℚ} (h : ShowsNum s neg v) (ht : BlankC t) : ∃ r, scanF (s ++ t) = some r ∧ r < 2 ^ 32 ∧ (FloatNeg r ↔ neg = true) ∧
    (finite 32 23 r ↔ |v| < 2 ^ 128 - 2 ^ 103) ∧ (¬ finite 32 23 r → r % 2 ^ 31 = 0x7F800000) ∧ (finite 32 23 r → ∀ y, IsFloat y → |floatVal r - v| ≤ |floatVal y - v|) := scanF_shows h ht

/-- C118: of two nearest numbers it is the one with an even pattern -/
theorem C118_tie {s t : Str} {neg : Bool} {v : ℚ} (h : ShowsNum s neg v) (ht : BlankC t) {r y : Nat} (hr : scanF (s ++ t) = some r) (hf : IsFloat r) (hy : IsFloat y) (hne : floatVal y ≠ floatVal r)
    (he : |floatVal y - v| = |floatVal r - v|) : r % 2 = 0 := scanF_tie h ht hr hf hy hne he

example : ShowsNum (lit "16777217") false 16777217 ∧ scanF (lit "16777217") = some 0x4B800000 ∧ scanF (lit "16777219 ") = some 0x4B800002 ∧ scanF (lit " -0.1x") = some 0xBDCCCCCD ∧
    scanF (lit "1e-46") = some 0 ∧ scanF (lit "340282356779733661637539395458142568447") = some 0x7F7FFFFF ∧ scanF (lit "340282356779733661637539395458142568448") = some 0x7F800000 ∧ scanF (lit "1e") = none := by
  refine ⟨⟨lit "16777217", [], [], [], 0, rfl, ⟨by decide, by decide⟩, by simp, .inl ⟨rfl, rfl⟩, .inl ⟨rfl, rfl⟩, ?_⟩, ?_, ?_, ?_, ?_, ?_, ?_, ?_⟩
  · rw [show Spec.digitsVal (lit "16777217" ++ []) = 16777217 by decide +kernel]
    simp
  all_goals decide +kernel

example : floatVal 0x4B800000 = 16777216 ∧ floatVal 0x4B800001 = 16777218 ∧ |floatVal 0x4B800001 - 16777217| = |floatVal 0x4B800000 - 16777217| := by
  have h1 : floatVal 0x4B800000 = 16777216 := by
    unfold floatVal; rw [show scaled 32 23 0x4B800000 = 16777216 * 2 ^ 149 by decide +kernel]; push_cast; norm_num
  have h2 : floatVal 0x4B800001 = 16777218 := by
    unfold floatVal; rw [show scaled 32 23 0x4B800001 = 16777218 * 2 ^ 149 by decide +kernel]; push_cast; norm_num
  rw [h1, h2]
  refine ⟨rfl, rfl, ?_⟩
  norm_num

/-- C118: a finite `float` converted to a text and back is a finite number with the same sign, with a relative error of at most 1e-7 -/
theorem C118_back {n : Nat} (h : IsFloat n) {t : Str} (ht : BlankC t) : ∃ r, scanF (floatText n ++ t) = some r ∧ IsFloat r ∧ (FloatNeg r ↔ FloatNeg n) ∧
    |floatVal r - floatVal n| ≤ 1 / 10 ^ 7 * |floatVal n| := by
  obtain ⟨r, v, h1, h2, h3, h4, h5, -⟩ := float_read h ht
  refine ⟨r, h1, h2, h3, ?_⟩
  have := abs_sub_le (floatVal r) v (floatVal n)
  have e : (1 : ℚ) / 10 ^ 7 = 2 * (5 / 10 ^ 8) := by norm_num
  rw [e]
  linarith

/-- C118: it is the same number, bit by bit, if it has at most eight decimal digits, or if its first decimal digits are above 16777216 -/
theorem C118_exact {n : Nat} (h : IsFloat n) {t : Str} (ht : BlankC t)
    (hd : (∃ z k : Int, floatVal n = z * (10 : ℚ) ^ k ∧ |z| < 10 ^ 8) ∨ (∃ k : Int, 16777216 * (10 : ℚ) ^ k < |floatVal n| ∧ |floatVal n| < 10 ^ 8 * (10 : ℚ) ^ k)) :
    scanF (floatText n ++ t) = some n := by
  obtain ⟨r, v, h1, h2, h3, h4, -, h6⟩ := float_read h ht
  rw [h1]
  congr 1
  have tri := abs_sub_le (floatVal r) v (floatVal n)
  rcases h6 with ⟨h6, h7⟩ | ⟨d, j, e, h6, h7⟩
  · rw [h6, h7, sub_self, abs_zero, sub_zero] at h4
    exact floatVal_inj h.1 h2.1 h3 (by rw [h6]; exact abs_eq_zero.mp (le_antisymm h4 (abs_nonneg _)))
  · have small : ∀ k : Int, |floatVal n| < 10 ^ 8 * (10 : ℚ) ^ k → j ≤ k := by
      intro k hk
      have e : (10 : ℚ) ^ 8 * (10 : ℚ) ^ k = (10 : ℚ) ^ (k + 8) := by rw [zpow_add₀ (by norm_num)]; norm_num; ring
      rw [e] at hk
      have := (zpow_lt_zpow_iff_right₀ (by norm_num : (1 : ℚ) < 10)).mp (lt_of_le_of_lt h7 hk)
      omega
    rcases hd with ⟨z, k, hz, hz'⟩ | ⟨k, k1, k2⟩
    · refine floatVal_inj h.1 h2.1 h3 ?_
      have hp : (0 : ℚ) < (10 : ℚ) ^ k := zpow_pos (by norm_num) _
      have hj : j ≤ k := by
        refine small k ?_
        rw [hz, abs_mul, abs_of_pos hp]
        refine mul_lt_mul_of_pos_right ?_ hp
        exact_mod_cast hz'
      obtain ⟨i, hi⟩ := Int.eq_ofNat_of_zero_le (by omega : 0 ≤ k - j)
      have hq : (0 : ℚ) < (10 : ℚ) ^ j := zpow_pos (by norm_num) _
      have ex : floatVal n = ((z * 10 ^ i : Int) : ℚ) * (10 : ℚ) ^ j := by
        rw [hz, show k = j + (i : Int) by omega, zpow_add₀ (by norm_num), zpow_natCast]
        push_cast
        ring
      have hdz : d = z * 10 ^ i := by
        generalize z * 10 ^ i = w at *
        rw [e, ex, ← sub_mul, abs_mul, abs_of_pos hq] at h6
        have h8 := le_of_mul_le_mul_right h6 hq
        have h9 : |((d - w : Int) : ℚ)| < 1 := by push_cast; linarith
        have h10 : |d - w| < 1 := by exact_mod_cast h9
        have := Int.abs_lt_one_iff.mp h10
        omega
      have hvn : v = floatVal n := by rw [e, hdz, ex]
      rw [hvn, sub_self, abs_zero] at h4
      exact sub_eq_zero.mp (abs_eq_zero.mp (le_antisymm h4 (abs_nonneg _)))
    · by_contra hne
      have g := floatVal_gap h.1 h2.1 h3 hne
      have hj : (10 : ℚ) ^ j ≤ (10 : ℚ) ^ k := zpow_le_zpow_right₀ (by norm_num) (small k k2)
      have g' : (2 : ℚ) ^ 24 * |floatVal r - floatVal n| ≤ 2 ^ 24 * (10 : ℚ) ^ k := mul_le_mul_of_nonneg_left (by linarith) (by norm_num)
      have := lt_of_lt_of_le k1 (g.trans g')
      norm_num at this

example : IsFloat 0x3DCCCCCD ∧ (16777216 * (10 : ℚ) ^ (-8 : Int) < |floatVal 0x40490FDB| ∧ |floatVal 0x40490FDB| < 10 ^ 8 * (10 : ℚ) ^ (-7 : Int)) ∧ floatVal 0xC1280000 = (-105 : Int) * (10 : ℚ) ^ (-1 : Int) ∧
    floatText 0x40490FDB = lit "3.1415927" ∧ scanF (lit "3.1415927") = some 0x40490FDB ∧ floatText 0xC1280000 = lit "-10.5" := by
  refine ⟨by decide, ?_, ?_, by decide +kernel, by decide +kernel, by decide +kernel⟩
  · rw [show floatVal 0x40490FDB = (13176795 : ℚ) / 2 ^ 22 by unfold floatVal; rw [show scaled 32 23 0x40490FDB = 13176795 * 2 ^ 127 by decide +kernel]; push_cast; norm_num]
    constructor <;> norm_num
  · unfold floatVal
    rw [show scaled 32 23 0xC1280000 = -(21 * 2 ^ 148) by decide +kernel]
    push_cast
    norm_num

/-- C118 is false of `float` in general: this number is read back as another one -/
theorem C118_false : IsFloat 0x4120000B ∧ floatText 0x4120000B = lit "10.00001" ∧ scanF (lit "10.00001") = some 0x4120000A := by
  refine ⟨by decide, by decide +kernel, by decide +kernel⟩

/-- C118: the infinities are read back, and a NaN is read as a NaN with the same sign -/
theorem C118_special {n : Nat} (hn : n < 2 ^ 32) (h : ¬ finite 32 23 n) : ∃ r, scanF (floatText n) = some r ∧ r < 2 ^ 32 ∧ (FloatNeg r ↔ FloatNeg n) ∧
    (n % 2 ^ 31 = 0x7F800000 → r = n) ∧ (0x7F800000 < n % 2 ^ 31 → 0x7F800000 < r % 2 ^ 31) := by
  unfold finite at h
  simp only [Nat.reduceSub, Nat.reducePow] at h
  obtain ⟨w, h1, h2, h3⟩ := f64OfF32_toNat hn
  have h3 := h3 (by omega)
  have hs : (f64OfF32 n).special = true := by
    unfold F64.special F64.expo
    rw [beq_iff_eq, h2, h3]
    omega
  have hf : (f64OfF32 n).frac = n % 2 ^ 23 * 2 ^ 29 := by
    unfold F64.frac
    rw [h2, h3]
    omega
  have hneg := f64OfF32_neg hn
  have e : floatText n = specialText (f64OfF32 n) := by
    have : floatText n = printG 7 (f64OfF32 n) := snprintf_all ((printG_length (by decide) _).trans (by decide))
    rw [this]
    unfold printG
    rw [if_pos hs]
  rw [e]
  unfold specialText minus
  rw [hf]
  unfold FloatNeg at *
  by_cases hm : 2 ^ 31 ≤ n
  · rw [hneg.mpr hm]
    by_cases h0 : n % 2 ^ 23 = 0
    · rw [h0]
      exact ⟨0xFF800000, by decide +kernel, by decide, by omega, by omega, by omega⟩
    · rw [if_neg (by omega : ¬ n % 2 ^ 23 * 2 ^ 29 = 0)]
      exact ⟨0xFFC00000, by decide +kernel, by decide, by omega, by omega, by omega⟩
  · rw [Bool.eq_false_iff.mpr (fun hh => hm (hneg.mp hh))]
    by_cases h0 : n % 2 ^ 23 = 0
    · rw [h0]
      exact ⟨0x7F800000, by decide +kernel, by decide, by omega, by omega, by omega⟩
    · rw [if_neg (by omega : ¬ n % 2 ^ 23 * 2 ^ 29 = 0)]
      exact ⟨0x7FC00000, by decide +kernel, by decide, by omega, by omega, by omega⟩

example : ¬ finite 32 23 0xFF800001 ∧ floatText 0xFF800001 = lit "-nan" ∧ floatText 0xFF800000 = lit "-inf" := by
  refine ⟨by unfold finite; decide, by decide +kernel, by decide +kernel⟩

/-- C118: an attribute and a text set to a `float` have the number that is read of its text; nothing else of the element changes -/
theorem C118_query {n r : Nat} (h : scanF (floatText n) = some r) (m : Str) (as : List (Str × Str)) (cs : List Node) (a : Str) (d : Nat) :
    ((Node.elem m as cs).setAttribute a (floatText n)).queryFloatAttribute a d = (.success, r) ∧
    ((Node.elem m as cs).setAttribute a (floatText n)).floatAttributeOr a d = r ∧
    (∀ b, b ≠ a → ((Node.elem m as cs).setAttribute a (floatText n)).queryFloatAttribute b d = (Node.elem m as cs).queryFloatAttribute b d) ∧
    ((Node.elem m as cs).setAttribute a (floatText n)).queryFloatText d = (Node.elem m as cs).queryFloatText d ∧
    ((Node.elem m as cs).setText (floatText n)).queryFloatText d = (.success, r) ∧
    ((Node.elem m as cs).setText (floatText n)).floatTextOr d = r ∧
    (∀ b, ((Node.elem m as cs).setText (floatText n)).queryFloatAttribute b d = (Node.elem m as cs).queryFloatAttribute b d) := query_text h m as cs a d

example : scanF (floatText 0x3DCCCCCD) = some 0x3DCCCCCD ∧ (Node.elem (lit "a") [(lit "x", lit "1e")] [.text false (lit "1.5e1 ")]).queryFloatAttribute (lit "x") 7 = (.wrongAttributeType, 7) ∧
    (Node.elem (lit "a") [] [.text false (lit "1.5e1 ")]).queryFloatText 7 = (.success, 0x41700000) ∧ (Node.elem (lit "a") [] []).floatTextOr 7 = 7 ∧ (Node.elem (lit "a") [] []).queryFloatAttribute (lit "x") 7 = (.noAttribute, 7) := by
  refine ⟨by decide +kernel, by decide +kernel, by decide +kernel, by decide +kernel, by decide +kernel⟩

/-- C118: the same in a document that was printed and loaded again -/
theorem C118_saved {l : List Node} (h : PrintableDoc l) {p : List Nat} {i : Nat} {m : Str} {as : List (Str × Str)} {cs : List Node} (hx : nodeAt p i l = some (.elem m as cs))
    {a : Str} (ha : IsName a) {n : Nat} (hn : IsFloat n) (compact bom : Bool) :
    ∃ r, scanF (floatText n) = some r ∧
      (∃ t l' y, printed compact bom (replaceAt ((Node.elem m as cs).setAttribute a (floatText n)) p i l) = .ok t ∧ loadFile (some t) = .ok l' ∧ nodeAt p i l' = some y ∧
        ∀ d, y.queryFloatAttribute a d = (.success, r)) ∧
      (∃ t l' y, printed compact bom (replaceAt ((Node.elem m as cs).setText (floatText n)) p i l) = .ok t ∧ loadFile (some t) = .ok l' ∧ nodeAt p i l' = some y ∧
        ∀ d, y.queryFloatText d = (.success, r)) := by
  obtain ⟨r, hr, -⟩ := C118_back hn (t := []) (fun b hb => by cases hb)
  rw [List.append_nil] at hr
  obtain ⟨hs, hp, ho⟩ := floatText_sendable n
  exact ⟨r, hr, saved_text (fun q hq => (floatText_blank hn hq).trans hr) hs hp ho h hx ha compact bom⟩

example : PrintableDoc mixedDoc ∧ nodeAt [3] 2 mixedDoc = some (.elem (lit "b") [] []) ∧ IsName (lit "z") ∧ IsFloat 0x3DCCCCCD := ⟨mixedDoc_printable, rfl, by decide +kernel, by decide⟩

end Verif.Props
