import Verif.Proof.XmlFloat2
import Verif.Props.XmlDoc
/-!
# What is read of the text of a `float`; this text in documents
-/
namespace Verif.Xml
open Spec Tec

/-! ## Two nearest numbers -/

theorem roundEven_tie (a : Nat) {b : Nat} (hb : 0 < b) {m : Int} (hm : m ≠ roundEven a b) (h : |m * b - a| ≤ |(roundEven a b : Int) * b - a|) : roundEven a b % 2 = 0 := by
  have h1 := Nat.div_add_mod a b
  have h2 := Nat.mod_lt a hb
  have hb' : (0 : Int) < b := by exact_mod_cast hb
  have h1 : (b : Int) * (a / b : Nat) + (a % b : Nat) = a := by exact_mod_cast h1
  have lo : ∀ g : Int, m < g → m * b ≤ g * b - b := by
    intro g hg
    have := mul_le_mul_of_nonneg_right (by omega : m ≤ g - 1) (le_of_lt hb')
    rwa [sub_mul, one_mul] at this
  have hi : ∀ g : Int, g < m → g * b + b ≤ m * b := by
    intro g hg
    have := mul_le_mul_of_nonneg_right (by omega : g + 1 ≤ m) (le_of_lt hb')
    rwa [add_mul, one_mul] at this
  by_cases c1 : 2 * (a % b) < b
  · have e : roundEven a b = a / b := by unfold roundEven; rw [if_pos c1]
    rw [e] at hm h
    have e2 : ((a / b : Nat) : Int) * b = (b : Int) * (a / b : Nat) := mul_comm _ _
    exfalso
    have a1 : |((a / b : Nat) : Int) * b - a| = (a % b : Nat) := by rw [abs_of_nonpos (by omega)]; omega
    rw [a1] at h
    rcases lt_or_gt_of_ne hm with c | c
    · have := lo _ c
      have := neg_abs_le (m * b - a)
      omega
    · have := hi _ c
      have := le_abs_self (m * b - a)
      omega
  · by_cases c2 : b < 2 * (a % b)
    · have e : roundEven a b = a / b + 1 := by unfold roundEven; rw [if_neg c1, if_pos c2]
      rw [e] at hm h
      have e2 : ((a / b + 1 : Nat) : Int) * b = (b : Int) * (a / b : Nat) + b := by push_cast; ring
      exfalso
      have a1 : |((a / b + 1 : Nat) : Int) * b - a| = b - (a % b : Nat) := by rw [abs_of_nonneg (by omega)]; omega
      rw [a1] at h
      rcases lt_or_gt_of_ne hm with c | c
      · have := lo _ c
        have := neg_abs_le (m * b - a)
        omega
      · have := hi _ c
        have := le_abs_self (m * b - a)
        omega
    · unfold roundEven
      rw [if_neg c1, if_neg c2]
      omega

theorem nearest32_tie (n : Nat) {q : Nat} (hq : 0 < q) (hf : nearest32 n q < 255 * 2 ^ 23) {y : Nat} (hne : mag 23 y ≠ mag 23 (nearest32 n q))
    (h : |(mag 23 y : Int) * q - ((n * unit32 : Nat) : Int)| ≤ |(mag 23 (nearest32 n q) : Int) * q - ((n * unit32 : Nat) : Int)|) : nearest32 n q % 2 = 0 := by
  obtain ⟨e, f, h1, h2, h3, h4, h5, h6⟩ := nearest32_exp n hq
  have h7 : nearest32 n q = e * 2 ^ 23 + f := by rw [h1] at hf ⊢; omega
  rw [h7, mag32_pattern h5 h6] at h hne
  have hp : 0 < q * 2 ^ e := Nat.mul_pos hq (Nat.pow_pos (by decide))
  have key := roundEven_nearest (n * unit32) hp
  have tie := fun m : Int => roundEven_tie (n * unit32) hp (m := m)
  rw [← h2] at key tie
  generalize n * unit32 = N at *
  have el : ((f * 2 ^ e : Nat) : Int) * q = (f : Int) * ((q * 2 ^ e : Nat) : Int) := by push_cast; ring
  rw [el] at h
  rw [h7]
  rcases mag32_grid y e with ⟨m, hm⟩ | ⟨hy, he⟩
  · have er : ((m * 2 ^ e : Nat) : Int) * q = (m : Int) * ((q * 2 ^ e : Nat) : Int) := by push_cast; ring
    rw [hm, er] at h
    have := tie m (by intro c; apply hne; rw [hm]; congr 1; exact_mod_cast c) h
    omega
  · exfalso
    have k := key (2 ^ 23)
    have a1 : (2 : Int) ^ 23 * ((q * 2 ^ e : Nat) : Int) = ((q * 2 ^ (23 + e) : Nat) : Int) := by
      rw [Nat.pow_add]; push_cast; ring
    have a2 := h3 he
    have a3 : mag 23 y * q < q * 2 ^ (23 + e) := by rw [Nat.mul_comm]; exact Nat.mul_lt_mul_of_pos_left hy hq
    rw [a1] at k
    generalize q * 2 ^ (23 + e) = A at *
    have a4 : (mag 23 y : Int) * q = ((mag 23 y * q : Nat) : Int) := by push_cast; rfl
    rw [a4] at h
    generalize mag 23 y * q = B at *
    have h := h.trans k
    rw [abs_of_nonpos (by omega), abs_of_nonpos (by omega)] at h
    omega

theorem ratio_tie (neg : Bool) (n : Nat) {q : Nat} (hq : 0 < q) {v : ℚ} (hv : v = (if neg then -1 else 1) * ((n : ℚ) / (q : ℚ))) {y : Nat} (hf : IsFloat (withSign32 neg (nearest32 n q)))
    (hy : IsFloat y) (hne : floatVal y ≠ floatVal (withSign32 neg (nearest32 n q))) (he : |floatVal y - v| = |floatVal (withSign32 neg (nearest32 n q)) - v|) :
    withSign32 neg (nearest32 n q) % 2 = 0 := by
  obtain ⟨p1, p2, p3, p4, p5⟩ := withSign32_parts neg (nearest32_le n q)
  have hfin := p3.mp hf.2
  have near := (read_ratio32 neg n hq hv).2.2.2.2 hf.2
  have hU : (0 : ℚ) < 2 ^ 149 := by positivity
  have hq' : (0 : ℚ) < (q : ℚ) := by exact_mod_cast hq
  have ht : (if neg then (-1 : ℚ) else 1) = 1 ∨ (if neg then (-1 : ℚ) else 1) = -1 := by cases neg <;> simp
  obtain ⟨s, hs, e, -⟩ := floatVal_parts hy.1
  have e' : floatVal (withSign32 neg (nearest32 n q)) = (if neg then -1 else 1) * ((mag 23 (nearest32 n q) : ℚ) / 2 ^ 149) := by
    unfold floatVal; rw [p4]; ring
  have l0 : |(if neg then (-1 : ℚ) else 1) * ((mag 23 (nearest32 n q) : ℚ) / 2 ^ 149) - (if neg then -1 else 1) * ((n : ℚ) / q)| = |(mag 23 (nearest32 n q) : ℚ) / 2 ^ 149 - (n : ℚ) / q| := by
    rw [← mul_sub, abs_mul]
    rcases ht with h | h <;> rw [h] <;> simp
  have l := signed_distance ((mag 23 (y % 2 ^ 31) : ℚ) / 2 ^ 149) ((n : ℚ) / q) s (if neg then -1 else 1) (by positivity) (by positivity) hs ht
  have even : nearest32 n q % 2 = 0 := by
    have z0 := near 0 (by decide)
    have fz : floatVal 0 = 0 := by
      unfold floatVal
      rw [show scaled 32 23 0 = 0 by decide]
      simp
    rw [e', hv, l0] at he z0
    rw [fz, zero_sub, abs_neg, abs_mul] at z0
    rw [e, e'] at hne
    rw [e] at he
    have hm : mag 23 (y % 2 ^ 31) ≠ mag 23 (nearest32 n q) := by
      intro c
      rw [c] at he hne
      have hA : 0 ≤ (mag 23 (nearest32 n q) : ℚ) / 2 ^ 149 := by positivity
      have hB : 0 ≤ (n : ℚ) / q := by positivity
      generalize (mag 23 (nearest32 n q) : ℚ) / 2 ^ 149 = A at *
      generalize (n : ℚ) / q = B at *
      have fin : A + B = |A - B| → A = 0 := by
        intro hh
        have hz : |A - B| ≤ B := by
          refine z0.trans (le_of_eq ?_)
          rw [abs_of_nonneg hB]
          rcases ht with h | h <;> rw [h] <;> simp
        linarith
      have zero : A ≠ 0 := by rintro rfl; exact hne (by ring)
      rcases hs with h1 | h1 <;> rcases ht with h2 | h2 <;> rw [h1, h2] at he hne
      · exact hne rfl
      · refine zero (fin ?_)
        rw [← he, show (1 : ℚ) * A - -1 * B = A + B by ring, abs_of_nonneg (by linarith)]
      · refine zero (fin ?_)
        rw [← he, show (-1 : ℚ) * A - 1 * B = -(A + B) by ring, abs_neg, abs_of_nonneg (by linarith)]
      · exact hne rfl
    have l := l.trans (le_of_eq he)
    rw [div_distance hU hq', div_distance hU hq'] at l
    have l := (div_le_div_iff_of_pos_right (mul_pos hU hq')).mp l
    refine nearest32_tie n hq hfin hm ?_
    generalize mag 23 (nearest32 n q) = A at *
    generalize mag 23 (y % 2 ^ 31) = B at *
    have key2 : |((B : ℚ) * q - ((n * unit32 : Nat) : ℚ))| ≤ |((A : ℚ) * q - ((n * unit32 : Nat) : ℚ))| := by
      rw [Nat.cast_mul, unit32_cast]; exact l
    generalize n * unit32 = N at *
    exact_mod_cast key2
  unfold withSign32
  cases neg <;> simp <;> omega

theorem scanF_tie {s t : Str} {neg : Bool} {v : ℚ} (h : ShowsNum s neg v) (ht : BlankC t) {r y : Nat} (hr : scanF (s ++ t) = some r) (hf : IsFloat r) (hy : IsFloat y)
    (hne : floatVal y ≠ floatVal r) (he : |floatVal y - v| = |floatVal r - v|) : r % 2 = 0 := by
  obtain ⟨i, f, q, e, k, rfl, hi, hfd, hq, hex, hv⟩ := h
  rw [List.append_assoc, List.append_assoc, List.append_assoc, scanF_shown hi hfd hq hex ht] at hr
  obtain rfl := Option.some.inj hr
  clear hr
  generalize Spec.digitsVal (i ++ f) = n at *
  generalize k - (f.length : Int) = m at *
  unfold nearest32Ten at *
  split at hf
  · rename_i hm
    rw [if_pos hm] at hne he ⊢
    refine ratio_tie neg _ (by decide) ?_ hf hy hne he
    obtain ⟨j, rfl⟩ := Int.eq_ofNat_of_zero_le hm
    rw [hv, zpow_natCast]
    push_cast
    simp only [Int.toNat_natCast]
    ring
  · rename_i hm
    rw [if_neg hm] at hne he ⊢
    refine ratio_tie neg _ (Nat.pow_pos (by decide)) ?_ hf hy hne he
    obtain ⟨j, hj⟩ := Int.eq_ofNat_of_zero_le (by omega : 0 ≤ -m)
    obtain rfl : m = -(j : Int) := by omega
    rw [hv, zpow_neg, zpow_natCast]
    simp only [neg_neg, Int.toNat_natCast]
    push_cast
    rw [mul_assoc, div_eq_mul_inv]

/-! ## The text of a number -/

theorem below_top {n : Nat} (h : IsFloat n) : |floatVal n| ≤ (2 ^ 24 - 1) * 2 ^ 104 := by
  obtain ⟨s, s1, s2, -⟩ := floatVal_parts h.1
  have hs : |s| = 1 := by rcases s1 with h | h <;> rw [h] <;> simp
  have hf := h.2
  unfold finite at hf
  simp only [Nat.reduceSub, Nat.reducePow] at hf
  have hm : mag 23 (n % 2 ^ 31) ≤ (2 ^ 24 - 1) * 2 ^ 253 := by
    have h1 : n % 2 ^ 31 % 2 ^ 23 < 2 ^ 23 := Nat.mod_lt _ (by decide)
    have h2 : n % 2 ^ 31 / 2 ^ 23 ≤ 254 := by omega
    generalize n % 2 ^ 31 = q at *
    unfold mag
    generalize q % 2 ^ 23 = f at *
    generalize q / 2 ^ 23 = e at *
    split
    · exact (by omega : f ≤ (2 ^ 24 - 1) * 1).trans (Nat.mul_le_mul_left _ (Nat.one_le_pow _ _ (by decide)))
    · exact Nat.mul_le_mul (by omega) (Nat.pow_le_pow_right (by decide) (by omega))
  rw [s2, abs_mul, hs, one_mul, abs_of_nonneg (by positivity), div_le_iff₀ (by positivity)]
  have hm : (mag 23 (n % 2 ^ 31) : ℚ) ≤ (((2 ^ 24 - 1) * 2 ^ 253 : Nat) : ℚ) := by exact_mod_cast hm
  refine hm.trans (le_of_eq ?_)
  norm_num

/-- what is read of the text of a finite `float`: the number nearest to the one shown -/
theorem float_read {n : Nat} (h : IsFloat n) {t : Str} (ht : BlankC t) : ∃ r v, scanF (floatText n ++ t) = some r ∧ IsFloat r ∧ (FloatNeg r ↔ FloatNeg n) ∧
    |floatVal r - v| ≤ |v - floatVal n| ∧ |v - floatVal n| ≤ 5 / 10 ^ 8 * |floatVal n| ∧
    ((floatVal n = 0 ∧ v = 0) ∨ ∃ (d j : Int), v = d * (10 : ℚ) ^ j ∧ |v - floatVal n| ≤ 1 / 2 * (10 : ℚ) ^ j ∧ (10 : ℚ) ^ (j + 7) ≤ |floatVal n|) := by
  obtain ⟨neg, v, h1, h2, h3, h4⟩ := floatText_shows h
  obtain ⟨r, r1, r2, r3, r4, -, r6⟩ := scanF_shows h1 ht
  have top := below_top h
  have hv : |v| < 2 ^ 128 - 2 ^ 103 := by
    rcases h4 with ⟨-, h4⟩ | ⟨d, j, -, h4, h5⟩
    · rw [h4]; norm_num
    · have hj : j ≤ 31 := by
        by_contra hc
        have : (10 : ℚ) ^ (39 : Int) ≤ (10 : ℚ) ^ (j + 7) := zpow_le_zpow_right₀ (by norm_num) (by omega)
        have := this.trans (h5.trans top)
        norm_num at this
      have hj : (10 : ℚ) ^ j ≤ (10 : ℚ) ^ (31 : Int) := zpow_le_zpow_right₀ (by norm_num) hj
      have a := abs_sub_abs_le_abs_sub v (floatVal n)
      have b : |v| ≤ (2 ^ 24 - 1) * 2 ^ 104 + 1 / 2 * (10 : ℚ) ^ (31 : Int) := by linarith
      refine lt_of_le_of_lt b ?_
      norm_num
  have hf := r4.mpr hv
  refine ⟨r, v, r1, ⟨r2, hf⟩, r3.trans h2, ?_, h3, h4⟩
  have := r6 hf n h
  rwa [abs_sub_comm (floatVal n)] at this

theorem floatText_sendable (n : Nat) : Sendable (floatText n) ∧ Printed (floatText n) ∧ ¬ lit "]]>" <:+: floatText n := by
  have e : floatText n = printG 7 (f64OfF32 n) := snprintf_all ((printG_length (by decide) _).trans (by decide))
  have hb := printG_bytes 7 (f64OfF32 n)
  have hl := printG_length (p := 7) (by decide) (f64OfF32 n)
  rw [e]
  have hp : ∀ b ∈ printG 7 (f64OfF32 n), 33 ≤ b ∧ b ≤ 126 ∧ b ≠ 34 ∧ b ≠ 38 ∧ b ≠ 60 ∧ b ≠ 93 := fun b h => numByte_printed (hb.2 b h)
  refine ⟨⟨fun b h => ?_, hl.trans (by decide)⟩, ⟨hb.1, fun b h => ?_⟩, fun h => ?_⟩
  · have := hp b h
    exact ⟨by rintro rfl; exact absurd this.1 (by decide), by rintro rfl; exact absurd this.1 (by decide)⟩
  · have := hp b h
    exact ⟨this.1, this.2.1, this.2.2.1, this.2.2.2.1, this.2.2.2.2.1⟩
  · exact (hp 93 (h.subset (by decide))).2.2.2.2.2 rfl

/-- white space behind a number does not matter -/
theorem scanF_blank {s t : Str} {neg : Bool} {v : ℚ} (h : ShowsNum s neg v) (ht : BlankC t) : scanF (s ++ t) = scanF s := by
  obtain ⟨i, f, q, e, k, rfl, hi, hf, hq, he, -⟩ := h
  have h0 := scanF_shown (neg := neg) (t := []) hi hf hq he (fun b hb => by cases hb)
  rw [List.append_nil] at h0
  rw [h0, List.append_assoc, List.append_assoc, List.append_assoc]
  exact scanF_shown hi hf hq he ht

theorem floatText_blank {n : Nat} (h : IsFloat n) {t : Str} (ht : BlankC t) : scanF (floatText n ++ t) = scanF (floatText n) := by
  obtain ⟨neg, v, h1, -⟩ := floatText_shows h
  exact scanF_blank h1 ht

/-- an element with the text of a number -/
theorem query_text {s : Str} {r : Nat} (h : scanF s = some r) (m : Str) (as : List (Str × Str)) (cs : List Node) (a : Str) (d : Nat) :
    ((Node.elem m as cs).setAttribute a s).queryFloatAttribute a d = (.success, r) ∧
    ((Node.elem m as cs).setAttribute a s).floatAttributeOr a d = r ∧
    (∀ b, b ≠ a → ((Node.elem m as cs).setAttribute a s).queryFloatAttribute b d = (Node.elem m as cs).queryFloatAttribute b d) ∧
    ((Node.elem m as cs).setAttribute a s).queryFloatText d = (Node.elem m as cs).queryFloatText d ∧
    ((Node.elem m as cs).setText s).queryFloatText d = (.success, r) ∧
    ((Node.elem m as cs).setText s).floatTextOr d = r ∧
    (∀ b, ((Node.elem m as cs).setText s).queryFloatAttribute b d = (Node.elem m as cs).queryFloatAttribute b d) := by
  have k1 : ((Node.elem m as cs).setAttribute a s).queryFloatAttribute a d = (.success, r) := by
    unfold Node.queryFloatAttribute
    rw [findAttribute_set, if_pos rfl]
    simp only
    rw [h]
  have k2 : ((Node.elem m as cs).setText s).queryFloatText d = (.success, r) := by
    unfold Node.queryFloatText
    rw [getText_set]
    simp only
    rw [h]
  refine ⟨k1, ?_, fun b hb => ?_, ?_, k2, ?_, fun b => ?_⟩
  · unfold Node.floatAttributeOr; rw [k1]
  · unfold Node.queryFloatAttribute
    rw [findAttribute_set, if_neg hb]
  · have : ((Node.elem m as cs).setAttribute a s).getText = (Node.elem m as cs).getText := rfl
    unfold Node.queryFloatText
    rw [this]
  · unfold Node.floatTextOr; rw [k2]
  · have : ((Node.elem m as cs).setText s).attrs = as := attrs_set m as cs _
    have h2 : (Node.elem m as cs).attrs = as := rfl
    unfold Node.queryFloatAttribute Node.findAttribute
    rw [this, h2]

/-- the same in a document that was printed and loaded again -/
theorem saved_text {s : Str} {r : Nat} (hr : ∀ q, BlankC q → scanF (s ++ q) = some r) (hs : Sendable s) (hp : Printed s) (ho : ¬ lit "]]>" <:+: s)
    {l : List Node} (h : PrintableDoc l) {p : List Nat} {i : Nat} {m : Str} {as : List (Str × Str)} {cs : List Node} (hx : nodeAt p i l = some (.elem m as cs))
    {a : Str} (ha : IsName a) (compact bom : Bool) :
      (∃ t l' y, printed compact bom (replaceAt ((Node.elem m as cs).setAttribute a s) p i l) = .ok t ∧ loadFile (some t) = .ok l' ∧ nodeAt p i l' = some y ∧
        ∀ d, y.queryFloatAttribute a d = (.success, r)) ∧
      (∃ t l' y, printed compact bom (replaceAt ((Node.elem m as cs).setText s) p i l) = .ok t ∧ loadFile (some t) = .ok l' ∧ nodeAt p i l' = some y ∧
        ∀ d, y.queryFloatText d = (.success, r)) := by
  have hr0 : scanF s = some r := by have := hr [] (fun b hb => by cases hb); rwa [List.append_nil] at this
  refine ⟨?_, ?_⟩
  · have hd := doc_replaceAt h hx (y := (Node.elem m as cs).setAttribute a s) (fun hp => printable_setAttribute hp ha hs) rfl
    obtain ⟨t, h1, h2⟩ := Props.C81 hd compact bom
    obtain ⟨e, he⟩ := nodeAt_indentAll (k := tab compact) (d := 0) (n := m) (as := setAttr a s as) (cs := cs) (nodeAt_replaceAt ((Node.elem m as cs).setAttribute a s) hx)
    exact ⟨t, _, _, h1, h2, he, fun d => (query_text hr0 m as (indentAll (tab compact) e cs) a d).1⟩
  · obtain ⟨as', cs', hy⟩ := setText_elem m as cs s
    have hd := doc_replaceAt h hx (y := (Node.elem m as cs).setText s) (fun hh => printable_setText hh hs (printed_plain hp).2.2 ho) (by rw [hy]; rfl)
    obtain ⟨t, h1, h2⟩ := Props.C81 hd compact bom
    have hrr := nodeAt_replaceAt ((Node.elem m as cs).setText s) hx
    have hg := getText_set m as cs s
    rw [hy] at hrr hg
    obtain ⟨e, he⟩ := nodeAt_indentAll (k := tab compact) (d := 0) hrr
    rw [← hy] at he
    refine ⟨t, _, _, h1, h2, he, fun d => ?_⟩
    obtain ⟨q, q1, -, q3⟩ := getText_indent (k := tab compact) (e := e) hg
    unfold Node.queryFloatText
    rw [q3]
    simp only
    rw [hr q q1]

end Verif.Xml
