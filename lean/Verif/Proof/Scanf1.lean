import Verif.Proof.Printf3
import Verif.Model.Scanf
/-!
# Reading decimal texts with `%lf`
-/
namespace Verif.Tec
open Spec Xml Json

theorem digitB {b : Byte} : isDigitB b = true ↔ JDigit b := by
  unfold isDigitB JDigit; simp

/-- digits followed by something else -/
theorem span_digits {i r : Str} (hi : ∀ b ∈ i, JDigit b) (hr : ∀ c t, r = c :: t → isDigitB c = false) :
    (i ++ r).takeWhile isDigitB = i ∧ (i ++ r).dropWhile isDigitB = r := by
  induction i with
  | nil =>
    cases r with
    | nil => exact ⟨rfl, rfl⟩
    | cons c t =>
      have := hr c t rfl
      rw [List.nil_append, List.takeWhile_cons, List.dropWhile_cons, this]
      exact ⟨rfl, rfl⟩
  | cons b i ih =>
    have hb := digitB.mpr (hi b (by simp))
    obtain ⟨h1, h2⟩ := ih fun c hc => hi c (by simp [hc])
    rw [List.cons_append, List.takeWhile_cons, List.dropWhile_cons, hb, if_pos rfl, if_pos rfl, h1, h2]
    exact ⟨rfl, rfl⟩

theorem digits_end (d : Str) (hd : ∀ b ∈ d, JDigit b) : d.takeWhile isDigitB = d := by
  have := (span_digits (r := []) hd (fun c t h => by cases h)).1
  rw [List.append_nil] at this; exact this

theorem scanSign_digit {c : Byte} (h : JDigit c) (t : Str) : scanSign (c :: t) = (false, c :: t) := by
  have h45 : c ≠ 45 := by rintro rfl; exact absurd h (by decide)
  have h43 : c ≠ 43 := by rintro rfl; exact absurd h (by decide)
  unfold scanSign
  split
  · rename_i e; exact absurd (List.cons.inj e).1 h45
  · rename_i e; exact absurd (List.cons.inj e).1 h43
  · rfl

theorem scanExp_run {e : Str} {k : Int} (h : ExpOf e k) : scanExp e = some k ∧ ∀ c t, e = c :: t → isDigitB c = false := by
  rcases h with ⟨rfl, rfl⟩ | ⟨d, hd, ⟨rfl, rfl⟩ | ⟨rfl, rfl⟩⟩
  · exact ⟨rfl, fun c t h => by cases h⟩
  · refine ⟨?_, fun c t h => by obtain rfl := (List.cons.inj h).1; decide⟩
    show (if lowerB 101 = 101 then (if d.takeWhile isDigitB = [] then none else some (numOf (d.takeWhile isDigitB) : Int)) else some 0) = _
    rw [digits_end d hd.2, if_pos (by decide), if_neg hd.1]
    rfl
  · refine ⟨?_, fun c t h => by obtain rfl := (List.cons.inj h).1; decide⟩
    show (if lowerB 101 = 101 then (if d.takeWhile isDigitB = [] then none else some (-(numOf (d.takeWhile isDigitB) : Int))) else some 0) = _
    rw [digits_end d hd.2, if_pos (by decide), if_neg hd.1]
    rfl

/-- the parts of a decimal text -/
def parts (s : Str) : Bool × Str × Str × Str :=
  let (neg, s) := scanSign s
  let r := (s.dropWhile isDigitB).tail
  (neg, s.takeWhile isDigitB, r.takeWhile isDigitB, r.dropWhile isDigitB)

theorem parts_run {neg : Bool} {i f e : Str} {k : Int} (hi : JDigits i) (hf : JDigits f) (he : ExpOf e k) :
    parts ((if neg then lit "-" else []) ++ (i ++ (lit "." ++ (f ++ e)))) = (neg, i, f, e) := by
  obtain ⟨i1, i2⟩ := span_digits (i := i) (r := lit "." ++ (f ++ e)) hi.2 fun c t h => by obtain rfl := (List.cons.inj h).1; decide
  obtain ⟨f1, f2⟩ := span_digits (i := f) (r := e) hf.2 (scanExp_run he).2
  have hs : scanSign ((if neg then lit "-" else []) ++ (i ++ (lit "." ++ (f ++ e)))) = (neg, i ++ (lit "." ++ (f ++ e))) := by
    cases neg with
    | true => rfl
    | false =>
      cases i with
      | nil => exact absurd rfl hi.1
      | cons c t => exact scanSign_digit (hi.2 c (by simp)) _
  unfold parts
  rw [hs]
  simp only
  rw [i1, i2]
  have : (lit "." ++ (f ++ e)).tail = f ++ e := rfl
  rw [this, f1, f2]

/-- a text shows one number at most -/
theorem denotes_unique {s : Str} {v w : ℚ} (h : Denotes s v) (h' : Denotes s w) : v = w := by
  obtain ⟨n, i, f, e, k, rfl, hi, hf, he, rfl⟩ := h
  obtain ⟨n', i', f', e', k', h, hi', hf', he', rfl⟩ := h'
  have := parts_run (neg := n) hi hf he
  rw [h, parts_run hi' hf' he'] at this
  obtain ⟨rfl, rfl, rfl, rfl⟩ : n' = n ∧ i' = i ∧ f' = f ∧ e' = e := by simpa using this
  have : k = k' := Option.some.inj ((scanExp_run he).1.symm.trans (scanExp_run he').1)
  rw [this]

theorem dropSpace {s : Str} (h : ∀ c t, s = c :: t → isSpaceB c = false) : s.dropWhile isSpaceB = s := by
  cases s with
  | nil => rfl
  | cons c t => rw [List.dropWhile_cons, h c t rfl]; rfl

theorem lowerB_digit {b : Byte} (h : JDigit b) : lowerB b ≠ 105 ∧ lowerB b ≠ 110 ∧ isSpaceB b = false := by
  revert h
  exact Json.all_bytes (p := fun b => JDigit b → lowerB b ≠ 105 ∧ lowerB b ≠ 110 ∧ isSpaceB b = false) (by decide +kernel) b

theorem scan_number {neg : Bool} {i f e : Str} {k : Int} (hi : JDigits i) (hf : JDigits f) (he : ExpOf e k) :
    scanLf ((if neg then lit "-" else []) ++ (i ++ (lit "." ++ (f ++ e)))) =
      some (withSign neg (nearest10 (digitsVal (i ++ f)) (k - f.length))) := by
  obtain ⟨i1, i2⟩ := span_digits (i := i) (r := lit "." ++ (f ++ e)) hi.2 fun c t h => by obtain rfl := (List.cons.inj h).1; decide
  obtain ⟨f1, f2⟩ := span_digits (i := f) (r := e) hf.2 (scanExp_run he).2
  have hd : ((if neg then lit "-" else []) ++ (i ++ (lit "." ++ (f ++ e)))).dropWhile isSpaceB = (if neg then lit "-" else []) ++ (i ++ (lit "." ++ (f ++ e))) := by
    apply dropSpace
    intro c t h
    cases neg with
    | true => obtain rfl := (List.cons.inj h).1; decide
    | false =>
      cases i with
      | nil => exact absurd rfl hi.1
      | cons b i => obtain rfl := (List.cons.inj h).1; exact (lowerB_digit (hi.2 b (by simp))).2.2
  have hs : scanSign ((if neg then lit "-" else []) ++ (i ++ (lit "." ++ (f ++ e)))) = (neg, i ++ (lit "." ++ (f ++ e))) := by
    cases neg with
    | true => rfl
    | false =>
      cases i with
      | nil => exact absurd rfl hi.1
      | cons c t => exact scanSign_digit (hi.2 c (by simp)) _
  have hw : ∀ c : Byte, ∀ r : Str, (c = 105 ∨ c = 110) → ((i ++ (lit "." ++ (f ++ e))).take 3).map lowerB ≠ c :: r := by
    intro c r hc h
    cases i with
    | nil => exact absurd rfl hi.1
    | cons b i =>
      have hb := lowerB_digit (hi.2 b (by simp))
      have := (List.cons.inj h).1
      rcases hc with rfl | rfl
      · exact hb.1 this
      · exact hb.2.1 this
  unfold scanLf
  rw [hd, hs]
  simp only
  have w1 : ((i ++ (lit "." ++ (f ++ e))).take 3).map lowerB ≠ lit "inf" := hw 105 _ (Or.inl rfl)
  have w2 : ((i ++ (lit "." ++ (f ++ e))).take 3).map lowerB ≠ lit "nan" := hw 110 _ (Or.inr rfl)
  rw [if_neg w1, if_neg w2, i1, i2]
  show (if i ++ (f ++ e).takeWhile isDigitB = [] then none else
    (scanExp ((f ++ e).dropWhile isDigitB)).map fun k => withSign neg (nearest10 (numOf (i ++ (f ++ e).takeWhile isDigitB)) (k - ((f ++ e).takeWhile isDigitB).length))) = _
  rw [f1, f2, (scanExp_run he).1, if_neg (fun h => hi.1 (List.append_eq_nil_iff.mp h).1)]
  rfl

/-- an infinity is read as it was; a NaN is read as a NaN -/
theorem scan_special {x : F64} (h : x.special = true) : ∃ y, scanLf (specialText x) = some y ∧ y.special = true ∧ (x.frac = 0 → y = x) ∧ (x.frac ≠ 0 → y.frac ≠ 0) := by
  have hx := x.isLt
  have h1 : x.expo = 2047 := by unfold F64.special at h; exact beq_iff_eq.mp h
  unfold F64.expo at h1
  unfold specialText minus
  cases hn : x.neg <;> unfold F64.neg at hn <;> by_cases hf : x.frac = 0
  · refine ⟨withSign false 0x7FF0000000000000, by rw [if_pos hf]; rfl, by decide, fun _ => ?_, fun h => absurd hf h⟩
    have hn := of_decide_eq_false hn
    unfold F64.frac at hf
    apply BitVec.eq_of_toNat_eq
    have : (withSign false 0x7FF0000000000000).toNat = 0x7FF0000000000000 := by decide
    rw [this]
    omega
  · exact ⟨withSign false 0x7FF8000000000000, by rw [if_neg hf]; rfl, by decide, fun h => absurd h hf, fun _ => by decide⟩
  · refine ⟨withSign true 0x7FF0000000000000, by rw [if_pos hf]; rfl, by decide, fun _ => ?_, fun h => absurd hf h⟩
    have hn := of_decide_eq_true hn
    unfold F64.frac at hf
    apply BitVec.eq_of_toNat_eq
    have : (withSign true 0x7FF0000000000000).toNat = 2 ^ 63 + 0x7FF0000000000000 := by decide
    rw [this]
    omega
  · exact ⟨withSign true 0x7FF8000000000000, by rw [if_neg hf]; rfl, by decide, fun h => absurd h hf, fun _ => by decide⟩

end Verif.Tec
