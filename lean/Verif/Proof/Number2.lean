import Verif.Proof.Number1
import Verif.Proof.XmlDoc3
import Verif.Proof.Xml5
/-!
# Numbers in documents
-/
namespace Verif.Xml
open Tec Spec Json

/-! ## The texts of numbers -/

theorem gParts_bounds {p : Nat} (hp : p ≤ 16) {x : F64} (h : x.special = false) : (gParts p x).1 ≤ 10 ^ 17 ∧ -324 ≤ (gParts p x).2 ∧ (gParts p x).2 ≤ 309 := by
  have h1 : 10 ^ (p + 1) ≤ 10 ^ 17 := Nat.pow_le_pow_right (by decide) (by omega)
  have h2 : 10 ^ p ≤ 10 ^ 17 := Nat.pow_le_pow_right (by decide) (by omega)
  unfold gParts
  split
  · exact ⟨by simp, by decide, by decide⟩
  · rename_i h0
    obtain ⟨b1, b2⟩ := gDigits_bounds p h0
    have m1 := (magnitude_bounds h0).1
    have m2 := magnitude_le h h0
    split
    · dsimp only; exact ⟨h2, by omega, by omega⟩
    · dsimp only; exact ⟨b2.trans h1, by omega, by omega⟩

theorem trimZeros_length (s : Str) : (trimZeros s).length ≤ s.length := by
  obtain ⟨j, hj⟩ := trimZeros_split s
  have := congrArg List.length hj
  rw [List.length_append] at this
  omega

theorem fraction_length (k d : Nat) : (fraction (padded k d)).length ≤ k + 1 := by
  have h := trimZeros_length (padded k d)
  rw [padded_length] at h
  unfold fraction
  split
  · simp
  · rw [List.length_cons]; omega

theorem printG_length {p : Nat} (hp : p ≤ 16) (x : F64) : (printG p x).length ≤ 60 := by
  unfold printG
  split
  · have := specialText_length x
    omega
  · rename_i hs
    have hs : x.special = false := by simpa using hs
    obtain ⟨b1, b2, b3⟩ := gParts_bounds hp hs
    have hm := minus_length x
    have hd : ∀ k, (decNat ((gParts p x).1 / 10 ^ k)).length ≤ 18 := fun k =>
      decNat_length (by decide) (lt_of_le_of_lt (Nat.div_le_self _ _) (lt_of_le_of_lt b1 (by decide)))
    split
    · have h1 := hd p
      have h2 := fraction_length p (gParts p x).1
      have h3 := expText_length (e := (gParts p x).2) (by omega)
      simp only [List.length_append]
      omega
    · have h1 := hd ((p : Int) - (gParts p x).2).toNat
      have h2 := fraction_length ((p : Int) - (gParts p x).2).toNat (gParts p x).1
      simp only [List.length_append]
      omega

/-- the characters of numbers -/
def NumByte (b : UInt8) : Prop := JDigit b ∨ b ∈ ([45, 43, 46, 101, 105, 110, 102, 97, 116, 114, 117, 108, 115] : List UInt8)

theorem numByte_printed {b : UInt8} (h : NumByte b) : 33 ≤ b ∧ b ≤ 126 ∧ b ≠ 34 ∧ b ≠ 38 ∧ b ≠ 60 ∧ b ≠ 93 := by
  revert h
  exact Json.all_bytes (p := fun b => (JDigit b ∨ b ∈ ([45, 43, 46, 101, 105, 110, 102, 97, 116, 114, 117, 108, 115] : List UInt8)) → 33 ≤ b ∧ b ≤ 126 ∧ b ≠ 34 ∧ b ≠ 38 ∧ b ≠ 60 ∧ b ≠ 93)
    (by decide +kernel) b

theorem numByte_of {b : UInt8} (h : JDigit b ∨ b ∈ ([45, 43, 46, 101, 105, 110, 102, 97] : List UInt8)) : NumByte b := by
  rcases h with h | h
  · exact .inl h
  · right
    simp only [List.mem_cons, List.not_mem_nil, or_false] at h ⊢
    tauto

theorem fraction_bytes (k d : Nat) : ∀ b ∈ fraction (padded k d), NumByte b := by
  intro b hb
  obtain ⟨j, hj⟩ := trimZeros_split (padded k d)
  have ht : ∀ b ∈ trimZeros (padded k d), NumByte b := fun b hb => .inl (padded_digits k d b (by rw [hj]; exact List.mem_append_left _ hb))
  unfold fraction at hb
  split at hb
  · cases hb
  · rcases List.mem_cons.1 hb with rfl | hb
    · right; decide
    · exact ht b hb

theorem printG_bytes (p : Nat) (x : F64) : printG p x ≠ [] ∧ ∀ b ∈ printG p x, NumByte b := by
  have hm : ∀ b ∈ minus x, NumByte b := fun b hb => numByte_of (minus_bytes x b hb)
  have hd : ∀ k, ∀ b ∈ decNat ((gParts p x).1 / 10 ^ k), NumByte b := fun k b hb => .inl ((decNat_jdigits _).2 b hb)
  unfold printG
  split
  · refine ⟨(special_printed x).1, fun b hb => ?_⟩
    unfold specialText at hb
    rcases List.mem_append.1 hb with hb | hb
    · exact hm b hb
    · right
      split at hb
      · exact (by decide : ∀ b ∈ lit "inf", b ∈ ([45, 43, 46, 101, 105, 110, 102, 97, 116, 114, 117, 108, 115] : List UInt8)) b hb
      · exact (by decide : ∀ b ∈ lit "nan", b ∈ ([45, 43, 46, 101, 105, 110, 102, 97, 116, 114, 117, 108, 115] : List UInt8)) b hb
  · split
    · refine ⟨fun e => (decNat_jdigits _).1 (List.append_eq_nil_iff.1 (List.append_eq_nil_iff.1 e).2).1, fun b hb => ?_⟩
      rcases List.mem_append.1 hb with hb | hb
      · exact hm b hb
      rcases List.mem_append.1 hb with hb | hb
      · exact hd _ b hb
      rcases List.mem_append.1 hb with hb | hb
      · exact fraction_bytes _ _ b hb
      · exact numByte_of (expText_bytes _ b hb)
    · refine ⟨fun e => (decNat_jdigits _).1 (List.append_eq_nil_iff.1 (List.append_eq_nil_iff.1 e).2).1, fun b hb => ?_⟩
      rcases List.mem_append.1 hb with hb | hb
      · exact hm b hb
      rcases List.mem_append.1 hb with hb | hb
      · exact hd _ b hb
      · exact fraction_bytes _ _ b hb

theorem dec_numBytes (x : Int) : dec x ≠ [] ∧ ∀ b ∈ dec x, NumByte b := by
  obtain ⟨h1, h2⟩ := decNat_bytes x.natAbs
  unfold dec
  split
  · refine ⟨by simp, fun b hb => ?_⟩
    rcases List.mem_cons.1 hb with rfl | hb
    · right; decide
    · exact .inl (h2 b hb)
  · exact ⟨h1, fun b hb => .inl (h2 b hb)⟩

theorem dec_length {x : Int} (h : x.natAbs < 10 ^ 20) : (dec x).length ≤ 21 := by
  have := decNat_length (k := 20) (by decide) h
  unfold dec
  split
  · rw [List.length_cons]; omega
  · omega

theorem snprintf_all {t : Str} (h : t.length ≤ 199) : snprintf bufSize t = t := List.take_of_length_le h

/-- the text as it is without the limit of the buffer -/
def plainText : Scalar → Str
  | .int v => dec v
  | .unsigned v => dec v
  | .int64 v => dec v
  | .bool v => if v then lit "true" else lit "false"
  | .double v => printG 16 v

theorem text_eq {v : Scalar} (h : v.ty = .double ∨ Fits v) : v.text {} = plainText v := by
  cases v with
  | int v =>
    have h : Fits (.int v) := h.resolve_left (by rintro ⟨⟩)
    have := h.1; have := h.2
    exact snprintf_all ((dec_length (by omega)).trans (by decide))
  | unsigned v =>
    have h : Fits (.unsigned v) := h.resolve_left (by rintro ⟨⟩)
    have : v < 2 ^ 32 := h
    exact snprintf_all ((dec_length (by omega)).trans (by decide))
  | int64 v =>
    have h : Fits (.int64 v) := h.resolve_left (by rintro ⟨⟩)
    have := h.1; have := h.2
    exact snprintf_all ((dec_length (by omega)).trans (by decide))
  | bool v => cases v <;> decide +kernel
  | double v => exact snprintf_all ((printG_length (by decide) v).trans (by decide))

theorem plainText_bytes (v : Scalar) : plainText v ≠ [] ∧ ∀ b ∈ plainText v, NumByte b := by
  cases v with
  | int v => exact dec_numBytes v
  | unsigned v => exact dec_numBytes v
  | int64 v => exact dec_numBytes v
  | bool v =>
    refine ⟨by cases v <;> decide, fun b hb => .inr ?_⟩
    cases v
    · exact (by decide : ∀ b ∈ lit "false", b ∈ ([45, 43, 46, 101, 105, 110, 102, 97, 116, 114, 117, 108, 115] : List UInt8)) b hb
    · exact (by decide : ∀ b ∈ lit "true", b ∈ ([45, 43, 46, 101, 105, 110, 102, 97, 116, 114, 117, 108, 115] : List UInt8)) b hb
  | double v => exact printG_bytes 16 v

theorem plainText_printed (v : Scalar) : Printed (plainText v) :=
  ⟨(plainText_bytes v).1, fun b hb => by have := numByte_printed ((plainText_bytes v).2 b hb); exact ⟨this.1, this.2.1, this.2.2.1, this.2.2.2.1, this.2.2.2.2.1⟩⟩

theorem plainText_clean (v : Scalar) : Clean (plainText v) := fun b hb => by
  have := numByte_printed ((plainText_bytes v).2 b hb)
  exact ⟨by rintro rfl; exact absurd this.1 (by decide), by rintro rfl; exact absurd this.1 (by decide)⟩

theorem plainText_open (v : Scalar) : ¬ lit "]]>" <:+: plainText v := by
  intro h
  have : (93 : UInt8) ∈ plainText v := h.subset (by decide)
  exact (numByte_printed ((plainText_bytes v).2 _ this)).2.2.2.2.2 rfl

theorem plainText_length {v : Scalar} (h : Fits v) : (plainText v).length ≤ 60 := by
  cases v with
  | int v =>
    have := h.1; have := h.2
    exact (dec_length (by omega)).trans (by decide)
  | unsigned v =>
    have : v < 2 ^ 32 := h
    exact (dec_length (by omega)).trans (by decide)
  | int64 v =>
    have := h.1; have := h.2
    exact (dec_length (by omega)).trans (by decide)
  | bool v => cases v <;> decide +kernel
  | double v => exact printG_length (by decide) v

/-! ## Reading with white space behind -/

theorem blank_notDigit {t : Str} (h : BlankC t) : t.takeWhile isDigit = [] := by
  cases t with
  | nil => rfl
  | cons c t =>
    have := (blank_not h c t rfl).1
    have e : isDigit c = false := by
      revert this
      exact Json.all_bytes (p := fun b => isDigitB b = false → isDigit b = false) (by decide +kernel) c
    rw [List.takeWhile_cons, e]; rfl

theorem signed_dec_blank (x : Int) {t : Str} (hb : BlankC t) :
    ∃ b, signedDigits (dec x ++ t) = some (b, x.natAbs) ∧ sgn (b, x.natAbs) = x ∧ (0 ≤ x → b = false) := by
  obtain ⟨h1, h2⟩ := decNat_bytes x.natAbs
  have ht : (decNat x.natAbs ++ t).takeWhile isDigit = decNat x.natAbs := by
    rw [takeWhile_all (p := isDigit) (w := decNat x.natAbs) (fun b hb => digit_isDigit (h2 b hb)) t, blank_notDigit hb, List.append_nil]
  by_cases hx : x < 0
  · refine ⟨true, ?_, by show -(x.natAbs : Int) = x; omega, fun h => absurd hx (by omega)⟩
    unfold signedDigits dec
    rw [if_pos hx, List.cons_append]
    rw [skipSpace_cons (by decide)]
    show (if (decNat x.natAbs ++ t).takeWhile isDigit = [] then none else some (true, digitsVal ((decNat x.natAbs ++ t).takeWhile isDigit))) = _
    rw [ht, if_neg h1, digitsVal_dec]
  · refine ⟨false, ?_, by show (x.natAbs : Int) = x; omega, fun _ => rfl⟩
    unfold signedDigits dec
    rw [if_neg hx]
    obtain ⟨c, q, e⟩ := List.exists_cons_of_ne_nil h1
    have hc : 48 ≤ c ∧ c ≤ 57 := h2 c (by rw [e]; simp)
    have hs : isSpace c = false := by
      rw [← Bool.not_eq_true, isSpace_iff]
      rintro (rfl | hh)
      · exact absurd hc.1 (by decide)
      · have h1 := hc.1
        have h2 := hh.2
        rw [UInt8.le_iff_toNat_le] at h1 h2
        exact absurd (Nat.le_trans h1 h2) (by decide)
    have h45 : c ≠ 45 := by rintro rfl; exact absurd hc.1 (by decide)
    have h43 : c ≠ 43 := by rintro rfl; exact absurd hc.1 (by decide)
    have hp : sign (c :: (q ++ t)) = (false, c :: (q ++ t)) := by
      unfold sign
      split
      · rename_i heq; exact absurd (List.cons.inj heq).1 h45
      · rename_i heq; exact absurd (List.cons.inj heq).1 h43
      · rfl
    have hk : skipSpace (decNat x.natAbs ++ t) = c :: (q ++ t) := by rw [e, List.cons_append, skipSpace_cons hs]
    simp only
    rw [hk, hp]
    simp only
    rw [← List.cons_append, ← e, ht, if_neg h1, digitsVal_dec]

theorem conv_text {v : Scalar} (h : Fits v) {t : Str} (ht : BlankC t) (hb : v.ty = .bool → t = []) : v.ty.conv (plainText v ++ t) = .ok (some v) := by
  cases v with
  | int v =>
    obtain ⟨b, h1, h2, -⟩ := signed_dec_blank v ht
    have : InI32 v := ⟨h.1, by have := h.2; omega⟩
    show (scanInt (dec v ++ t) >>= _) = _
    unfold scanInt
    rw [h1]
    simp only
    rw [h2, if_pos this]
    rfl
  | unsigned v =>
    obtain ⟨b, h1, h2, h3⟩ := signed_dec_blank (v : Int) ht
    have : v < 4294967296 := h
    show (scanUnsigned (dec (v : Int) ++ t) >>= _) = _
    unfold scanUnsigned
    rw [h1]
    simp only [Int.natAbs_natCast]
    rw [if_pos this, h3 (by omega)]
    rfl
  | int64 v =>
    obtain ⟨b, h1, h2, -⟩ := signed_dec_blank v ht
    have := h.1
    have := h.2
    show (scanInt64 (dec v ++ t) >>= _) = _
    unfold scanInt64
    rw [h1]
    simp only
    rw [h2, if_pos (by omega)]
    rfl
  | bool v =>
    rw [hb rfl, List.append_nil]
    cases v <;> rfl
  | double v =>
    show Out.ok ((scanLf (printG 16 v ++ t)).map Scalar.double) = _
    rw [printG_read h ht]
    rfl

/-! ## Attributes and texts of an element -/

theorem find_setAttr (n v : Str) (as : List (Str × Str)) (m : Str) :
    (((setAttr n v as).find? fun a => a.1 == m).map (·.2)) = if m = n then some v else (as.find? fun a => a.1 == m).map (·.2) := by
  induction as with
  | nil =>
    unfold setAttr
    rw [List.find?_cons, List.find?_nil]
    by_cases h : m = n
    · rw [if_pos h, h]; simp
    · rw [if_neg h]
      have : ((n, v).1 == m) = false := beq_eq_false_iff_ne.2 fun e => h e.symm
      rw [this]
  | cons a l ih =>
    unfold setAttr
    by_cases ha : a.1 = n
    · rw [if_pos ha, List.find?_cons, List.find?_cons, ha]
      by_cases h : m = n
      · rw [if_pos h, h]; simp
      · have : (n == m) = false := beq_eq_false_iff_ne.2 fun e => h e.symm
        rw [if_neg h, this]
    · rw [if_neg ha, List.find?_cons, List.find?_cons]
      by_cases h : a.1 = m
      · rw [if_neg (fun e => ha (h.trans e))]
        have : (a.1 == m) = true := beq_iff_eq.2 h
        rw [this]
      · have : (a.1 == m) = false := beq_eq_false_iff_ne.2 h
        rw [this]; exact ih

theorem findAttribute_set (m : Str) (as : List (Str × Str)) (cs : List Node) (n v k : Str) :
    ((Node.elem m as cs).setAttribute n v).findAttribute k = if k = n then some v else (Node.elem m as cs).findAttribute k := find_setAttr n v as k

theorem getText_set (m : Str) (as : List (Str × Str)) (cs : List Node) (v : Str) : ((Node.elem m as cs).setText v).getText = some v := by
  unfold Node.setText
  split
  · rename_i h; injection h with h1 h2 h3; rfl
  · rename_i h; injection h with h1 h2 h3; rfl
  · rename_i h1 h2; exact absurd rfl (h2 m as cs)

theorem setText_elem (m : Str) (as : List (Str × Str)) (cs : List Node) (v : Str) : ∃ as' cs', (Node.elem m as cs).setText v = .elem m as' cs' := by
  unfold Node.setText
  split
  · rename_i h; injection h with h1 h2 h3; subst h1; exact ⟨_, _, rfl⟩
  · rename_i h; injection h with h1 h2 h3; subst h1; exact ⟨_, _, rfl⟩
  · rename_i h1 h2; exact absurd rfl (h2 m as cs)

theorem attrs_set (m : Str) (as : List (Str × Str)) (cs : List Node) (v : Str) : ((Node.elem m as cs).setText v).attrs = as := by
  unfold Node.setText
  split
  · rename_i h; injection h with h1 h2 h3; exact h2.symm
  · rename_i h; injection h with h1 h2 h3; exact h2.symm
  · rename_i h1 h2; exact absurd rfl (h2 m as cs)

/-! ## Documents -/

theorem setAttr_names (n v : Str) (as : List (Str × Str)) :
    (setAttr n v as).map (·.1) = if n ∈ as.map (·.1) then as.map (·.1) else as.map (·.1) ++ [n] := by
  induction as with
  | nil => rfl
  | cons a l ih =>
    unfold setAttr
    by_cases ha : a.1 = n
    · rw [if_pos ha]; simp [ha]
    · rw [if_neg ha, List.map_cons, ih, List.map_cons]
      have : (n ∈ a.1 :: l.map (·.1)) ↔ n ∈ l.map (·.1) := by
        rw [List.mem_cons]; exact or_iff_right fun e => ha e.symm
      by_cases hm : n ∈ l.map (·.1)
      · rw [if_pos hm, if_pos (this.2 hm)]
      · rw [if_neg hm, if_neg fun h => hm (this.1 h)]; rfl

theorem setAttr_mem {n v : Str} {as : List (Str × Str)} {P : Str × Str → Prop} (hv : P (n, v)) (h : ∀ a ∈ as, P a) : ∀ a ∈ setAttr n v as, P a := by
  induction as with
  | nil => intro a ha; rw [List.mem_singleton.1 ha]; exact hv
  | cons b l ih =>
    intro a ha
    unfold setAttr at ha
    split at ha
    · rename_i hb
      rcases List.mem_cons.1 ha with rfl | ha
      · rw [hb]; exact hv
      · exact h a (by simp [ha])
    · rcases List.mem_cons.1 ha with rfl | ha
      · exact h a (by simp)
      · exact ih (fun c hc => h c (by simp [hc])) a ha

theorem printable_setAttribute {m : Str} {as : List (Str × Str)} {cs : List Node} (h : Printable (.elem m as cs)) {n v : Str} (hn : IsName n) (hv : Sendable v) :
    Printable ((Node.elem m as cs).setAttribute n v) := by
  unfold Printable at h
  show Printable (.elem m (setAttr n v as) cs)
  unfold Printable
  refine ⟨h.1, setAttr_mem (P := fun a => IsName a.1 ∧ Sendable a.2) ⟨hn, hv⟩ h.2.1, ?_, h.2.2.2⟩
  rw [setAttr_names]
  split
  · exact h.2.2.1
  · rename_i hc
    exact List.nodup_append.2 ⟨h.2.2.1, by simp, fun a ha b hb e => by rw [List.mem_singleton.1 hb] at e; exact hc (e ▸ ha)⟩

theorem printable_setText {m : Str} {as : List (Str × Str)} {cs : List Node} (h : Printable (.elem m as cs)) {v : Str} (hs : Sendable v) (hv : Visible v)
    (ho : ¬ lit "]]>" <:+: v) : Printable ((Node.elem m as cs).setText v) := by
  unfold Printable at h
  have ht : ∀ c, Printable (.text c v) := by
    intro c
    unfold Printable
    cases c
    · exact ⟨hs, hv⟩
    · exact ⟨hs.1, ho⟩
  have fresh : (∀ c w l, cs ≠ .text c w :: l) → Printable (.elem m as (.text false v :: cs)) := by
    intro hc
    unfold Printable
    refine ⟨h.1, h.2.1, h.2.2.1, ?_⟩
    unfold PrintableAll
    refine ⟨ht false, ?_, h.2.2.2⟩
    cases cs with
    | nil => rfl
    | cons x l =>
      cases x with
      | text c w => exact absurd rfl (hc c w l)
      | elem => rfl
      | comment => rfl
      | decl => rfl
      | unknown => rfl
  cases cs with
  | nil => exact fresh (by rintro c w l ⟨⟩)
  | cons x l =>
    cases x with
    | text c w =>
      show Printable (.elem m as (.text c v :: l))
      have h4 := h.2.2.2
      unfold PrintableAll at h4
      unfold Printable
      refine ⟨h.1, h.2.1, h.2.2.1, ?_⟩
      unfold PrintableAll
      refine ⟨ht c, ?_, h4.2.2⟩
      have := h4.2.1
      cases l with
      | nil => rfl
      | cons y l => cases c <;> exact this
    | elem => exact fresh (by rintro c w l ⟨⟩)
    | comment => exact fresh (by rintro c w l ⟨⟩)
    | decl => exact fresh (by rintro c w l ⟨⟩)
    | unknown => exact fresh (by rintro c w l ⟨⟩)

theorem printableAll_at {l : List Node} (h : PrintableAll l) {i : Nat} {x : Node} (hx : l[i]? = some x) : Printable x := by
  induction l generalizing i with
  | nil => simp at hx
  | cons y l ih =>
    unfold PrintableAll at h
    cases i with
    | zero => rw [List.getElem?_cons_zero] at hx; cases hx; exact h.1
    | succ i => rw [List.getElem?_cons_succ] at hx; exact ih h.2.2 hx

theorem printableAll_set {l : List Node} (h : PrintableAll l) {i : Nat} {x y : Node} (hx : l[i]? = some x) (ey : isText y = false) (hy : Printable y) :
    PrintableAll (l.set i y) := by
  induction l generalizing i with
  | nil => simp at hx
  | cons z l ih =>
    unfold PrintableAll at h
    cases i with
    | zero =>
      rw [List.set_cons_zero]
      unfold PrintableAll
      refine ⟨hy, ?_, h.2.2⟩
      cases l with
      | nil => rfl
      | cons w l => show (isText y && isText w) = false; rw [ey]; rfl
    | succ i =>
      rw [List.getElem?_cons_succ] at hx
      rw [List.set_cons_succ]
      unfold PrintableAll
      refine ⟨h.1, ?_, ih h.2.2 hx⟩
      cases l with
      | nil => rfl
      | cons w l =>
        cases i with
        | zero => rw [List.set_cons_zero]; show (isText z && isText y) = false; rw [ey, Bool.and_false]
        | succ i => rw [List.set_cons_succ]; exact h.2.1

theorem printable_nodeAt {p : List Nat} {i : Nat} {l : List Node} (h : PrintableAll l) {x : Node} (hx : nodeAt p i l = some x) : Printable x := by
  induction p generalizing l with
  | nil => exact printableAll_at h hx
  | cons j p ih =>
    unfold nodeAt at hx
    split at hx
    · rename_i n as cs hj
      have := printableAll_at h hj
      unfold Printable at this
      exact ih this.2.2.2 hx
    · cases hx

theorem isText_elem (n : Str) (as : List (Str × Str)) (cs : List Node) : isText (.elem n as cs) = false := rfl

theorem printable_replaceAt {p : List Nat} {i : Nat} {l : List Node} (h : PrintableAll l) {x y : Node} (hx : nodeAt p i l = some x) (ey : isText y = false)
    (hy : Printable y) : PrintableAll (replaceAt y p i l) := by
  induction p generalizing l with
  | nil => exact printableAll_set h hx ey hy
  | cons j p ih =>
    unfold nodeAt at hx
    unfold replaceAt
    split at hx
    · rename_i n as cs hj
      have := printableAll_at h hj
      unfold Printable at this
      refine printableAll_set h hj rfl ?_
      unfold Printable
      exact ⟨this.1, this.2.1, this.2.2.1, ih this.2.2.2 hx⟩
    · cases hx

theorem nodeAt_replaceAt {p : List Nat} {i : Nat} {l : List Node} {x : Node} (y : Node) (hx : nodeAt p i l = some x) : nodeAt p i (replaceAt y p i l) = some y := by
  induction p generalizing l with
  | nil =>
    unfold nodeAt at hx
    unfold nodeAt replaceAt
    have := (List.getElem?_eq_some_iff.1 hx).1
    rw [List.getElem?_set_self this]
  | cons j p ih =>
    unfold nodeAt at hx
    unfold replaceAt
    split at hx
    · rename_i n as cs hj
      unfold nodeAt
      have := (List.getElem?_eq_some_iff.1 hj).1
      rw [List.getElem?_set_self this]
      exact ih hx
    · cases hx

/-- the first index of a place -/
def topIndex : List Nat → Nat → Nat
  | [], i => i
  | j :: _, _ => j

theorem replaceAt_append {p : List Nat} {i : Nat} {ds ns : List Node} {y : Node} (hd : ∀ x ∈ ds, ∃ v, x = .decl v) {n : Str} {as : List (Str × Str)} {cs : List Node}
    (hx : nodeAt p i (ds ++ ns) = some (.elem n as cs)) :
    ∃ q k, nodeAt q k ns = some (.elem n as cs) ∧ replaceAt y p i (ds ++ ns) = ds ++ replaceAt y q k ns := by
  have big : ∀ j n as cs, (ds ++ ns)[j]? = some (.elem n as cs) → ds.length ≤ j := by
    intro j n as cs h
    by_contra hc
    rw [List.getElem?_append_left (by omega)] at h
    obtain ⟨v, hv⟩ := hd _ (List.mem_of_getElem? h)
    cases hv
  cases p with
  | nil =>
    have hj := big i n as cs hx
    refine ⟨[], i - ds.length, ?_, ?_⟩
    · unfold nodeAt at hx ⊢
      rw [List.getElem?_append_right hj] at hx
      exact hx
    · unfold replaceAt
      rw [List.set_append_right _ _ hj]
  | cons j p =>
    unfold nodeAt at hx
    split at hx
    · rename_i n' as' cs' hh
      have hj := big j n' as' cs' hh
      have hh' := hh
      rw [List.getElem?_append_right hj] at hh'
      refine ⟨(j - ds.length) :: p, i, ?_, ?_⟩
      · unfold nodeAt; rw [hh']; exact hx
      · unfold replaceAt
        rw [hh, hh']
        simp only
        rw [List.set_append_right _ _ hj]
    · cases hx

theorem nodeAt_append {p : List Nat} {i : Nat} {ds ns : List Node} (hd : ∀ x ∈ ds, ∃ v, x = .decl v) {n : Str} {as : List (Str × Str)} {cs : List Node}
    (hx : nodeAt p i (ds ++ ns) = some (.elem n as cs)) : ∃ q k, nodeAt q k ns = some (.elem n as cs) := by
  obtain ⟨q, k, h, -⟩ := replaceAt_append (y := .elem n as cs) hd hx
  exact ⟨q, k, h⟩

theorem isText_set {l : List Node} {i : Nat} {y : Node} (h : ∀ x ∈ l, isText x = false) (hy : isText y = false) : ∀ x ∈ l.set i y, isText x = false := by
  intro x hx
  rcases List.mem_or_eq_of_mem_set hx with hx | rfl
  · exact h x hx
  · exact hy

theorem isText_replaceAt {p : List Nat} {i : Nat} {l : List Node} {y : Node} (h : ∀ x ∈ l, isText x = false) (hy : isText y = false) : ∀ x ∈ replaceAt y p i l, isText x = false := by
  cases p with
  | nil => exact isText_set h hy
  | cons j p =>
    unfold replaceAt
    split
    · exact isText_set h rfl
    · exact h

theorem replaceAt_ne {p : List Nat} {i : Nat} {l : List Node} {y : Node} (h : l ≠ []) : replaceAt y p i l ≠ [] := by
  have : (replaceAt y p i l).length = l.length := by
    cases p with
    | nil => unfold replaceAt; exact List.length_set
    | cons j p => unfold replaceAt; split <;> simp
  intro e
  rw [e] at this
  exact h (List.length_eq_zero_iff.1 this.symm)

/-- a document stays one that can be written -/
theorem doc_replaceAt {l : List Node} (h : PrintableDoc l) {p : List Nat} {i : Nat} {n : Str} {as : List (Str × Str)} {cs : List Node} (hx : nodeAt p i l = some (.elem n as cs))
    {y : Node} (hy : Printable (.elem n as cs) → Printable y) (ey : isText y = false) : PrintableDoc (replaceAt y p i l) := by
  obtain ⟨ds, ns, rfl, hd, hn, ht⟩ := h.parts
  obtain ⟨q, k, h1, h2⟩ := replaceAt_append (y := y) (fun x hx => by obtain ⟨v, hv, -⟩ := hd x hx; exact ⟨v, hv⟩) hx
  refine ⟨replaceAt_ne h.few, ds, replaceAt y q k ns, h2, hd, ?_, isText_replaceAt ht ey⟩
  exact printable_replaceAt hn h1 ey (hy (printable_nodeAt hn h1))

/-! ## Places in a document with indentation -/

theorem indentAll_at (k d : Nat) (l : List Node) (i : Nat) : (indentAll k d l)[i]? = (l[i]?).map fun x => padText (padding k d (l.drop (i + 1))) (indent k d x) := by
  induction l generalizing i with
  | nil => simp [indentAll]
  | cons x l ih =>
    unfold indentAll
    cases i with
    | zero => simp
    | succ i => rw [List.getElem?_cons_succ, List.getElem?_cons_succ, ih, List.drop_succ_cons]

theorem nodeAt_indentAll {k d : Nat} {p : List Nat} {i : Nat} {l : List Node} {n : Str} {as : List (Str × Str)} {cs : List Node} (hx : nodeAt p i l = some (.elem n as cs)) :
    ∃ e, nodeAt p i (indentAll k d l) = some (.elem n as (indentAll k e cs)) := by
  induction p generalizing l d with
  | nil =>
    unfold nodeAt at hx ⊢
    rw [indentAll_at, hx]
    exact ⟨d + 1, by rw [Option.map_some]; rfl⟩
  | cons j p ih =>
    unfold nodeAt at hx
    split at hx
    · rename_i n' as' cs' hh
      obtain ⟨e, he⟩ := ih (d := d + 1) hx
      refine ⟨e, ?_⟩
      unfold nodeAt
      rw [indentAll_at, hh]
      exact he
    · cases hx

theorem padding_blank (k d : Nat) (l : List Node) : BlankC (padding k d l) := by
  unfold padding
  split
  · split
    · intro b hb; exact .inl (List.mem_replicate.1 hb).2
    · intro b hb; cases hb
  · intro b hb; cases hb

theorem padding_zero (d : Nat) (l : List Node) : padding 0 d l = [] := by
  unfold padding
  split
  · split
    · rw [Nat.zero_mul]; rfl
    · rfl
  · rfl

theorem getText_indent {k e : Nat} {n : Str} {as : List (Str × Str)} {cs : List Node} {v : Str} (h : (Node.elem n as cs).getText = some v) :
    ∃ t, BlankC t ∧ (k = 0 → t = []) ∧ (Node.elem n as (indentAll k e cs)).getText = some (v ++ t) := by
  cases cs with
  | nil => cases h
  | cons x l =>
    cases x with
    | text c w =>
      have hw : w = v := Option.some.inj h
      subst hw
      cases c with
      | true => exact ⟨[], (fun b hb => by cases hb), fun _ => rfl, by rw [List.append_nil]; rfl⟩
      | false => exact ⟨padding k e l, padding_blank k e l, fun hk => by rw [hk, padding_zero], rfl⟩
    | elem => cases h
    | comment => cases h
    | decl => cases h
    | unknown => cases h

/-! ## `float` -/

theorem f64OfF32_abs {n : Nat} (hn : n < 2 ^ 32) (hf : finite 32 23 n) : (f64OfF32 n).special = false := by
  have h := f64OfF32_exact hn hf
  rw [F64.scaled_eq] at h
  have hs : (scaled 32 23 n).natAbs ≤ 2 ^ 24 * 2 ^ 253 := by
    have hm : ∀ q, q < 255 * 2 ^ 23 → mag 23 q ≤ 2 ^ 24 * 2 ^ 253 := by
      intro q hq
      unfold mag
      have hr : q % 2 ^ 23 < 2 ^ 23 := Nat.mod_lt _ (by decide)
      split
      · exact le_trans (le_of_lt hr) (by decide +kernel)
      · exact Nat.mul_le_mul (by omega) (Nat.pow_le_pow_right (by decide) (by omega))
    unfold finite at hf
    simp only [Nat.reduceSub, Nat.reducePow, Nat.reduceMul] at hf
    unfold scaled
    split
    · rw [Int.natAbs_natCast]; exact hm n (by omega)
    · rw [Int.natAbs_neg, Int.natAbs_natCast]; exact hm _ (by omega)
  have ha : (f64OfF32 n).abs = (scaled 32 23 n).natAbs * 2 ^ 925 := by
    have := congrArg Int.natAbs h
    rw [Int.natAbs_mul] at this
    rw [Int.natAbs_pow, show (2 : Int).natAbs = 2 from rfl] at this
    rw [← this]
    split
    · rw [Int.natAbs_neg, Int.natAbs_natCast]
    · rw [Int.natAbs_natCast]
  cases hc : (f64OfF32 n).special with
  | false => rfl
  | true =>
    exfalso
    have h1 : (f64OfF32 n).expo = 2047 := by unfold F64.special at hc; exact beq_iff_eq.mp hc
    have h2 : (f64OfF32 n).abs = (2 ^ 52 + (f64OfF32 n).frac) * 2 ^ (2047 - 1) := by unfold F64.abs; rw [h1, if_neg (by decide)]
    have h3 : 2 ^ 52 * 2 ^ (2047 - 1) ≤ (f64OfF32 n).abs := by rw [h2]; exact Nat.mul_le_mul_right _ (Nat.le_add_right _ _)
    have h4 : (f64OfF32 n).abs ≤ 2 ^ 24 * 2 ^ 253 * 2 ^ 925 := by rw [ha]; exact Nat.mul_le_mul_right _ hs
    exact absurd (h3.trans h4) (by decide +kernel)

theorem f64OfF32_real {n : Nat} (hn : n < 2 ^ 32) (hf : finite 32 23 n) : realVal (f64OfF32 n) = (scaled 32 23 n : ℚ) / 2 ^ 149 := by
  unfold realVal
  rw [f64OfF32_exact hn hf, Int.cast_mul, Int.cast_pow, show (1074 : ℕ) = 149 + 925 by rfl, pow_add]
  rw [Int.cast_ofNat, mul_div_mul_right _ _ (pow_ne_zero _ (by norm_num))]

end Verif.Xml
