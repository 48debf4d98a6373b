import Verif.Proof.Number2
import Verif.Props.XmlDoc
/-!
# C91: numbers in documents
-/
namespace Verif.Props
open Spec Tec Xml

/-- C91: a number converted to a text and back is the same number: every `int`, `unsigned`, `int64_t`, `bool`, every finite `double` bit by bit and the infinities; there may be white space
behind the text of a number -/
theorem C91 {v : Scalar} (h : Fits v) {t : Str} (ht : BlankC t) (hb : v.ty = .bool → t = []) : v.ty.conv (v.text {} ++ t) = .ok (some v) := by
  rw [text_eq (.inr h)]; exact conv_text h ht hb

example : Fits (.double 0x3FB999999999999A#64) ∧ BlankC (lit " \t") ∧ (Scalar.double 0x3FB999999999999A#64).text {} = lit "0.10000000000000001" ∧ (Scalar.double 0x8000000000000000#64).text {} = lit "-0" ∧
    (Scalar.double 0x7FEFFFFFFFFFFFFF#64).text {} = lit "1.7976931348623157e+308" ∧ (Scalar.double 1#64).text {} = lit "4.9406564584124654e-324" ∧
    (Scalar.double 0x430C6BF526340000#64).text {} = lit "1000000000000000" ∧ (Scalar.double 0x4376345785D8A000#64).text {} = lit "1e+17" ∧
    (Scalar.int (-2147483648)).text {} = lit "-2147483648" := by
  refine ⟨?_, ?_, ?_, ?_, ?_, ?_, ?_, ?_, ?_⟩
  · show ¬ IsNaN _; decide +kernel
  · unfold BlankC; decide +kernel
  all_goals decide +kernel

/-- C91: a NaN is read as a NaN -/
theorem C91_nan {x : F64} (h : IsNaN x) : ∃ y, Ty.double.conv ((Scalar.double x).text {}) = .ok (some (.double y)) ∧ IsNaN y := by
  rw [text_eq (.inl rfl)]
  have hx := x.isLt
  unfold IsNaN at h
  have hs : x.special = true := by
    unfold F64.special F64.expo
    rw [beq_iff_eq]
    omega
  have hf : x.frac ≠ 0 := by unfold F64.special F64.expo at hs; rw [beq_iff_eq] at hs; unfold F64.frac; omega
  obtain ⟨y, h1, h2, -, h3⟩ := scan_special hs
  refine ⟨y, ?_, ?_⟩
  · show Out.ok ((scanLf (printG 16 x)).map Scalar.double) = _
    unfold printG
    rw [if_pos hs, h1]; rfl
  · have hy := y.isLt
    have h3 := h3 hf
    unfold F64.special F64.expo at h2
    rw [beq_iff_eq] at h2
    unfold F64.frac at h3
    unfold IsNaN
    omega

example : IsNaN 0xFFF0000000000001#64 ∧ (Scalar.double 0xFFF0000000000001#64).text {} = lit "-nan" := by decide +kernel

/-- C91: an attribute that was set to a number has this number, whatever it was before; no other attribute changes -/
theorem C91_attribute {v : Scalar} (h : Fits v) (n : Str) (as : List (Str × Str)) (cs : List Node) (a : Str) :
    (∀ d, ((Node.elem n as cs).setAttribute a (v.text {})).queryAttribute v.ty a d = .ok (.success, v)) ∧
    (∀ d, ((Node.elem n as cs).setAttribute a (v.text {})).attributeOr v.ty a d = .ok v) ∧
    (∀ b, b ≠ a → ∀ t d, ((Node.elem n as cs).setAttribute a (v.text {})).queryAttribute t b d = (Node.elem n as cs).queryAttribute t b d) ∧
    (∀ t d, ((Node.elem n as cs).setAttribute a (v.text {})).queryText t d = (Node.elem n as cs).queryText t d) := by
  have key : ∀ d, ((Node.elem n as cs).setAttribute a (v.text {})).queryAttribute v.ty a d = .ok (.success, v) := by
    intro d
    unfold Node.queryAttribute
    rw [findAttribute_set, if_pos rfl]
    simp only
    have := C91 h (t := []) (fun b hb => by cases hb) (fun _ => rfl)
    rw [List.append_nil] at this
    rw [this]; rfl
  refine ⟨key, fun d => ?_, fun b hb t d => ?_, fun t d => rfl⟩
  · unfold Node.attributeOr
    rw [key]; rfl
  · unfold Node.queryAttribute
    rw [findAttribute_set, if_neg hb]

/-- C91: so has an element whose text was set to a number; no attribute changes -/
theorem C91_text {v : Scalar} (h : Fits v) (n : Str) (as : List (Str × Str)) (cs : List Node) :
    (∀ d, ((Node.elem n as cs).setText (v.text {})).queryText v.ty d = .ok (.success, v)) ∧
    (∀ d, ((Node.elem n as cs).setText (v.text {})).textOr v.ty d = .ok v) ∧
    (∀ b t d, ((Node.elem n as cs).setText (v.text {})).queryAttribute t b d = (Node.elem n as cs).queryAttribute t b d) := by
  have key : ∀ d, ((Node.elem n as cs).setText (v.text {})).queryText v.ty d = .ok (.success, v) := by
    intro d
    unfold Node.queryText
    rw [getText_set]
    simp only
    have := C91 h (t := []) (fun b hb => by cases hb) (fun _ => rfl)
    rw [List.append_nil] at this
    rw [this]; rfl
  refine ⟨key, fun d => ?_, fun b t d => ?_⟩
  · unfold Node.textOr
    rw [key]; rfl
  · have : ((Node.elem n as cs).setText (v.text {})).attrs = as := attrs_set n as cs _
    unfold Node.queryAttribute Node.findAttribute
    rw [this]; rfl

example : (Node.elem (lit "a") [(lit "x", lit "old"), (lit "y", lit "2")] [.text true (lit "t"), .comment []]).setAttribute (lit "x") ((Scalar.int (-7)).text {}) =
      .elem (lit "a") [(lit "x", lit "-7"), (lit "y", lit "2")] [.text true (lit "t"), .comment []] ∧
    (Node.elem (lit "a") [] [.text true (lit "t"), .comment []]).setText ((Scalar.bool true).text {}) = .elem (lit "a") [] [.text true (lit "true"), .comment []] ∧
    (Node.elem (lit "a") [] [.text true (lit "t")]).queryText .int (.int 5) = .ok (.canNotConvertText, .int 5) ∧
    (Node.elem (lit "a") [] []).queryText .int (.int 5) = .ok (.noTextNode, .int 5) ∧ (Node.elem (lit "a") [] []).queryAttribute .int (lit "x") (.int 5) = .ok (.noAttribute, .int 5) := by
  refine ⟨?_, ?_, rfl, rfl, rfl⟩
  · exact congrArg (fun s => Node.elem (lit "a") [(lit "x", s), (lit "y", lit "2")] [.text true (lit "t"), .comment []]) (by decide +kernel : (Scalar.int (-7)).text {} = lit "-7")
  · exact congrArg (fun s => Node.elem (lit "a") [] [.text true s, .comment []]) (by decide +kernel : (Scalar.bool true).text {} = lit "true")

/-- C91: an attribute anywhere in a document, set to a number: the document can be printed, and in the document loaded from this text the attribute has this number -/
theorem C91_saved_attribute {l : List Node} (h : PrintableDoc l) {p : List Nat} {i : Nat} {n : Str} {as : List (Str × Str)} {cs : List Node} (hx : nodeAt p i l = some (.elem n as cs))
    {a : Str} (ha : IsName a) {v : Scalar} (hv : Fits v) (compact bom : Bool) :
    ∃ t l' y, printed compact bom (replaceAt ((Node.elem n as cs).setAttribute a (v.text {})) p i l) = .ok t ∧ loadFile (some t) = .ok l' ∧ nodeAt p i l' = some y ∧
      ∀ d, y.queryAttribute v.ty a d = .ok (.success, v) := by
  have hs : Sendable (v.text {}) := by
    rw [text_eq (.inr hv)]
    exact ⟨plainText_clean v, (plainText_length hv).trans (by decide)⟩
  have hd := doc_replaceAt h hx (y := (Node.elem n as cs).setAttribute a (v.text {})) (fun hp => printable_setAttribute hp ha hs) rfl
  obtain ⟨t, h1, h2⟩ := C81 hd compact bom
  obtain ⟨e, he⟩ := nodeAt_indentAll (k := tab compact) (d := 0) (n := n) (as := setAttr a (v.text {}) as) (cs := cs) (nodeAt_replaceAt ((Node.elem n as cs).setAttribute a (v.text {})) hx)
  refine ⟨t, _, _, h1, h2, he, fun d => ?_⟩
  exact (C91_attribute hv n as (indentAll (tab compact) e cs) a).1 d

/-- C91: so is the text of an element anywhere in a document; a `bool` only if the document is printed compactly -/
theorem C91_saved_text_partial {l : List Node} (h : PrintableDoc l) {p : List Nat} {i : Nat} {n : Str} {as : List (Str × Str)} {cs : List Node} (hx : nodeAt p i l = some (.elem n as cs))
    {v : Scalar} (hv : Fits v) (compact bom : Bool) (hb : v.ty = .bool → compact = true) :
    ∃ t l' y, printed compact bom (replaceAt ((Node.elem n as cs).setText (v.text {})) p i l) = .ok t ∧ loadFile (some t) = .ok l' ∧ nodeAt p i l' = some y ∧
      ∀ d, y.queryText v.ty d = .ok (.success, v) := by
  have ht := text_eq (.inr hv)
  have hs : Sendable (v.text {}) := by
    rw [ht]
    exact ⟨plainText_clean v, (plainText_length hv).trans (by decide)⟩
  obtain ⟨as', cs', hy⟩ := setText_elem n as cs (v.text {})
  have hd := doc_replaceAt h hx (y := (Node.elem n as cs).setText (v.text {})) (fun hp => printable_setText hp hs (by rw [ht]; exact (printed_plain (plainText_printed v)).2.2) (by rw [ht]; exact plainText_open v)) (by rw [hy]; rfl)
  obtain ⟨t, h1, h2⟩ := C81 hd compact bom
  have hr := nodeAt_replaceAt ((Node.elem n as cs).setText (v.text {})) hx
  have hg := getText_set n as cs (v.text {})
  rw [hy] at hr hg
  obtain ⟨e, he⟩ := nodeAt_indentAll (k := tab compact) (d := 0) hr
  rw [← hy] at he
  refine ⟨t, _, _, h1, h2, he, fun d => ?_⟩
  obtain ⟨q, q1, q2, q3⟩ := getText_indent (k := tab compact) (e := e) hg
  unfold Node.queryText
  rw [q3]
  simp only
  rw [C91 hv q1 fun hh => q2 (by rw [hb hh]; rfl)]
  rfl

example : PrintableDoc mixedDoc ∧ nodeAt [3] 2 mixedDoc = some (.elem (lit "b") [] []) ∧ IsName (lit "z") ∧ Fits (.unsigned 4294967295) := by
  refine ⟨mixedDoc_printable, rfl, by decide +kernel, ?_⟩
  show 4294967295 < 2 ^ 32
  decide

/-- C91 is false of a `bool` in a text before an element that is printed with indentation: the text gets spaces, and with these it is neither a number nor one of the two words -/
theorem C91_saved_text_false : ∃ l t l' y, PrintableDoc l ∧ nodeAt [] 0 l = some (.elem (lit "a") [] [.elem (lit "b") [] []]) ∧
    printed false false (replaceAt ((Node.elem (lit "a") [] [.elem (lit "b") [] []]).setText ((Scalar.bool true).text {})) [] 0 l) = .ok t ∧ loadFile (some t) = .ok l' ∧ nodeAt [] 0 l' = some y ∧
    ∀ d, y.queryText .bool d = .ok (.canNotConvertText, d) := by
  refine ⟨[.elem (lit "a") [] [.elem (lit "b") [] []]], lit "<a>true    <b/></a>\n", [.elem (lit "a") [] [.text false (lit "true    "), .elem (lit "b") [] []]], _, ?_, rfl, okIs_eq (by decide +kernel), by rfl, rfl, fun d => by rfl⟩
  refine ⟨by decide +kernel, [], _, rfl, by simp, ?_, by decide +kernel⟩
  simp only [PrintableAll, Printable, textsMeet]
  exact ⟨⟨by decide +kernel, by decide +kernel, by decide +kernel, ⟨by decide +kernel, by decide +kernel, by decide +kernel, trivial⟩, trivial, trivial⟩, trivial, trivial⟩

/-- C91 is false of a `bool` after `SetBoolSerialization` with other words than the two that are read -/
theorem C91_words_false : Ty.bool.conv ((Scalar.bool true).text (setBoolSerialization (some (lit "yes")) (some (lit "no")))) = .ok none ∧
    Ty.bool.conv ((Scalar.bool false).text (setBoolSerialization (some (lit "yes")) (some (lit "no")))) = .ok none := ⟨by rfl, by rfl⟩

/-- C91 is false of `float`: two different numbers have the same text, so no function reads both -/
theorem C91_float_false : ¬ ∃ rd : Str → Option Nat, ∀ n, n < 2 ^ 32 → finite 32 23 n → rd (floatText n) = some n := by
  rintro ⟨rd, h⟩
  have h1 := h 0x4120000A (by decide) (by unfold finite; decide)
  have h2 := h 0x4120000B (by decide) (by unfold finite; decide)
  rw [show floatText 0x4120000A = lit "10.00001" by decide +kernel] at h1
  rw [show floatText 0x4120000B = lit "10.00001" by decide +kernel] at h2
  rw [h1] at h2
  exact absurd (Option.some.inj h2) (by decide)

/-- C91: the text of a finite `float` shows a number with a relative error of at most 5e-8 -/
theorem C91_float_partial {n : Nat} (hn : n < 2 ^ 32) (hf : finite 32 23 n) :
    ∃ neg v, ShowsNum (floatText n) neg v ∧ |v - (scaled 32 23 n : ℚ) / 2 ^ 149| ≤ 5 / 10 ^ 8 * |(scaled 32 23 n : ℚ) / 2 ^ 149| := by
  have hs := f64OfF32_abs hn hf
  have e : floatText n = printG 7 (f64OfF32 n) := snprintf_all ((printG_length (by decide) _).trans (by decide))
  refine ⟨_, _, by rw [e]; exact printG_shows 7 hs, ?_⟩
  have := gParts_error 7 (f64OfF32 n)
  rw [f64OfF32_real hn hf] at this
  refine this.trans (le_of_eq ?_)
  norm_num

example : (0x4120000A < 2 ^ 32) ∧ finite 32 23 0x4120000A ∧ floatText 0x4120000A = lit "10.00001" ∧ floatText 0x7F7FFFFF = lit "3.4028235e+38" := by
  refine ⟨by decide, by unfold finite; decide, by decide +kernel, by decide +kernel⟩

end Verif.Props
