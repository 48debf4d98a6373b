import Verif.Proof.XmlDoc3
/-!
# C80, C81, C82: documents of all kinds, read, written and read again
-/
namespace Verif.Props
open Spec Tec Xml

/-- C80: a text that shows a document, with declarations, comments, CDATA sections, unknown nodes, texts between elements and outside of them, entities
and newlines of all kinds, with a byte order mark or without, is loaded as this document -/
theorem C80 {l : List Node} {t : Str} (h : WritesDoc l t) (hl : l ≠ []) (bom : Bool) (start : Starts bom l t) : loadFile (some (bomText bom ++ t)) = .ok l := by
  have h1 := parse_doc h hl bom start
  cases e : bomText bom ++ t with
  | nil => rw [e] at h1; cases h1
  | cons b q => rw [e] at h1; exact h1

/-- a document with a node of every kind -/
def mixedDoc : List Node :=
  [.decl (lit "xml version=\"1.0\""), .comment (lit " c "), .unknown (lit "DOCTYPE a"),
    .elem (lit "a") [(lit "x", lit "<\"&'>"), (lit "y", [])]
      [.text true (lit "a<b"), .text false (lit "u < v "), .elem (lit "b") [] [], .comment (lit "--"), .text false (lit "w")]]

theorem mixedDoc_shown : WritesDoc mixedDoc (lit "<?xml version=\"1.0\"?>\n<!-- c --><!DOCTYPE a>\n<a x=\"&lt;&quot;&amp;'>\" y=\"\"> <![CDATA[a<b]]>u &lt; v <b></b><!------>w</a> ") := by
  have h1 : WritesAll false _ _ := .text (v := lit "w") (l := []) (.byte (raw := []) (b := 119) (v := []) (by decide +kernel) .nil) (by decide +kernel) (.nil (w := []) (by decide +kernel) (fun _ => rfl))
  have h2 := WritesAll.node (after := false) (w := []) (by decide +kernel) (fun _ => rfl) (.comment (v := lit "--") (by decide +kernel) (by decide +kernel)) h1
  have h3 := WritesAll.node (after := true) (w := []) (by decide +kernel) (fun _ => rfl)
    (.node (n := lit "b") (raw := []) (t := []) (by decide +kernel) ⟨.nil, by decide +kernel⟩ (.nil (by decide +kernel) (fun _ => rfl))) h2
  have h4 : WritesAll false _ _ := .text (v := lit "u < v ") (.byte (b := 117) (by decide +kernel) (.byte (b := 32) (by decide +kernel) (.entity (e := lit "&lt;") (b := 60) (by decide +kernel)
    (.byte (b := 32) (by decide +kernel) (.byte (b := 118) (by decide +kernel) (.byte (b := 32) (by decide +kernel) .nil)))))) (by decide +kernel) h3
  have h5 := WritesAll.node (after := false) (w := lit " ") (by decide +kernel) (fun h => nomatch h) (.cdata (v := lit "a<b") (by decide +kernel) (by decide +kernel)) h4
  have ha : WritesAttrs _ _ := ⟨.cons (a := (lit "x", lit "&lt;&quot;&amp;'>")) (b := (lit "x", lit "<\"&'>")) ⟨rfl, by decide +kernel,
    .entity (e := lit "&lt;") (b := 60) (by decide +kernel) (.entity (e := lit "&quot;") (b := 34) (by decide +kernel) (.entity (e := lit "&amp;") (b := 38) (by decide +kernel)
      (.byte (b := 39) (by decide +kernel) (.byte (b := 62) (by decide +kernel) .nil))))⟩ (.cons (a := (lit "y", [])) (b := (lit "y", [])) ⟨rfl, by decide +kernel, .nil⟩ .nil), by decide +kernel⟩
  have h6 := WritesAll.node (after := false) (w := lit "\n") (by decide +kernel) (fun h => nomatch h) (.node (n := lit "a") (by decide +kernel) ha h5)
    (.nil (after := false) (w := lit " ") (by decide +kernel) (fun h => nomatch h))
  have h7 := WritesAll.node (after := false) (w := []) (by decide +kernel) (fun _ => rfl) (.unknown (v := lit "DOCTYPE a") (by decide +kernel) (by decide +kernel) (by decide +kernel)) h6
  have h8 := WritesAll.node (after := false) (w := lit "\n") (by decide +kernel) (fun h => nomatch h) (.comment (v := lit " c ") (by decide +kernel) (by decide +kernel)) h7
  have h9 := WritesDoc.decl (w := []) (v := lit "xml version=\"1.0\"") (by decide +kernel) (by decide +kernel) (by decide +kernel) (.nodes (by decide +kernel) h8)
  exact Eq.subst (motive := WritesDoc mixedDoc) (by decide +kernel) h9

example (bom : Bool) : mixedDoc ≠ [] ∧ Starts bom mixedDoc (lit "<?xml version") := ⟨by decide +kernel, starts_node (by decide +kernel)⟩

/-- texts outside of the elements, and newlines as they are on other systems -/
example : ∃ l t, WritesDoc l t ∧ l ≠ [] ∧ Starts false l t ∧ l = [.text false (lit "x\n\n"), .elem (lit "a") [] []] ∧ t = lit "x\r\n\r<a/>" := by
  refine ⟨_, _, .nodes (by decide +kernel) (.text (raw := lit "x\r\n\r") (v := lit "x\n\n") (l := [.elem (lit "a") [] []]) (t := lit "<a/>")
    (.byte (b := 120) (by decide +kernel) (.newline (n := [13, 10]) (raw := [13]) (by decide +kernel) (.newline (n := [13]) (raw := []) (by decide +kernel) .nil))) (by decide +kernel)
    (.node (w := []) (s := lit "<a/>") (t := []) (by decide +kernel) (fun _ => rfl) (.sealed (n := lit "a") (raw := []) (by decide +kernel) ⟨.nil, by decide +kernel⟩)
      (.nil (by decide +kernel) (fun _ => rfl)))), by decide +kernel, fun _ _ => ⟨by decide +kernel, by decide +kernel⟩, rfl, rfl⟩

/-- a text is printed and it is this one -/
def okIs : Out Str → Str → Bool
  | .ok a, t => a == t
  | _, _ => false

theorem okIs_eq {o : Out Str} {t : Str} (h : okIs o t = true) : o = .ok t := by
  cases o with
  | ok a => exact congrArg _ (by simpa [okIs] using h)
  | err e => cases h
  | ub e => cases h

/-- C81: printing a document that can be written has no undefined behaviour; the text is loaded as the document, in which, unless printed compactly, every
text directly before an element has become longer by four spaces for each element around it -/
theorem C81 {l : List Node} (h : PrintableDoc l) (compact bom : Bool) :
    ∃ t, printed compact bom l = .ok t ∧ loadFile (some t) = .ok (indentAll (tab compact) 0 l) := by
  obtain ⟨t, h1, h2⟩ := prints_doc h compact bom
  refine ⟨_, h1, C80 h2 (fun e => ?_) bom (starts_node (indentAll_texts (printableDoc_texts h)))⟩
  cases hl : l with
  | nil => exact h.few hl
  | cons x l => rw [hl, indentAll] at e; cases e

/-- C81: printed compactly, the document is loaded unchanged -/
theorem C81_compact {l : List Node} (h : PrintableDoc l) (bom : Bool) : ∃ t, printed true bom l = .ok t ∧ loadFile (some t) = .ok l := by
  obtain ⟨t, h1, h2⟩ := C81 h true bom
  exact ⟨t, h1, h2.trans (congrArg _ (indentAll_zero 0 l))⟩

/-- C81: printed with indentation, it is loaded unchanged if and only if no text is directly before an element -/
theorem C81_indented {l : List Node} (h : PrintableDoc l) (bom : Bool) :
    ∃ t, printed false bom l = .ok t ∧ (loadFile (some t) = .ok l ↔ ApartAll l) := by
  obtain ⟨t, h1, h2⟩ := C81 h false bom
  refine ⟨t, h1, ?_⟩
  rw [h2, Except.ok.injEq]
  exact indentAll_top (by decide +kernel) (printableDoc_texts h)

/-- C81: saved to a file that can be opened, it is loaded from there; no other file changes -/
theorem C81_save {l : List Node} (h : PrintableDoc l) (compact bom : Bool) {canOpen : Str → Bool} {name : Str} (ho : canOpen (cstr name) = true) (fs : Str → Option Str) :
    ∃ fs', saveFile canOpen compact bom l name fs = .ok (none, fs') ∧ loadFile (fs' (cstr name)) = .ok (indentAll (tab compact) 0 l) ∧
      ∀ p, p ≠ cstr name → fs' p = fs p := by
  obtain ⟨t, h1, h2⟩ := C81 h compact bom
  refine ⟨fun p => if p = cstr name then some t else fs p, ?_, ?_, fun p hp => if_neg hp⟩
  · rw [saveFile, if_pos ho, h1]; rfl
  · simp only [if_true]; exact h2

/-- C81: a file that cannot be opened is reported; no file changes, whatever the document is -/
theorem C81_closed (compact bom : Bool) (l : List Node) {canOpen : Str → Bool} {name : Str} (ho : canOpen (cstr name) = false) (fs : Str → Option Str) :
    saveFile canOpen compact bom l name fs = .ok (some .fileCouldNotBeOpened, fs) := by
  rw [saveFile, if_neg (by simp [ho])]

example : (fun p : Str => p != lit "/x") (cstr (lit "/x")) = false := by decide +kernel

theorem mixedDoc_printable : PrintableDoc mixedDoc := by
  refine ⟨by decide +kernel, [_], [_, _, _], rfl, ?_, ?_, by decide +kernel⟩
  · intro x hx
    rw [List.mem_singleton.1 hx]
    exact ⟨_, rfl, by decide +kernel, by decide +kernel⟩
  · simp only [PrintableAll, Printable, textsMeet, isText]
    refine ⟨by decide +kernel, rfl, by decide +kernel, rfl, ⟨by decide +kernel, by decide +kernel, by decide +kernel, ?_⟩, trivial, trivial⟩
    refine ⟨by decide +kernel, rfl, by decide +kernel, rfl, ⟨by decide +kernel, by decide +kernel, by decide +kernel, trivial⟩, rfl, by decide +kernel, rfl, by decide +kernel, trivial, trivial⟩

example : PrintableDoc mixedDoc ∧ ¬ ApartAll mixedDoc ∧
    printed true false mixedDoc = .ok (lit "<?xml version=\"1.0\"?><!-- c --><!DOCTYPE a><a x=\"&lt;&quot;&amp;&apos;&gt;\" y=\"\"><![CDATA[a<b]]>u &lt; v <b/><!------>w</a>") ∧
    printed false false mixedDoc = .ok (lit "<?xml version=\"1.0\"?>\n<!-- c -->\n<!DOCTYPE a>\n<a x=\"&lt;&quot;&amp;&apos;&gt;\" y=\"\"><![CDATA[a<b]]>u &lt; v     <b/><!------>w</a>\n") := by
  refine ⟨mixedDoc_printable, ?_, okIs_eq (by decide +kernel), okIs_eq (by decide +kernel)⟩
  simp [mixedDoc, ApartAll, Apart, textElem, isText, isElem]

/-- loading and saving again and again makes a text before an element longer every time -/
example : (loadFile (some (lit "<a>t<b/></a>")) = .ok [.elem (lit "a") [] [.text false (lit "t"), .elem (lit "b") [] []]]) ∧
    printed false false [.elem (lit "a") [] [.text false (lit "t"), .elem (lit "b") [] []]] = .ok (lit "<a>t    <b/></a>\n") ∧
    (loadFile (some (lit "<a>t    <b/></a>\n")) = .ok [.elem (lit "a") [] [.text false (lit "t    "), .elem (lit "b") [] []]]) ∧
    printed false false [.elem (lit "a") [] [.text false (lit "t    "), .elem (lit "b") [] []]] = .ok (lit "<a>t        <b/></a>\n") := by
  refine ⟨by rfl, okIs_eq (by decide +kernel), by rfl, okIs_eq (by decide +kernel)⟩

/-- C82: a document that was loaded from a file, has a node and has no text outside of its elements can be written and is loaded again as in C81, if no
value of an attribute and no text has a carriage return and no text is nothing but white space -/
theorem C82_partial {c : Str} {l : List Node} (hc : c.length ≤ 2147483647) (h : loadFile (some c) = .ok l) (tame : TameAll l) (few : l ≠ [])
    (top : ∀ x ∈ l, isText x = false) (compact bom : Bool) :
    ∃ t, printed compact bom l = .ok t ∧ loadFile (some t) = .ok (indentAll (tab compact) 0 l) := by
  cases c with
  | nil => cases h
  | cons b c => exact C81 (good_printable (parse_good hc h) tame top few) compact bom

example : ∃ l, loadFile (some (lit "<?xml?>\r\n<a x='&#65;\"'>\r\n&lt;<b></b></a>")) = .ok l ∧ TameAll l ∧ l ≠ [] ∧ (∀ x ∈ l, isText x = false) := by
  refine ⟨[.decl (lit "xml"), .elem (lit "a") [(lit "x", lit "A\"")] [.text false (lit "\n<"), .elem (lit "b") [] []]], by rfl, ?_, by decide +kernel, by decide +kernel⟩
  simp only [TameAll, Tame]
  exact ⟨trivial, ⟨by decide +kernel, by decide +kernel, ⟨by decide +kernel, trivial⟩, trivial⟩, trivial⟩

/-- C82 is false of a carriage return, which can be in a value as a character reference -/
theorem C82_false_return : ∃ l t, loadFile (some (lit "<a x=\"&#13;\"/>")) = .ok l ∧ printed true false l = .ok t ∧ loadFile (some t) ≠ .ok l := by
  refine ⟨[.elem (lit "a") [(lit "x", [13])] []], lit "<a x=\"\r\"/>", by rfl, okIs_eq (by decide +kernel), ?_⟩
  rw [show loadFile (some (lit "<a x=\"\r\"/>")) = .ok [.elem (lit "a") [(lit "x", [10])] []] by rfl]
  simp

/-- C82 is false of a text of white space, which can be written with character references -/
theorem C82_false_blank : ∃ l t, loadFile (some (lit "<a>&#32;</a>")) = .ok l ∧ printed true false l = .ok t ∧ loadFile (some t) ≠ .ok l := by
  refine ⟨[.elem (lit "a") [] [.text false [32]]], lit "<a> </a>", by rfl, okIs_eq (by decide +kernel), ?_⟩
  rw [show loadFile (some (lit "<a> </a>")) = .ok [.elem (lit "a") [] []] by rfl]
  simp

/-- C82 is false of the empty document, which is loaded from a text that starts with an end tag -/
theorem C82_false_empty : ∃ l t, loadFile (some (lit "</a>")) = .ok l ∧ printed true false l = .ok t ∧ loadFile (some t) ≠ .ok l :=
  ⟨[], [], by rfl, by rfl, by rintro ⟨⟩⟩

/-- C82 is false of a text outside of the elements, before the end tag at which the reader stopped -/
theorem C82_false_top : ∃ l t, loadFile (some (lit "<a/>b</c>")) = .ok l ∧ printed true false l = .ok t ∧ loadFile (some t) ≠ .ok l :=
  ⟨[.elem (lit "a") [] [], .text false (lit "b")], lit "<a/>b", by rfl, okIs_eq (by decide +kernel), by
    rw [show loadFile (some (lit "<a/>b")) = .error .parsingText by rfl]; rintro ⟨⟩⟩

end Verif.Props
