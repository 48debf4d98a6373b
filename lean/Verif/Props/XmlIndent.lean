import Verif.Proof.XmlDoc6
import Verif.Props.XmlAgain
/-!
# C82: which documents are the same when they are saved with indentation and loaded again
-/
namespace Verif.Props
open Spec Tec Xml

/-- C82: what is loaded when a loaded document without texts outside of its elements was printed, compactly or with indentation: texts of white space are
gone, a text before an element has got the spaces of the indentation, and the newlines in texts and values are all the same -/
theorem C82_both {c : Str} {l : List Node} (hc : c.length ≤ 2147483647) (h : loadFile (some c) = .ok l) (few : l ≠ []) (top : ∀ x ∈ l, isText x = false) (compact bom : Bool) :
    ∃ t, printed compact bom l = .ok t ∧ loadFile (some t) = .ok (settleAll (indentAll (tab compact) 0 l)) := by
  obtain ⟨t, h1, h2⟩ := loose_doc (good_loose (parse_good hc (loadFile_parse.1 h))) top compact bom
  have ht := indentAll_texts (k := tab compact) (d := 0) top
  have hm := settleAll_texts ht
  refine ⟨_, h1, C80 h2 (fun e => ?_) bom (starts_node fun x hx => ?_)⟩
  · rw [hm] at e
    cases l with
    | nil => exact few rfl
    | cons x l => rw [indentAll] at e; cases e
  · rw [hm] at hx
    obtain ⟨y, hy, rfl⟩ := List.mem_map.1 hx
    exact (isText_settle y).trans (ht y hy)

/-- C82: printed with indentation, it is loaded again as it was exactly if no text and no value of an attribute has a carriage return, no text is nothing but
white space, and no text is directly before an element -/
theorem C82_exact_indented {c : Str} {l : List Node} (hc : c.length ≤ 2147483647) (h : loadFile (some c) = .ok l) (few : l ≠ []) (top : ∀ x ∈ l, isText x = false) (bom : Bool) :
    ∃ t, printed false bom l = .ok t ∧ (loadFile (some t) = .ok l ↔ TameAll l ∧ ApartAll l) := by
  obtain ⟨t, h1, h2⟩ := C82_both hc h few top false bom
  refine ⟨t, h1, ?_⟩
  rw [h2, Except.ok.injEq]
  exact settle_indent_same (by decide) top

/-- a document with a text of white space before an element, and a text with a carriage return before another: what is left of them -/
example : ∃ l, loadFile (some (lit "<a>&#32;<b/>x&#13;<c/></a>")) = .ok l ∧ l ≠ [] ∧ (∀ x ∈ l, isText x = false) ∧
    settleAll (indentAll 4 0 l) = [.elem (lit "a") [] [.elem (lit "b") [] [], .text false (lit "x\n    "), .elem (lit "c") [] []]] := by
  refine ⟨[.elem (lit "a") [] [.text false (lit " "), .elem (lit "b") [] [], .text false (lit "x\r"), .elem (lit "c") [] []]], by rfl, by decide +kernel, by decide +kernel, by rfl⟩

/-- a document that stays: texts before comments and at the end of an element -/
example : ∃ l, loadFile (some (lit "<a y='1'><b/>x<!--c-->y</a>")) = .ok l ∧ l ≠ [] ∧ (∀ x ∈ l, isText x = false) ∧ TameAll l ∧ ApartAll l := by
  refine ⟨[.elem (lit "a") [(lit "y", lit "1")] [.elem (lit "b") [] [], .text false (lit "x"), .comment (lit "c"), .text false (lit "y")]], by rfl, by decide +kernel, by decide +kernel, ?_, ?_⟩
  · simp only [TameAll, Tame]
    exact ⟨⟨by decide +kernel, ⟨by decide +kernel, trivial⟩, by decide +kernel, trivial, by decide +kernel, trivial⟩, trivial⟩
  · simp [ApartAll, Apart, textElem, isText, isElem]

end Verif.Props
