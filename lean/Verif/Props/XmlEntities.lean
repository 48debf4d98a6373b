import Verif.Proof.XmlEntities
import Verif.Props.XmlDoc
/-!
# C110 — Documents that leave entities as they are
-/
namespace Verif.Props
open Verif Spec Tec Xml

/-- C110: for every file there is one raw tree (or one error) so that a document that processes entities has that tree with the values processed, and one that
does not has it with nothing but the newlines of its values unified; `&` and what follows it stay. -/
theorem C110 (c : Option Str) :
    ∃ r : Except Code (List Node), loadFile c = r.map (textsAll (value true)) ∧ loadFileE false c = r.map (textsAll newlines) := by
  cases c with
  | none => exact ⟨.error .fileNotFound, rfl, rfl⟩
  | some c =>
    cases c with
    | nil => exact ⟨.error .emptyDocument, rfl, rfl⟩
    | cons b c =>
      rcases parseE_raw (Q := fun b => b ≠ 0) (b :: c) (fun x hx => cstr_noNul _ x hx) with ⟨e, h⟩ | ⟨ds, hd, h⟩
      · exact ⟨.error e, by show parse _ = _; rw [← parseE_true, h]; rfl, h false⟩
      · refine ⟨.ok ds, by show parse _ = _; rw [← parseE_true, h]; rfl, (h false).trans ?_⟩
        show Except.ok _ = Except.ok _
        rw [texts_congr (fun v hv => value_norm hv) ds hd]

/-- C110: a file without `&` is read the same in both ways. -/
theorem C110_same {c : Str} (h : 38 ∉ c) : loadFileE false (some c) = loadFile (some c) := by
  cases c with
  | nil => rfl
  | cons b c =>
    show parseE false _ = parse _
    rw [← parseE_true]
    rcases parseE_raw (Q := fun x => x ≠ 38) (b :: c) (fun x hx e => h (e ▸ (List.takeWhile_prefix _).subset hx)) with ⟨e, h⟩ | ⟨ds, hd, h⟩
    · rw [h, h]
    · rw [h, h, texts_congr (Q := fun x => x ≠ 38) (fun v hv => value_noAmp fun m => hv 38 m rfl) ds hd]

/-- C110: with the processing of entities on (the default) reader and printer are those of C52 and C81. -/
theorem C110_default (c : Option Str) (compact bom : Bool) (l : List Node) : loadFileE true c = loadFile c ∧ printedE true compact bom l = printed compact bom l := by
  constructor
  · cases c with
    | none => rfl
    | some c => cases c with
      | nil => rfl
      | cons b c => exact parseE_true _
  · unfold printedE printed acceptDoc
    simp only [acceptE_true.2]

/-- C110 (saving): with it off, what is saved is what a document is saved as whose attributes and texts are all empty: the loss of every attribute value and
every text that is not a CDATA section. -/
theorem C110_save (compact bom : Bool) (l : List Node) : printedE false compact bom l = printed compact bom (textsAll (fun _ => []) l) := by
  unfold printedE printed acceptDoc
  simp only [acceptE_false]

/-- … so two documents that differ in these alone are saved as the same text. -/
theorem C110_lost (compact bom : Bool) {l l' : List Node} (h : textsAll (fun _ => []) l = textsAll (fun _ => []) l') :
    printedE false compact bom l = printedE false compact bom l' := by
  rw [C110_save, C110_save, h]

/-- the expected property, that what such a document read is what reading its saved text gives (C82 for the default), is false -/
theorem C110_false : ∃ c l t, loadFileE false (some c) = .ok l ∧ PrintableDoc l ∧ printedE false true false l = .ok t ∧ t = lit "<a x=\"\"></a>" ∧
    loadFileE false (some t) ≠ .ok l := by
  refine ⟨lit "<a x=\"1\">b</a>", [.elem (lit "a") [(lit "x", lit "1")] [.text false (lit "b")]], lit "<a x=\"\"></a>", by rfl, ?_, by rfl, rfl, ?_⟩
  · refine ⟨by simp, [], _, rfl, by simp, ?_, by decide +kernel⟩
    simp only [PrintableAll, Printable, textsMeet]
    refine ⟨⟨by decide +kernel, by decide +kernel, by decide +kernel, ?_⟩, trivial, trivial⟩
    exact ⟨by decide +kernel, trivial, trivial⟩
  · have : loadFileE false (some (lit "<a x=\"\"></a>")) = .ok [.elem (lit "a") [(lit "x", [])] []] := by rfl
    rw [this]
    intro h
    injection h with h
    injection h with h _
    injection h with _ h _
    cases h

/-- an entity is processed or left -/
example : loadFile (some (lit "<a x='1&lt;2'>&amp;&#13;</a>")) = .ok [.elem (lit "a") [(lit "x", lit "1<2")] [.text false [38, 13]]] ∧
    loadFileE false (some (lit "<a x='1&lt;2'>&amp;&#13;</a>")) = .ok [.elem (lit "a") [(lit "x", lit "1&lt;2")] [.text false (lit "&amp;&#13;")]] := by
  exact ⟨by rfl, by rfl⟩

example : (38 : Byte) ∉ lit "<a x='1'>b</a>" := by decide

end Verif.Props
