import Verif.Proof.XmlLoadError
/-!
# C113: what a document says about the error of reading a file
-/
namespace Verif.Props
open Verif Tec Xml Lines ErrText

/-- C113: after reading a file of fewer than 2^31-1 lines the document has no error if the file is read; if it is refused, the document has the number and
the name of that error, the line of what the error blames, and a text that tells these and names the blamed element, the value of the
blamed declaration or the file -/
theorem C113 {filename : Str} (hf : 0 ∉ filename) {content : Option Str} (hc : ∀ c ∈ content, (cstr c).count 10 < 2147483647) :
    ∃ s : Trouble, loadError filename content = .ok s ∧
      match loadFile content with
      | .ok _ => s.id = 0 ∧ s.line = 0 ∧ s.errorStr = [] ∧ s.errorName = .ok (lit "XML_SUCCESS")
      | .error e => s.id = e.num ∧ s.errorName = .ok (lit (nameOf e)) ∧
          ∃ told, About filename content e s.line told ∧ Text s.errorStr (lit (nameOf e)) e.num s.line told := by
  cases content with
  | none =>
    obtain ⟨s, h1, h2, h3, h4, h5⟩ := setError_text .fileNotFound (line := 0) (by decide) (file_zero hf)
    exact ⟨s, h1, h2, h4, _, ⟨rfl, h3, rfl⟩, by rw [h3]; exact h5⟩
  | some c =>
    cases c with
    | nil =>
      obtain ⟨s, h1, h2, h3, h4, h5⟩ := setError_text .emptyDocument (line := 0) (told := none) (by decide) (by simp)
      exact ⟨s, h1, h2, h4, _, .inl ⟨rfl, h3, rfl⟩, by rw [h3]; exact h5⟩
    | cons b l =>
      have hp := parseL_eq (b :: l)
      unfold loadError loadFile
      simp only
      cases hq : parse (b :: l) with
      | ok ns =>
        rw [hq] at hp
        obtain ⟨ls, h1, -⟩ := hp
        rw [h1]
        exact ⟨_, rfl, rfl, rfl, rfl, rfl⟩
      | error e =>
        rw [hq] at hp
        obtain ⟨n, told, h1, h2⟩ := hp
        rw [h1]
        have hn : InI32 (n : Int) := by
          have hb : n ≤ 1 + (cstr (b :: l)).count 10 := by
            rcases h2 with ⟨-, rfl, -⟩ | ⟨o, rfl, -⟩
            · exact Nat.zero_le _
            · exact lineAt_le _ _
          have := hc (b :: l) rfl
          unfold InI32
          omega
        have h0 : ∀ m, told = some m → 0 ∉ m := by
          intro m hm
          subst hm
          rcases h2 with ⟨-, -, h⟩ | ⟨o, -, -, h⟩
          · cases h
          · exact Tells.zero h
        obtain ⟨s, g1, g2, g3, g4, g5⟩ := setError_text e hn h0
        refine ⟨s, g1, g2, g4, told, ?_, by rw [g3]; exact g5⟩
        rcases h2 with ⟨rfl, rfl, rfl⟩ | ⟨o, rfl, h3, h4⟩
        · exact .inl ⟨rfl, g3, rfl⟩
        · exact .inr ⟨o, g3, h3, h4⟩

example : (0 : Byte) ∉ lit "doc.xml" ∧ ∀ c ∈ (some (lit "<a>\n<b>\n\n</c></a>") : Option Str), (cstr c).count 10 < 2147483647 := by
  refine ⟨by decide +kernel, fun c hc => ?_⟩
  rw [← Option.some.inj hc]
  decide +kernel

example : textIs (loadError (lit "doc.xml") (some (lit "<a>\n<b>\n\n</c></a>")))
    (lit "Error=XML_ERROR_MISMATCHED_ELEMENT ErrorID=16 (0x10) Line number=2: XMLElement name=b") = true := by decide +kernel
example : textIs (loadError (lit "doc.xml") none)
    (lit "Error=XML_ERROR_FILE_NOT_FOUND ErrorID=3 (0x3) Line number=0: filename=doc.xml") = true := by decide +kernel
/-- nothing is told about a comment without an end -/
example : textIs (loadError (lit "doc.xml") (some (lit "<a>\n<!--"))) [] = true := by decide +kernel

/-- C113: after saving there is no error if the file could be opened; otherwise the text names the file -/
theorem C113_save {filename : Str} (hf : 0 ∉ filename) (opened : Bool) :
    ∃ s : Trouble, saveError filename opened = .ok s ∧
      if opened then s.id = 0 ∧ s.line = 0 ∧ s.errorStr = []
      else s.id = 4 ∧ s.line = 0 ∧ s.errorName = .ok (lit "XML_ERROR_FILE_COULD_NOT_BE_OPENED") ∧
        Text s.errorStr (lit "XML_ERROR_FILE_COULD_NOT_BE_OPENED") 4 0 (some (lit "filename=" ++ filename)) := by
  cases opened with
  | true => exact ⟨_, rfl, rfl, rfl, rfl⟩
  | false =>
    obtain ⟨s, h1, h2, h3, h4, h5⟩ := setError_text .fileCouldNotBeOpened (line := 0) (by decide) (file_zero hf)
    exact ⟨s, h1, h2, h3, h4, h5⟩

example : textIs (saveError (lit "no/doc.xml") false)
    (lit "Error=XML_ERROR_FILE_COULD_NOT_BE_OPENED ErrorID=4 (0x4) Line number=0: filename=no/doc.xml") = true := by decide +kernel

end Verif.Props
