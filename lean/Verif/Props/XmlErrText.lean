import Verif.Proof.XmlErrText
/-!
# C111: the text of an error
-/
namespace Verif.Props
open Verif Tec Xml ErrText

/-- C111: whatever the caller has to say, the text of an error is written without leaving the array; it begins with the name and the number of the
error and the line number, and goes on with what the caller said, of which at least 915 bytes remain -/
theorem C111 {e : Nat} {name : Str} (hn : Named e name) {line : Int} (hl : InI32 line) {m : Str} (hm : 0 ∉ m) :
    ∃ s r, setError e line (some m) = .ok s ∧ s.id = e ∧ s.line = line ∧ s.errorName = .ok name ∧ Says s.errorStr name e line r ∧ r <+: m ∧
      s.errorStr.length ≤ 999 ∧ (r = m ∨ s.errorStr.length = 999) ∧ (m.length ≤ 915 → r = m) := by
  have hn := named hn
  have he : e < 20 := (List.getElem?_eq_some_iff.1 hn).1
  obtain ⟨h1, h2⟩ := head_short hn hl
  have et : (headOf name e line ++ m).take 999 = headOf name e line ++ m.take (999 - (headOf name e line).length) := by
    rw [List.take_append, List.take_of_length_le (by omega)]
  refine ⟨_, m.take (999 - (headOf name e line).length), setError_ok hn hl hm, rfl, rfl, ?_, ⟨hex e, sixteen_hex e he, ?_⟩, List.take_prefix _ _, ?_, ?_, ?_⟩
  · unfold Trouble.errorName errorIDToName
    simp only [hn]
  · show (headOf name e line ++ m).take 999 = _
    rw [et]
    unfold headOf
    simp only [List.append_assoc]
  · show ((headOf name e line ++ m).take 999).length ≤ 999
    rw [List.length_take]; omega
  · rcases Nat.lt_or_ge (headOf name e line ++ m).length 999 with h | h
    · left
      rw [List.length_append] at h
      exact List.take_of_length_le (by omega)
    · right
      show ((headOf name e line ++ m).take 999).length = 999
      rw [List.length_take]; omega
  · intro h
    exact List.take_of_length_le (by omega)

/-- "XMLElement name=" and a name of 2000 letters -/
def longTold : Str := lit "XMLElement name=" ++ List.replicate 2000 97

example : Named 16 (lit "XML_ERROR_MISMATCHED_ELEMENT") ∧ InI32 (-2147483648) ∧ 0 ∉ longTold := by decide +kernel

/-- the text of an error and its length -/
def textIs (o : Out Trouble) (t : Str) : Bool :=
  match o with
  | .ok s => s.errorStr == t
  | _ => false

example : textIs (setError 16 3 (some (lit "XMLElement name=ab"))) (lit "Error=XML_ERROR_MISMATCHED_ELEMENT ErrorID=16 (0x10) Line number=3: XMLElement name=ab") = true := by decide +kernel
example : textIs (setError 13 (-1) (some (lit ""))) (lit "Error=XML_ERROR_PARSING_DECLARATION ErrorID=13 (0xd) Line number=-1: ") = true := by decide +kernel
/-- of a long name 915 letters remain -/
example : ∃ s, setError 16 3 (some longTold) = .ok s ∧ s.errorStr.length = 999 := by
  obtain ⟨s, r, h1, -, -, -, ⟨x, h2, h3⟩, h4, h5, h6, -⟩ := C111 (e := 16) (name := lit "XML_ERROR_MISMATCHED_ELEMENT") (line := 3) (by decide +kernel) (by decide)
    (m := longTold) (by decide +kernel)
  refine ⟨s, h1, h6.resolve_left fun h => ?_⟩
  have h7 : longTold.length ≤ s.errorStr.length := by rw [h3, h]; simp only [List.length_append]; omega
  have h8 : longTold.length = 2016 := by decide +kernel
  omega

/-- C111: the text tells which error it was, in which line, and what the caller said -/
theorem C111_tells {e e' : Nat} {n n' : Str} (hn : Named e n) (hn' : Named e' n') {k k' : Int} (hk : InI32 k) (hk' : InI32 k')
    {m m' : Str} (hm : 0 ∉ m) (hm' : 0 ∉ m') {s s' : Trouble} (h : setError e k (some m) = .ok s) (h' : setError e' k' (some m') = .ok s')
    (same : s.errorStr = s'.errorStr) : e = e' ∧ k = k' ∧ (m.length ≤ 915 → m'.length ≤ 915 → m = m') := by
  obtain ⟨u, r, h1, -, -, -, h2, -, -, -, h3⟩ := C111 hn hk hm
  obtain ⟨u', r', h1', -, -, -, h2', -, -, -, h3'⟩ := C111 hn' hk' hm'
  obtain rfl := Out.ok.inj (h.symm.trans h1)
  obtain rfl := Out.ok.inj (h'.symm.trans h1')
  rw [same] at h2
  obtain ⟨e1, e2, e3⟩ := says_inj (named hn) (named hn') h2 h2'
  exact ⟨e1, e2, fun l l' => (h3 l).symm.trans (e3.trans (h3' l'))⟩

/-- C111: `ErrorIDToName` answers the name of every error; nothing else has a name, and no two errors have the same -/
theorem C111_name (e : Nat) : (∀ n, errorIDToName e = .ok n ↔ Named e n) ∧ (errorIDToName e = .ub .oob ↔ 20 ≤ e) ∧
    ∀ e' n, Named e n → Named e' n → e = e' := by
  have key : (∀ n, errorIDToName e = .ok n ↔ errorNames[e]? = some n) ∧ (errorIDToName e = .ub .oob ↔ errorNames[e]? = none) := by
    unfold errorIDToName
    cases errorNames[e]? with
    | none => exact ⟨fun n => ⟨fun h => (by cases h), fun h => (by cases h)⟩, by simp⟩
    | some x => exact ⟨fun n => ⟨fun h => by rw [Out.ok.inj h], fun h => by rw [Option.some.inj h]⟩, ⟨fun h => (by cases h), fun h => (by cases h)⟩⟩
  refine ⟨fun n => (key.1 n).trans (by rw [names_eq]; exact Iff.rfl), key.2.trans ?_, ?_⟩
  · rw [List.getElem?_eq_none_iff]
    exact Iff.rfl
  · intro e' n h h'
    obtain ⟨i1, e1⟩ := List.getElem?_eq_some_iff.1 (named h)
    obtain ⟨i2, e2⟩ := List.getElem?_eq_some_iff.1 (named h')
    exact (List.Nodup.getElem_inj_iff names_nodup).1 (e1.trans e2.symm)

example : errorIDToName 19 = .ok (lit "XML_NO_TEXT_NODE") ∧ errorIDToName 20 = .ub .oob := ⟨rfl, rfl⟩

/-- C111 is false of errors about which the caller says nothing: their text is empty, whichever error it was in whichever line -/
theorem C111_silent_false (e : Nat) (line : Int) : ∃ s, setError e line none = .ok s ∧ s.id = e ∧ s.line = line ∧ s.errorStr = [] := ⟨_, rfl, rfl, rfl, rfl⟩

/-- C111: `ClearError` leaves no error -/
theorem C111_clear : ∃ s, clearError = .ok s ∧ s.id = 0 ∧ s.line = 0 ∧ s.errorStr = [] ∧ s.errorName = .ok (lit "XML_SUCCESS") := ⟨_, rfl, rfl, rfl, rfl, rfl⟩

end Verif.Props
