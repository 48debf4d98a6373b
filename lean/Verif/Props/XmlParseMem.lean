import Verif.Proof.XmlParseMem
import Verif.Props.XmlDoc
/-!
# C120: documents read from memory
-/
namespace Verif.Props
open Verif Spec Tec Xml

/-- C120: `Parse( p, len )` of at least `len` bytes of memory reads what `LoadFile` reads of a file with these bytes -/
theorem C120 {m : Str} {len : Nat} (h : len ≤ m.length) (hl : len < 2 ^ 64 - 1) : parseMem (some m) len = .ok (loadFile (some (m.take len))) := parseMem_len h (Nat.ne_of_lt hl)

/-- C120: without a length it reads the text up to the first null byte -/
theorem C120_whole (s r : Str) : parseMem (some (s ++ 0 :: r)) (2 ^ 64 - 1) = .ok (loadFile (some s)) := parseMem_whole s r

/-- C120: what stands behind a null byte does not matter, with a length neither -/
theorem C120_nul {s r : Str} {len : Nat} (h1 : s.length ≤ len) (h2 : len ≤ (s ++ 0 :: r).length) (hl : len < 2 ^ 64 - 1) :
    parseMem (some (s ++ 0 :: r)) len = .ok (loadFile (some s)) := by
  rw [C120 h2 hl, load_parse, load_parse]
  congr 1
  refine parse_congr ?_
  rw [List.take_append, List.take_of_length_le h1]
  cases hk : len - s.length with
  | zero => rw [List.take_zero, List.append_nil]
  | succ k => rw [List.take_succ_cons, cstr_nul]

/-- C120: a null pointer is an empty document -/
theorem C120_null (len : Nat) : parseMem none len = .ok (.error .emptyDocument) := by
  unfold parseMem
  split <;> rfl

/-- C120: it leaves the memory exactly if there is no byte, no null byte and no length, or a length that is too large, unless the length or the first byte is 0 -/
theorem C120_undefined (m : Str) (len : Nat) : parseMem (some m) len = .ub .oob ↔
    len ≠ 0 ∧ m.head? ≠ some 0 ∧ (m = [] ∨ len = 2 ^ 64 - 1 ∧ 0 ∉ m ∨ len ≠ 2 ^ 64 - 1 ∧ m.length < len) := parseMem_ub m

/-- C120: the text of a printer (`CStr()`, with whatever follows its null byte in the buffer) is read as the document that was printed -/
theorem C120_printed {l : List Node} (h : PrintableDoc l) (compact bom : Bool) :
    ∃ t, printed compact bom l = .ok t ∧ ∀ r, parseMem (some (t ++ 0 :: r)) (2 ^ 64 - 1) = .ok (.ok (indentAll (tab compact) 0 l)) := by
  obtain ⟨t, h1, h2⟩ := C81 h compact bom
  exact ⟨t, h1, fun r => by rw [C120_whole, h2]⟩

example : parseMem (some (lit "<a>1</a><b")) 8 = .ok (.ok [.elem (lit "a") [] [.text false (lit "1")]]) ∧
    parseMem (some (lit "<a/>" ++ 0 :: lit "<b")) (2 ^ 64 - 1) = .ok (.ok [.elem (lit "a") [] []]) ∧ parseMem (some (lit "<a/>")) 3 = .ok (.error .parsingElement) ∧
    parseMem (some (lit "<a/>")) 5 = .ub .oob ∧ parseMem (some (lit "<a/>")) (2 ^ 64 - 1) = .ub .oob ∧ parseMem (some []) 0 = .ok (.error .emptyDocument) := by
  refine ⟨by rfl, by rfl, by rfl, by rfl, by rfl, by rfl⟩

example : PrintableDoc mixedDoc := mixedDoc_printable

end Verif.Props
