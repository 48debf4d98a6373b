import Verif.Proof.XmlFloatTable
import Verif.Props.XmlFloat
import Verif.Props.XmlStreamNumber
/-!
# C112: tables of `float`
-/
namespace Verif.Props
open Verif Spec Tec Xml

/-- C112 for `PushText( float )`: a program prints any number of elements with any finite `float` as their texts; the document loaded from the text has these
elements, and the numbers queried from it have the same sign and a relative error of at most 1e-7 -/
theorem C112_float {root : Str} (hr : IsName root) {rows : List (Str × Nat)} (h : ∀ r ∈ rows, IsName r.1 ∧ IsFloat r.2) (c bom : Bool) :
    ∃ p cs, Printer.numCalls {} (floatTable c bom root rows) (.new c) = .ok p ∧ loadFile (some p.out) = .ok [.elem root [] cs] ∧ cs.length = rows.length ∧
      ∀ (i : Nat) (m : Str) (n : Nat), rows[i]? = some (m, n) → ∃ (y : Node) (ks : List Node) (r : Nat), cs[i]? = some y ∧ y = .elem m [] ks ∧ (∀ d, y.queryFloatText d = (.success, r)) ∧
        IsFloat r ∧ (FloatNeg r ↔ FloatNeg n) ∧ |floatVal r - floatVal n| ≤ 1 / 10 ^ 7 * |floatVal n| := by
  obtain ⟨p, h1, h2⟩ := C101_load (floatTable_printable hr fun r hr => (h r hr).1) c bom
  refine ⟨p, rows.map floatRow, ?_, ?_, List.length_map _, ?_⟩
  · rw [numCalls_plain, floatTable_plain, h1]
  · rw [h2]
    simp only [indentAll, indent, padText, floatRows_indent]
  · intro i m n hi
    obtain ⟨r, hr, h3, h4, h5⟩ := C118_back (h _ (List.mem_of_getElem? hi)).2 (t := []) (fun b hb => by cases hb)
    rw [List.append_nil] at hr
    exact ⟨floatRow (m, n), _, r, by rw [List.getElem?_map, hi]; rfl, rfl, floatRow_query hr m, h3, h4, h5⟩

example : IsName (lit "table") ∧ ∀ r ∈ [(lit "x", 0x3DCCCCCD), (lit "y", 0xC120000B)], IsName r.1 ∧ IsFloat r.2 := by
  refine ⟨by decide +kernel, ?_⟩
  intro r hr
  simp only [List.mem_cons, List.not_mem_nil, or_false] at hr
  rcases hr with rfl | rfl <;> exact ⟨by decide +kernel, by decide⟩

example : ∃ p, Printer.numCalls {} (floatTable false false (lit "table") [(lit "x", 0x3DCCCCCD), (lit "y", 0xC120000B)]) (.new false) = .ok p ∧ p.out =
    lit "<table>\n    <x>0.1</x>\n    <y>-10.00001</y>\n</table>\n" :=
  printsIs_eq (by decide +kernel)

end Verif.Props
