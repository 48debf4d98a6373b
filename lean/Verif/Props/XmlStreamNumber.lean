import Verif.Proof.XmlStreamNumber
import Verif.Props.XmlStream
import Verif.Props.XmlNumber
/-!
# C112: tables of numbers, printed without a document
-/
namespace Verif.Props
open Verif Spec Tec Xml

/-- C112: a program prints any number of elements with any numbers as attributes and texts; the document loaded from the text has these elements, and all
numbers are queried from it as they were -/
theorem C112 {root : Str} (hr : IsName root) {rows : List Row} (h : ∀ r ∈ rows, r.Good) (c bom : Bool) :
    ∃ p cs, Printer.numCalls {} (tableCalls c bom root rows) (.new c) = .ok p ∧ loadFile (some p.out) = .ok [.elem root [] cs] ∧ cs.length = rows.length ∧
      ∀ (i : Nat) (r : Row), rows[i]? = some r → ∃ (y : Node) (as : List (Str × Str)) (ks : List Node), cs[i]? = some y ∧ y = .elem r.name as ks ∧ as.map (·.1) = r.attrs.map (·.1) ∧
        (∀ a ∈ r.attrs, ∀ d, y.queryAttribute a.2.ty a.1 d = .ok (.success, a.2)) ∧ ∀ d, y.queryText r.value.ty d = .ok (.success, r.value) := by
  obtain ⟨p, h1, h2⟩ := C101_load (table_printable hr h) c bom
  refine ⟨p, rows.map Row.node, ?_, ?_, List.length_map _, ?_⟩
  · rw [numCalls_plain, table_plain, h1]
  · rw [h2]
    simp only [indentAll, indent, padText, rows_indent]
  · intro i r hi
    have hg : r.Good := h r (List.mem_of_getElem? hi)
    refine ⟨r.node, _, _, by rw [List.getElem?_map, hi]; rfl, rfl, by simp, ?_, ?_⟩
    · intro a ha d
      unfold Node.queryAttribute
      rw [row_find hg ha]
      have := C91 (hg.attrs a ha).2 (t := []) (by simp [BlankC]) (fun _ => rfl)
      rw [List.append_nil] at this
      simp only [this]
      rfl
    · intro d
      have := C91 hg.value (t := []) (by simp [BlankC]) (fun _ => rfl)
      rw [List.append_nil] at this
      show (do match ← r.value.ty.conv (r.value.text {}) with | some r => Out.ok (Answer.success, r) | none => .ok (.canNotConvertText, d)) = _
      rw [this]
      rfl

/-- a row of all types -/
def aRow : Row := ⟨lit "point", [(lit "i", .int (-2147483648)), (lit "n", .unsigned 4294967295), (lit "big", .int64 9223372036854775807), (lit "x", .double 0x3FB999999999999A#64)], .bool true⟩

theorem aRow_good : aRow.Good := by
  refine ⟨by decide +kernel, ?_, by decide +kernel, trivial⟩
  intro a ha
  simp only [aRow, List.mem_cons, List.not_mem_nil, or_false] at ha
  rcases ha with rfl | rfl | rfl | rfl
  · exact ⟨by decide +kernel, show -2 ^ 31 ≤ (-2147483648 : Int) ∧ (-2147483648 : Int) < 2 ^ 31 by decide⟩
  · exact ⟨by decide +kernel, show 4294967295 < 2 ^ 32 by decide⟩
  · exact ⟨by decide +kernel, show -2 ^ 63 ≤ (9223372036854775807 : Int) ∧ (9223372036854775807 : Int) < 2 ^ 63 by decide⟩
  · exact ⟨by decide +kernel, show ¬ IsNaN _ by decide +kernel⟩

example : IsName (lit "table") ∧ ∀ r ∈ [aRow, aRow], r.Good := ⟨by decide +kernel, fun r hr => by
  simp only [List.mem_cons, List.not_mem_nil, or_false, or_self] at hr
  subst hr
  exact aRow_good⟩

example : ∃ p, Printer.numCalls {} (tableCalls false false (lit "table") [aRow]) (.new false) = .ok p ∧ p.out =
    lit "<table>\n    <point i=\"-2147483648\" n=\"4294967295\" big=\"9223372036854775807\" x=\"0.10000000000000001\">true</point>\n</table>\n" :=
  printsIs_eq (by decide +kernel)

/-- C112 is false of `PushText( float )`: two programs that push different numbers print the same -/
theorem C112_float_false : ∃ n m : Nat, n ≠ m ∧ n < 2 ^ 32 ∧ m < 2 ^ 32 ∧ finite 32 23 n ∧ finite 32 23 m ∧
    ∀ w cs ds (s : Printer), Printer.numCalls w (cs ++ .textFloat n :: ds) s = Printer.numCalls w (cs ++ .textFloat m :: ds) s := by
  refine ⟨0x4120000A, 0x4120000B, by decide, by decide, by decide, by unfold finite; decide, by unfold finite; decide, fun w cs ds s => ?_⟩
  rw [numCalls_plain, numCalls_plain, List.map_append, List.map_append, List.map_cons, List.map_cons]
  have e : (NumCall.textFloat 0x4120000A).plain w = (NumCall.textFloat 0x4120000B).plain w := by
    simp only [NumCall.plain]
    rw [show floatText 0x4120000A = lit "10.00001" by decide +kernel, show floatText 0x4120000B = lit "10.00001" by decide +kernel]
  rw [e]

end Verif.Props
