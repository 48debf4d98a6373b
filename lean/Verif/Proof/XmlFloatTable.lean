import Verif.Spec.XmlFloatTable
import Verif.Proof.XmlFloat3
import Verif.Proof.XmlStreamNumber
/-!
# Tables of `float`: helper lemmas
-/
namespace Verif.Xml
open Spec Tec

/-- the element of a row -/
def floatRow (r : Str × Nat) : Node := .elem r.1 [] [.text false (floatText r.2)]

theorem floatRows_plain (c : Bool) : ∀ rows : List (Str × Nat),
    (rows.flatMap (fun r => [NumCall.call (.open_ r.1 c), .textFloat r.2, .call (.close c)])).map (·.plain {}) = callsAll c (rows.map floatRow)
  | [] => by simp [callsAll]
  | r :: rows => by
    have e : ∀ x l, callsAll c (x :: l) = x.calls c ++ callsAll c l := fun _ _ => by rw [callsAll]
    rw [List.flatMap_cons, List.map_append, floatRows_plain c rows, List.map_cons (f := floatRow), e]
    simp [floatRow, Node.calls, callsAll, NumCall.plain]

theorem floatTable_plain (c bom : Bool) (root : Str) (rows : List (Str × Nat)) :
    (floatTable c bom root rows).map (·.plain {}) = .header bom false :: callsAll c [.elem root [] (rows.map floatRow)] := by
  have := floatRows_plain c rows
  simp only [floatTable, List.map_cons, List.map_append, List.cons_append, this, callsAll, Node.calls]
  simp [NumCall.plain]

theorem floatRows_indent (k d : Nat) : ∀ rows : List (Str × Nat), indentAll k d (rows.map floatRow) = rows.map floatRow
  | [] => by simp [indentAll]
  | r :: rows => by
    rw [List.map_cons, indentAll, floatRows_indent k d rows]
    simp [floatRow, indent, indentAll, padText, padding]

theorem floatRow_printable {r : Str × Nat} (h : IsName r.1) : Printable (floatRow r) := by
  obtain ⟨h1, h2, -⟩ := floatText_sendable r.2
  unfold floatRow
  generalize floatText r.2 = s at *
  unfold Printable
  refine ⟨h, by simp, by simp, ?_⟩
  unfold PrintableAll
  refine ⟨?_, rfl, ?_⟩
  · unfold Printable
    exact ⟨h1, (printed_plain h2).2.2⟩
  · unfold PrintableAll
    trivial

theorem floatRows_printable : ∀ {rows : List (Str × Nat)}, (∀ r ∈ rows, IsName r.1) → PrintableAll (rows.map floatRow)
  | [], _ => by simp [PrintableAll]
  | r :: rows, h => by
    rw [List.map_cons]
    unfold PrintableAll
    refine ⟨floatRow_printable (h r List.mem_cons_self), ?_, floatRows_printable fun x hx => h x (List.mem_cons_of_mem _ hx)⟩
    cases rows with
    | nil => rfl
    | cons x rows => rfl

theorem floatTable_printable {root : Str} (hr : IsName root) {rows : List (Str × Nat)} (h : ∀ r ∈ rows, IsName r.1) : PrintableDoc [.elem root [] (rows.map floatRow)] := by
  refine ⟨by simp, [], _, rfl, by simp, ?_, by simp [isText]⟩
  unfold PrintableAll Printable
  exact ⟨⟨hr, by simp, by simp, floatRows_printable h⟩, rfl, by unfold PrintableAll; trivial⟩

theorem floatRow_query {s : Str} {r : Nat} (h : scanF s = some r) (n : Str) (d : Nat) : (Node.elem n [] [.text false s]).queryFloatText d = (.success, r) := by
  unfold Node.queryFloatText
  show (match scanF s with | some r => (Answer.success, r) | none => (.canNotConvertText, d)) = _
  rw [h]

end Verif.Xml
