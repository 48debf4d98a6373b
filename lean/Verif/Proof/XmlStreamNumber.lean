import Verif.Spec.XmlStreamNumber
import Verif.Spec.XmlStream
import Verif.Proof.Number2
/-!
# Tables of numbers: helper lemmas
-/
namespace Verif.Xml
open Spec Tec

theorem numCalls_plain (w : Words) : ∀ (l : List NumCall) (s : Printer), Printer.numCalls w l s = Printer.calls (l.map (·.plain w)) s
  | [], _ => rfl
  | c :: l, s => by
    simp only [Printer.numCalls, List.map_cons, Printer.calls]
    cases s.call (c.plain w) with
    | ok s => exact numCalls_plain w l s
    | err e => rfl
    | ub u => rfl

/-- the element of a row -/
def Row.node (r : Row) : Node := .elem r.name (r.attrs.map fun a => (a.1, a.2.text {})) [.text false (r.value.text {})]

theorem row_plain (c : Bool) (r : Row) : (r.calls c).map (·.plain {}) = r.node.calls c := by
  simp [Row.calls, Row.node, Node.calls, callsAll, NumCall.plain, Function.comp_def]

theorem rows_plain (c : Bool) : ∀ rows : List Row, (rows.flatMap (Row.calls c)).map (·.plain {}) = callsAll c (rows.map Row.node)
  | [] => by simp [callsAll]
  | r :: rows => by rw [List.flatMap_cons, List.map_append, row_plain, rows_plain c rows, List.map_cons, callsAll]

theorem table_plain (c bom : Bool) (root : Str) (rows : List Row) :
    (tableCalls c bom root rows).map (·.plain {}) = .header bom false :: callsAll c [.elem root [] (rows.map Row.node)] := by
  have := rows_plain c rows
  simp only [tableCalls, List.map_cons, List.map_append, List.cons_append, this, callsAll, Node.calls]
  simp [NumCall.plain]

theorem rows_indent (k d : Nat) : ∀ rows : List Row, indentAll k d (rows.map Row.node) = rows.map Row.node
  | [] => by simp [indentAll]
  | r :: rows => by
    rw [List.map_cons, indentAll, rows_indent k d rows]
    simp [Row.node, indent, indentAll, padText, padding]

theorem scalar_sendable {v : Scalar} (h : Fits v) : Sendable (v.text {}) := by
  rw [text_eq (.inr h)]
  exact ⟨plainText_clean v, (plainText_length h).trans (by decide)⟩

theorem row_printable {r : Row} (h : r.Good) : Printable r.node := by
  unfold Row.node Printable
  refine ⟨h.name, ?_, ?_, ?_⟩
  · intro a ha
    obtain ⟨b, hb, rfl⟩ := List.mem_map.1 ha
    exact ⟨(h.attrs b hb).1, scalar_sendable (h.attrs b hb).2⟩
  · rw [List.map_map]
    exact h.distinct
  · unfold PrintableAll
    refine ⟨?_, rfl, ?_⟩
    · unfold Printable
      refine ⟨scalar_sendable h.value, ?_⟩
      rw [text_eq (.inr h.value)]
      exact (printed_plain (plainText_printed r.value)).2.2
    · unfold PrintableAll
      trivial

theorem rows_printable : ∀ {rows : List Row}, (∀ r ∈ rows, r.Good) → PrintableAll (rows.map Row.node)
  | [], _ => by simp [PrintableAll]
  | r :: rows, h => by
    rw [List.map_cons]
    unfold PrintableAll
    refine ⟨row_printable (h r List.mem_cons_self), ?_, rows_printable fun x hx => h x (List.mem_cons_of_mem _ hx)⟩
    cases rows with
    | nil => rfl
    | cons x rows => rfl

theorem table_printable {root : Str} (hr : IsName root) {rows : List Row} (h : ∀ r ∈ rows, r.Good) : PrintableDoc [.elem root [] (rows.map Row.node)] := by
  refine ⟨by simp, [], _, rfl, by simp, ?_, by simp [isText]⟩
  unfold PrintableAll Printable
  exact ⟨⟨hr, by simp, by simp, rows_printable h⟩, rfl, by unfold PrintableAll; trivial⟩

theorem row_find {r : Row} (h : r.Good) {a : Str × Scalar} (ha : a ∈ r.attrs) : r.node.findAttribute a.1 = some (a.2.text {}) := by
  obtain ⟨name, attrs, value⟩ := r
  have hd := h.distinct
  show ((attrs.map fun b => (b.1, b.2.text {})).find? fun x => x.1 == a.1).map (·.2) = _
  simp only at ha hd
  clear h
  induction attrs with
  | nil => cases ha
  | cons b l ih =>
    rw [List.map_cons, List.nodup_cons] at hd
    rcases List.mem_cons.1 ha with rfl | hb
    · simp
    · have hne : ¬ b.1 = a.1 := fun e => hd.1 (by rw [e]; exact List.mem_map_of_mem hb)
      rw [List.map_cons, List.find?_cons_of_neg (by simpa using hne)]
      exact ih hb hd.2

end Verif.Xml
