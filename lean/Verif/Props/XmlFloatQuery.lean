import Verif.Props.XmlFloat
import Verif.Props.XmlQuery
/-!
# C118: what the queries of `float` answer
-/
namespace Verif.Props
open Spec Tec Xml

/-- C118: a query of an attribute finds the first one with this name; if its text is a number, the answer is success and the variable has the number, if not, the answer says so and
the variable is unchanged -/
theorem C118_query_attribute (m : Str) {n s : Str} {l1 l2 : List (Str × Str)} (h : ∀ a ∈ l1, a.1 ≠ n) (cs : List Node) (d : Nat) :
    (∀ r, scanF s = some r → (Node.elem m (l1 ++ (n, s) :: l2) cs).queryFloatAttribute n d = (.success, r) ∧ (Node.elem m (l1 ++ (n, s) :: l2) cs).floatAttributeOr n d = r) ∧
    (scanF s = none → (Node.elem m (l1 ++ (n, s) :: l2) cs).queryFloatAttribute n d = (.wrongAttributeType, d) ∧ (Node.elem m (l1 ++ (n, s) :: l2) cs).floatAttributeOr n d = d) := by
  have hf : (Node.elem m (l1 ++ (n, s) :: l2) cs).findAttribute n = some s := by
    unfold Node.findAttribute Node.attrs
    simp only
    rw [find_first h]; rfl
  refine ⟨fun r hr => ?_, fun hr => ?_⟩ <;> simp only [Node.floatAttributeOr, Node.queryFloatAttribute, hf, hr, and_self]

/-- C118: if there is no attribute with this name, the answer says so and the variable is unchanged -/
theorem C118_query_attribute_none (m : Str) {n : Str} {l : List (Str × Str)} (h : ∀ a ∈ l, a.1 ≠ n) (cs : List Node) (d : Nat) :
    (Node.elem m l cs).queryFloatAttribute n d = (.noAttribute, d) ∧ (Node.elem m l cs).floatAttributeOr n d = d := by
  have hf : (Node.elem m l cs).findAttribute n = none := by
    unfold Node.findAttribute Node.attrs
    simp only
    rw [List.find?_eq_none.2 (fun a ha => by simpa using h a ha)]; rfl
  simp only [Node.floatAttributeOr, Node.queryFloatAttribute, hf, and_self]

/-- C118: a query of the text of an element asks its first child, if this is a text -/
theorem C118_query_text (m s : Str) (c : Bool) (as : List (Str × Str)) (cs : List Node) (d : Nat) :
    (∀ r, scanF s = some r → (Node.elem m as (.text c s :: cs)).queryFloatText d = (.success, r) ∧ (Node.elem m as (.text c s :: cs)).floatTextOr d = r) ∧
    (scanF s = none → (Node.elem m as (.text c s :: cs)).queryFloatText d = (.canNotConvertText, d) ∧ (Node.elem m as (.text c s :: cs)).floatTextOr d = d) := by
  have hf : (Node.elem m as (.text c s :: cs)).getText = some s := rfl
  refine ⟨fun r hr => ?_, fun hr => ?_⟩ <;> simp only [Node.floatTextOr, Node.queryFloatText, hf, hr, and_self]

/-- C118: if the first child is no text, or there is none, the answer says so, whatever the other children are -/
theorem C118_query_text_none (m : Str) (as : List (Str × Str)) {cs : List Node} (h : ∀ c s, cs.head? ≠ some (.text c s)) (d : Nat) :
    (Node.elem m as cs).queryFloatText d = (.noTextNode, d) ∧ (Node.elem m as cs).floatTextOr d = d := by
  have hf : (Node.elem m as cs).getText = none := by
    unfold Node.getText Node.children
    cases cs with
    | nil => rfl
    | cons x cs =>
      cases x with
      | text c s => exact absurd rfl (h c s)
      | _ => rfl
  simp only [Node.floatTextOr, Node.queryFloatText, hf, and_self]

example : (∀ a ∈ [(lit "x", lit "1")], a.1 ≠ lit "y") ∧ scanF (lit "z") = none ∧ scanF (lit " 1.5z") = some 0x3FC00000 ∧
    (∀ c s, [Node.comment [], .text false (lit "1")].head? ≠ some (.text c s)) := by
  refine ⟨by decide +kernel, by decide +kernel, by decide +kernel, ?_⟩
  intro c s h
  cases h

end Verif.Props
