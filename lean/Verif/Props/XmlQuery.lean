import Verif.Props.XmlNumber
/-!
# C91: what the queries answer
-/
namespace Verif.Props
open Spec Tec Xml

theorem find_first {n s : Str} {l1 l2 : List (Str × Str)} (h : ∀ a ∈ l1, a.1 ≠ n) : (l1 ++ (n, s) :: l2).find? (fun a => a.1 == n) = some (n, s) := by
  induction l1 with
  | nil => simp
  | cons a l1 ih =>
    rw [List.cons_append, List.find?_cons, show (a.1 == n) = false by simpa using h a (by simp)]
    exact ih fun b hb => h b (by simp [hb])

/-- C91: a query of an attribute finds the first one with this name; if its text can be converted, the answer is success and the variable has the number, if not, the answer says so and
the variable is unchanged -/
theorem C91_query (m : Str) {n s : Str} {l1 l2 : List (Str × Str)} (h : ∀ a ∈ l1, a.1 ≠ n) (cs : List Node) (t : Ty) (d : Scalar) :
    (∀ v, t.conv s = .ok (some v) → (Node.elem m (l1 ++ (n, s) :: l2) cs).queryAttribute t n d = .ok (.success, v)) ∧
    (t.conv s = .ok none → (Node.elem m (l1 ++ (n, s) :: l2) cs).queryAttribute t n d = .ok (.wrongAttributeType, d)) ∧
    (∀ v, t.conv s = .ok (some v) → (Node.elem m (l1 ++ (n, s) :: l2) cs).attributeOr t n d = .ok v) ∧
    (t.conv s = .ok none → (Node.elem m (l1 ++ (n, s) :: l2) cs).attributeOr t n d = .ok d) := by
  have hf : (Node.elem m (l1 ++ (n, s) :: l2) cs).findAttribute n = some s := by
    unfold Node.findAttribute Node.attrs
    simp only
    rw [find_first h]; rfl
  refine ⟨fun v hv => ?_, fun hv => ?_, fun v hv => ?_, fun hv => ?_⟩ <;>
  · simp only [Node.attributeOr, Node.queryAttribute, hf]
    rw [hv]; rfl

/-- C91: if there is no attribute with this name, the answer says so and the variable is unchanged -/
theorem C91_query_none (m : Str) {n : Str} {l : List (Str × Str)} (h : ∀ a ∈ l, a.1 ≠ n) (cs : List Node) (t : Ty) (d : Scalar) :
    (Node.elem m l cs).queryAttribute t n d = .ok (.noAttribute, d) ∧ (Node.elem m l cs).attributeOr t n d = .ok d := by
  have hf : (Node.elem m l cs).findAttribute n = none := by
    unfold Node.findAttribute Node.attrs
    simp only
    rw [List.find?_eq_none.2 (fun a ha => by simpa using h a ha)]; rfl
  constructor <;> simp only [Node.attributeOr, Node.queryAttribute, hf] <;> rfl

/-- C91: a query of the text of an element asks its first child, if this is a text -/
theorem C91_query_text (m s : Str) (c : Bool) (as : List (Str × Str)) (cs : List Node) (t : Ty) (d : Scalar) :
    (∀ v, t.conv s = .ok (some v) → (Node.elem m as (.text c s :: cs)).queryText t d = .ok (.success, v)) ∧
    (t.conv s = .ok none → (Node.elem m as (.text c s :: cs)).queryText t d = .ok (.canNotConvertText, d)) ∧
    (∀ v, t.conv s = .ok (some v) → (Node.elem m as (.text c s :: cs)).textOr t d = .ok v) ∧
    (t.conv s = .ok none → (Node.elem m as (.text c s :: cs)).textOr t d = .ok d) := by
  have hf : (Node.elem m as (.text c s :: cs)).getText = some s := rfl
  refine ⟨fun v hv => ?_, fun hv => ?_, fun v hv => ?_, fun hv => ?_⟩ <;>
  · simp only [Node.textOr, Node.queryText, hf]
    rw [hv]; rfl

/-- C91: if the first child is no text, or there is none, the answer says so, whatever the other children are -/
theorem C91_query_text_none (m : Str) (as : List (Str × Str)) {cs : List Node} (h : ∀ c s, cs.head? ≠ some (.text c s)) (t : Ty) (d : Scalar) :
    (Node.elem m as cs).queryText t d = .ok (.noTextNode, d) ∧ (Node.elem m as cs).textOr t d = .ok d := by
  have hf : (Node.elem m as cs).getText = none := by
    unfold Node.getText Node.children
    cases cs with
    | nil => rfl
    | cons x cs =>
      cases x with
      | text c s => exact absurd rfl (h c s)
      | _ => rfl
  constructor <;> simp only [Node.textOr, Node.queryText, hf] <;> rfl

example : (∀ a ∈ [(lit "x", lit "1")], a.1 ≠ lit "y") ∧ Ty.int.conv (lit "z") = .ok none ∧ Ty.int.conv (lit " 12z") = .ok (some (.int 12)) ∧
    (∀ c s, [Node.comment [], .text false (lit "1")].head? ≠ some (.text c s)) := by
  refine ⟨by decide +kernel, by rfl, by rfl, ?_⟩
  intro c s h
  cases h

/-- C91: a number is read as `bool`: 0 is `false`, any other number is `true`; so are the words -/
theorem C91_bool_number {v : Int} (h : -2 ^ 31 ≤ v ∧ v < 2 ^ 31) {t : Str} (ht : BlankC t) :
    Ty.bool.conv ((Scalar.int v).text {} ++ t) = .ok (some (.bool (v ≠ 0))) := by
  have h1 : (scanInt ((Scalar.int v).text {} ++ t) >>= fun r => Out.ok (r.map Scalar.int)) = .ok (some (Scalar.int v)) := C91 (v := .int v) h ht (fun h => nomatch h)
  have h2 : scanInt ((Scalar.int v).text {} ++ t) = .ok (some v) := by
    cases e : scanInt ((Scalar.int v).text {} ++ t) with
    | ok r =>
      rw [e] at h1
      cases r with
      | none => cases h1
      | some w => cases h1; rfl
    | err x => rw [e] at h1; cases h1
    | ub x => rw [e] at h1; cases h1
  show (scanBool _ >>= _) = _
  unfold scanBool
  rw [h2]
  simp only [ok_bind]
  by_cases hv : v = 0 <;> simp [hv] <;> rfl

example : BlankC (lit " ") ∧ Ty.bool.conv (lit "-7 ") = .ok (some (.bool true)) ∧ Ty.bool.conv (lit "00") = .ok (some (.bool false)) ∧ Ty.bool.conv (lit "True") = .ok none := by
  refine ⟨by unfold BlankC; decide +kernel, by rfl, by rfl, by rfl⟩

/-- C91: `SetBoolSerialization` sets the words that are written, and a null pointer sets the word that is read; words are cut to 199 bytes -/
theorem C91_words (t f : Option Str) :
    (Scalar.bool true).text (setBoolSerialization t f) = ((t.getD (lit "true")).take 199) ∧ (Scalar.bool false).text (setBoolSerialization t f) = ((f.getD (lit "false")).take 199) ∧
    (t = none → Ty.bool.conv ((Scalar.bool true).text (setBoolSerialization t f)) = .ok (some (.bool true))) ∧
    (f = none → Ty.bool.conv ((Scalar.bool false).text (setBoolSerialization t f)) = .ok (some (.bool false))) := by
  refine ⟨rfl, rfl, ?_, ?_⟩
  · rintro rfl; rfl
  · rintro rfl; rfl

end Verif.Props
