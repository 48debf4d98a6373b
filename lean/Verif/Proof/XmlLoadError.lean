import Verif.Model.Xml.LoadError
import Verif.Spec.XmlLoadError
import Verif.Proof.XmlLines2
import Verif.Props.XmlErrText
/-!
# The texts of the errors of the reader fit and are true
-/
namespace Verif.Xml.ErrText
open Tec Lines Spec

theorem nameOf_named (e : Code) : Named e.num (lit (nameOf e)) := by cases e <;> decide +kernel

theorem zero_name {n : Str} (h : IsName n) : 0 ∉ n := by
  intro hm
  cases n with
  | nil => exact h
  | cons b l =>
    rcases List.mem_cons.1 hm with rfl | hm
    · exact absurd h.1 (by unfold NameStart; decide)
    · exact absurd (h.2 0 hm) (by unfold NameByte NameStart; decide)

/-- what is told has no null -/
theorem Tells.zero {c : Str} {o : Nat} {e : Code} {m : Str} (h : Tells c o e (some m)) : 0 ∉ m := by
  have app : ∀ {a b : Str}, 0 ∉ a → 0 ∉ b → 0 ∉ a ++ b := by
    intro a b ha hb hm
    rcases List.mem_append.1 hm with hm | hm
    · exact ha hm
    · exact hb hm
  cases e with
  | parsingElement =>
    obtain ⟨n, r, ⟨hn, -⟩, ⟨h, -⟩ | ⟨h, -⟩⟩ := h
    · cases h; exact app (by decide) (zero_name hn)
    · cases h
  | mismatchedElement =>
    obtain ⟨n, ⟨r, hn, -⟩, h⟩ := h
    cases h; exact app (by decide) (zero_name hn)
  | parsingAttribute =>
    obtain ⟨n, o', t, ⟨hn, -⟩, -, h⟩ := h
    cases h; exact app (by decide) (zero_name hn)
  | parsingDeclaration =>
    rcases h with ⟨h, -⟩ | ⟨v, ⟨raw, r, -, -, hv⟩, h⟩
    · cases h
    · cases h
      refine app (by decide) ?_
      rw [hv]
      intro hm
      exact value_noNul false raw 0 hm rfl
  | _ => cases h

/-- `SetError` and what its caller tells -/
theorem setError_text (e : Code) {line : Int} (hl : InI32 line) {told : Option Str} (h0 : ∀ m, told = some m → 0 ∉ m) :
    ∃ s, setError e.num line told = .ok s ∧ s.id = e.num ∧ s.line = line ∧ s.errorName = .ok (lit (nameOf e)) ∧
      Text s.errorStr (lit (nameOf e)) e.num line told := by
  cases told with
  | none => exact ⟨_, rfl, rfl, rfl, ((Verif.Props.C111_name e.num).1 _).2 (nameOf_named e), rfl⟩
  | some m =>
    obtain ⟨s, r, h1, h2, h3, h4, h5, h6, -, -, h7⟩ := Verif.Props.C111 (nameOf_named e) hl (h0 m rfl)
    exact ⟨s, h1, h2, h3, h4, r, h5, h6, h7⟩

theorem file_head : (0 : Byte) ∉ lit "filename=" := by decide

theorem file_zero {f : Str} (h : 0 ∉ f) : ∀ m, some (lit "filename=" ++ f) = some m → 0 ∉ m := by
  rintro m ⟨⟩ hm
  rcases List.mem_append.1 hm with hm | hm
  · exact file_head hm
  · exact h hm

end Verif.Xml.ErrText
