import Verif.Proof.Handle
/-!
# C106 — Handles
-/
namespace Verif.Props
open Verif Spec Xml.Dom

/-- C106: any chain of steps of a handle, from the null pointer or a node, is defined, changes nothing and ends where the chain leads in the lists of
children: at a node or at the null pointer. -/
theorem C106 {s : Dom} {K : Nat → List Nat} (S : Links s K) {n : Nat} (hn : ∀ p, (K p).length < n) (l : List Step) {p : P} (hp : ∀ c, p = some c → s.live c = true) :
    ∃ q, handleChain n l p s = .ok q s ∧ (∀ d, q = some d → s.live d = true) ∧ ∀ q', Path K l p q' ↔ q' = q := by
  induction l generalizing p with
  | nil => exact ⟨p, rfl, hp, fun q' => ⟨fun h => by cases h; rfl, fun h => by subst h; exact .done _⟩⟩
  | cons st l ih =>
    cases p with
    | none =>
      obtain ⟨q, h1, h2, h3⟩ := ih (p := none) (fun _ h => by cases h)
      exact ⟨q, h1, h2, fun q' => ⟨fun h => by cases h with | nothing h => exact (h3 q').1 h, fun h => .nothing ((h3 q').2 h)⟩⟩
    | some c =>
      obtain ⟨r, g1, g2, g3⟩ := leads_node S hn (hp c rfl) st
      obtain ⟨q, h1, h2, h3⟩ := ih (p := r) g3
      refine ⟨q, ?_, h2, fun q' => ⟨fun h => ?_, fun h => .step g2 ((h3 q').2 h)⟩⟩
      · show (Step.handle n (some c) st >>= fun q => handleChain n l q) s = _
        rw [M.bind_ok (show Step.handle n (some c) st s = .ok r s from g1)]; exact h1
      · cases h with
        | step a b => rw [leads_unique S a g2] at b; exact (h3 q').1 b

/-- C106 (plain pointers): the same chain written with `->` is undefined exactly if some step but the last one leads to nothing — then through the null
pointer —, and otherwise ends at the same place. -/
theorem C106_plain {s : Dom} {K : Nat → List Nat} (S : Links s K) {n : Nat} (hn : ∀ p, (K p).length < n) (l : List Step) {p : P} (hp : ∀ c, p = some c → s.live c = true) :
    ((∃ l1 st l2, l = l1 ++ st :: l2 ∧ Path K l1 p none) ∧ plainChain n l p s = .ub .null) ∨
    ((∀ l1 st l2, l = l1 ++ st :: l2 → ¬ Path K l1 p none) ∧ plainChain n l p s = handleChain n l p s) := by
  induction l generalizing p with
  | nil => exact .inr ⟨fun l1 st l2 e => by simp at e, rfl⟩
  | cons st l ih =>
    cases p with
    | none => exact .inl ⟨⟨[], st, l, rfl, .done none⟩, rfl⟩
    | some c =>
      obtain ⟨r, g1, g2, g3⟩ := leads_node S hn (hp c rfl) st
      have e1 : plainChain n (st :: l) (some c) s = plainChain n l r s := by
        show (Step.node n c st >>= fun q => plainChain n l q) s = _
        rw [M.bind_ok g1]
      have e2 : handleChain n (st :: l) (some c) s = handleChain n l r s := by
        show (Step.handle n (some c) st >>= fun q => handleChain n l q) s = _
        rw [M.bind_ok (show Step.handle n (some c) st s = .ok r s from g1)]
      rw [e1, e2]
      rcases ih g3 with ⟨⟨l1, t, l2, e, h⟩, h'⟩ | ⟨h, h'⟩
      · exact .inl ⟨⟨st :: l1, t, l2, by rw [e]; rfl, .step g2 h⟩, h'⟩
      · refine .inr ⟨fun l1 t l2 e hl => ?_, h'⟩
        cases l1 with
        | nil => cases hl
        | cons a l1 =>
          cases e
          cases hl with
          | step a b => rw [leads_unique S a g2] at b; exact h _ _ _ rfl b

/-- document 0 has the child 1 with the children 2, 3, 4: the second child of the second element, which has none, and the node behind it -/
example : ∃ s, Links s domK ∧ (∀ p, (domK p).length < 4) ∧ s.live 0 = true ∧
    handleChain 4 [.firstChild, .firstChildElement (fun c => c % 2 == 1), .nextSibling] (some 0) s = .ok (some 4) s ∧
    handleChain 4 [.firstChild, .nextSibling, .firstChild] (some 0) s = .ok none s ∧
    plainChain 4 [.firstChild, .nextSibling, .firstChild] (some 0) s = .ub .null := by
  obtain ⟨s, S, hl, -⟩ := domShows
  have h0 := (hl 0).mpr (by decide)
  have hn : ∀ p, (domK p).length < 4 := fun p => by unfold domK; split <;> [simp; (split <;> simp)]
  have hp : ∀ c, some 0 = some c → s.live c = true := fun c h => by cases h; exact h0
  have k1 : Leads domK 0 .firstChild (some 1) := .firstChild
  have k2 : Leads domK 1 .nextSibling none := .nextSibling (p := 0) (l := []) (r := []) rfl
  have hb : Path domK [.firstChild, .nextSibling] (some 0) none := .step k1 (.step k2 (.done _))
  refine ⟨s, S, hn, h0, ?_, ?_, ?_⟩
  · obtain ⟨q, e, -, h⟩ := C106 S hn [.firstChild, .firstChildElement (fun c => c % 2 == 1), .nextSibling] hp
    rw [e, ← (h (some 4)).1 (.step k1 (.step (.firstChildElement _) (.step (.nextSibling (p := 1) (l := [2]) (r := [4]) rfl) (.done _))))]
  · obtain ⟨q, e, -, h⟩ := C106 S hn [.firstChild, .nextSibling, .firstChild] hp
    rw [e, ← (h none).1 (.step k1 (.step k2 (.nothing (.done _))))]
  · rcases C106_plain S hn [.firstChild, .nextSibling, .firstChild] hp with ⟨-, h⟩ | ⟨h, -⟩
    · exact h
    · exact absurd hb (h _ .firstChild [] rfl)

end Verif.Props
