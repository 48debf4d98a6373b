import Verif.Props.Dom
import Verif.Spec.Handle
/-!
# Helper lemmas: the steps of a handle
-/
namespace Verif
open Spec Xml.Dom Props

theorem leads_node {s : Dom} {K : Nat → List Nat} (S : Links s K) {n : Nat} (hn : ∀ p, (K p).length < n) {c : Nat} (hc : s.live c = true) (st : Step) :
    ∃ q, st.node n c s = .ok q s ∧ Leads K c st q ∧ ∀ d, q = some d → s.live d = true := by
  have kid : ∀ {p d : Nat}, d ∈ K p → s.live d = true := fun h => (S.kid _ _ h).1
  cases st with
  | firstChild =>
    refine ⟨_, rd_ok hc, ?_, ?_⟩
    · rw [(S.ends c hc).1]; exact .firstChild
    · rw [(S.ends c hc).1]; exact fun d h => kid (List.mem_of_mem_head? h)
  | lastChild =>
    refine ⟨_, rd_ok hc, ?_, ?_⟩
    · rw [(S.ends c hc).2]; exact .lastChild
    · rw [(S.ends c hc).2]; exact fun d h => kid (List.mem_of_getLast? h)
  | firstChildElement i => exact ⟨_, (C85_child S hc i (hn c)).1, .firstChildElement i, fun d h => kid (List.mem_of_find?_eq_some h)⟩
  | lastChildElement i =>
    exact ⟨_, (C85_child S hc i (hn c)).2, .lastChildElement i, fun d h => kid (List.mem_reverse.1 (List.mem_of_find?_eq_some h))⟩
  | toKind i =>
    refine ⟨_, ?_, .toKind i, ?_⟩
    · show (rd Dom.doc (some c) >>= fun _ => pure _) s = _
      rw [M.bind_ok (rd_ok hc)]; rfl
    · intro d h; split at h
      · cases h; exact hc
      · cases h
  | nextSibling =>
    cases hp : s.parent c with
    | none =>
      refine ⟨_, rd_ok hc, ?_, ?_⟩ <;> rw [(S.top c hc hp).2]
      · exact .alone (fun p h => by have := (S.kid p c h).2.1; rw [hp] at this; cases this) (.inl rfl)
      · intro d h; cases h
    | some p =>
      obtain ⟨l, r, e⟩ := List.append_of_mem (S.child c p hc hp)
      obtain ⟨-, h2, h3⟩ := S.out.next_mid e
      refine ⟨_, rd_ok hc, ?_, ?_⟩ <;> rw [h2]
      · exact .nextSibling e
      · exact fun d h => kid (p := p) (by rw [e]; simp [List.mem_of_mem_head? h])
  | previousSibling =>
    cases hp : s.parent c with
    | none =>
      refine ⟨_, rd_ok hc, ?_, ?_⟩ <;> rw [(S.top c hc hp).1]
      · exact .alone (fun p h => by have := (S.kid p c h).2.1; rw [hp] at this; cases this) (.inr (.inl rfl))
      · intro d h; cases h
    | some p =>
      obtain ⟨l, r, e⟩ := List.append_of_mem (S.child c p hc hp)
      obtain ⟨-, h2, h3⟩ := S.out.next_mid e
      refine ⟨_, rd_ok hc, ?_, ?_⟩ <;> rw [h3]
      · exact .previousSibling e
      · exact fun d h => kid (p := p) (by rw [e]; simp [List.mem_of_getLast? h])
  | nextSiblingElement i =>
    cases hp : s.parent c with
    | none =>
      refine ⟨_, (C85_loose S hc hp i (Nat.lt_of_le_of_lt (Nat.zero_le _) (hn 0))).1, ?_, fun d h => by cases h⟩
      exact .alone (fun p h => by have := (S.kid p c h).2.1; rw [hp] at this; cases this) (.inr (.inr (.inl ⟨i, rfl⟩)))
    | some p =>
      obtain ⟨l, r, e⟩ := List.append_of_mem (S.child c p hc hp)
      exact ⟨_, (C85_sibling S e i (hn p)).1, .nextSiblingElement i e, fun d h => kid (p := p) (by rw [e]; simp [List.mem_of_find?_eq_some h])⟩
  | previousSiblingElement i =>
    cases hp : s.parent c with
    | none =>
      refine ⟨_, (C85_loose S hc hp i (Nat.lt_of_le_of_lt (Nat.zero_le _) (hn 0))).2, ?_, fun d h => by cases h⟩
      exact .alone (fun p h => by have := (S.kid p c h).2.1; rw [hp] at this; cases this) (.inr (.inr (.inr ⟨i, rfl⟩)))
    | some p =>
      obtain ⟨l, r, e⟩ := List.append_of_mem (S.child c p hc hp)
      exact ⟨_, (C85_sibling S e i (hn p)).2, .previousSiblingElement i e,
        fun d h => kid (p := p) (by rw [e]; simp [List.mem_reverse.1 (List.mem_of_find?_eq_some h)])⟩

theorem split_inj {c : Nat} : ∀ {l l' r r' : List Nat}, c ∉ l → c ∉ l' → l ++ c :: r = l' ++ c :: r' → l = l' ∧ r = r'
  | [], [], _, _, _, _, e => by simpa using e
  | [], x :: l', _, _, _, h', e => by simp only [List.nil_append, List.cons_append, List.cons.injEq] at e; exact absurd e.1 (fun g => h' (by simp [g]))
  | x :: l, [], _, _, h, _, e => by simp only [List.nil_append, List.cons_append, List.cons.injEq] at e; exact absurd e.1 (fun g => h (by simp [g]))
  | x :: l, y :: l', _, _, h, h', e => by
    simp only [List.cons_append, List.cons.injEq] at e
    obtain ⟨rfl, rfl⟩ := split_inj (fun g => h (by simp [g])) (fun g => h' (by simp [g])) e.2
    exact ⟨by rw [e.1], rfl⟩

theorem split_unique {s : Dom} {K : Nat → List Nat} (S : Links s K) {c p p' : Nat} {l r l' r' : List Nat} (e : K p = l ++ c :: r) (e' : K p' = l' ++ c :: r') :
    l = l' ∧ r = r' := by
  have h := (S.kid p c (by rw [e]; simp)).2.1
  have h' := (S.kid p' c (by rw [e']; simp)).2.1
  rw [h] at h'; cases h'
  rw [e] at e'
  have nd := S.nodup p
  rw [e] at nd
  have nl : c ∉ l := fun hm => (List.nodup_append.1 nd).2.2 c hm c (by simp) rfl
  have nd' := nd
  rw [e'] at nd'
  have nl' : c ∉ l' := fun hm => (List.nodup_append.1 nd').2.2 c hm c (by simp) rfl
  exact split_inj nl nl' e'

/-- a step leads to one place only -/
theorem leads_unique {s : Dom} {K : Nat → List Nat} (S : Links s K) {c : Nat} {st : Step} {q q' : Option Nat} (h : Leads K c st q) (h' : Leads K c st q') :
    q = q' := by
  cases h <;> cases h' <;> first
    | rfl
    | (rename_i e _ _ _ e'; obtain ⟨rfl, rfl⟩ := split_unique S e e'; rfl)
    | exact absurd (by rw [‹K _ = _›]; simp) (‹∀ p, c ∉ K p› _)
    | (rename_i b; simp at b)

end Verif
