import Verif.Spec.XmlLines
import Verif.Proof.XmlDoc5
/-!
# The counter of lines is right everywhere
-/
namespace Verif.Xml.Lines
open Tec Spec

/-! ## Places -/

/-- `p` is the text from the byte number `o` on, and `k` its line -/
structure At (c : Str) (o : Nat) (p : Str) (k : Nat) : Prop where
  le : o ≤ c.length
  rest : c.drop o = p
  line : k = lineAt c o

theorem At.add {c : Str} {o : Nat} {w p : Str} {k : Nat} (h : At c o (w ++ p) k) : At c (o + w.length) p (k + w.count 10) := by
  obtain ⟨h1, h2, h3⟩ := h
  have hl := congrArg List.length h2
  simp at hl
  refine ⟨by omega, ?_, ?_⟩
  · rw [← List.drop_drop, h2, List.drop_left]
  · rw [h3, lineAt, lineAt, List.take_add, h2, List.take_left, List.count_append]; omega

theorem At.add' {c : Str} {o : Nat} {w p : Str} {k : Nat} (h : At c o (w ++ p) k) (hw : w.count 10 = 0) : At c (o + w.length) p k := by
  have := h.add; rwa [hw, Nat.add_zero] at this

theorem At.here {c : Str} {o : Nat} {p : Str} {k : Nat} (h : At c o p k) : At c o p (lineAt c o) := h.line ▸ h

theorem skipL_eq (p : Str) (k : Nat) : ∃ w, p = w ++ skipSpace p ∧ Spaces w ∧ skipL p k = (skipSpace p, k + w.count 10) := by
  induction p generalizing k with
  | nil => exact ⟨[], rfl, by simp [Spaces], rfl⟩
  | cons b l ih =>
    by_cases hb : isSpace b = true
    · have hs : skipSpace (b :: l) = skipSpace l := by unfold skipSpace; rw [List.dropWhile_cons, if_pos hb]
      obtain ⟨w, h1, h2, h3⟩ := ih (if b = 10 then k + 1 else k)
      refine ⟨b :: w, by rw [hs, List.cons_append, ← h1], ?_, ?_⟩
      · intro x hx
        rcases List.mem_cons.1 hx with rfl | hx
        · exact hb
        · exact h2 x hx
      · rw [skipL, if_pos hb, h3, hs, List.count_cons]
        by_cases h : b = 10
        · subst h; simp; omega
        · simp [h]
    · have hs : skipSpace (b :: l) = b :: l := skipSpace_cons (by simpa using hb) l
      exact ⟨[], by rw [hs]; rfl, by simp [Spaces], by rw [skipL, if_neg hb, hs]; rfl⟩

theorem skipSpace_head {p : Str} {b : UInt8} {l : Str} (h : skipSpace p = b :: l) : isSpace b = false := by
  induction p with
  | nil => cases h
  | cons a p ih =>
    by_cases ha : isSpace a = true
    · exact ih (by rw [← h]; unfold skipSpace; rw [List.dropWhile_cons, if_pos ha])
    · have ha : isSpace a = false := by simpa using ha
      rw [skipSpace_cons ha] at h
      injection h with h _
      exact h ▸ ha

theorem textL_eq (tag p : Str) (k : Nat) : textL tag p k = (parseText tag p).map fun x => (x.1, x.2, k + x.1.count 10) := by
  induction p generalizing k with
  | nil => rfl
  | cons b l ih =>
    rw [textL, parseText]
    cases hs : strip tag (b :: l) with
    | some r => simp
    | none =>
      simp only [ih]
      cases hp : parseText tag l with
      | none => rfl
      | some x =>
        obtain ⟨v, r⟩ := x
        simp only [Option.map, List.count_cons]
        by_cases h : b = 10
        · subst h; simp; omega
        · simp [h]

theorem parseText_none {tag p : Str} (h : parseText tag p = none) (h0 : tag ≠ []) : ¬ tag <:+: p := by
  induction p with
  | nil => simpa using h0
  | cons b l ih =>
    rw [parseText] at h
    cases hs : strip tag (b :: l) with
    | some r => rw [hs] at h; cases h
    | none =>
      rw [hs] at h
      simp only at h
      rw [List.infix_cons_iff, not_or]
      refine ⟨strip_none hs, ih ?_⟩
      cases hp : parseText tag l with
      | none => rfl
      | some x => rw [hp] at h; cases h

theorem one_infix {b : UInt8} {l : Str} (h : ¬ [b] <:+: l) : b ∉ l := by
  intro hb
  obtain ⟨s, t, rfl⟩ := List.append_of_mem hb
  exact h ⟨s, t, by simp⟩

/-! ## Chains of places -/

/-- the things stand in this order at places from `lo` on and before `hi`, and their lines are right -/
def Chain (c : Str) : Nat → List (Nat × Item) → Nat → Prop
  | lo, [], hi => lo ≤ hi
  | lo, x :: xs, hi => ∃ o, lo ≤ o ∧ x.1 = lineAt c o ∧ Stands (c.take o) (c.drop o) x.2 ∧ Chain c (o + 1) xs hi

theorem Chain.le {c : Str} {lo hi : Nat} {xs : List (Nat × Item)} (h : Chain c lo xs hi) : lo ≤ hi := by
  induction xs generalizing lo with
  | nil => exact h
  | cons x xs ih => obtain ⟨o, h1, -, -, h2⟩ := h; have := ih h2; omega

theorem Chain.mono {c : Str} {lo lo' hi : Nat} {xs : List (Nat × Item)} (h : Chain c lo xs hi) (hl : lo' ≤ lo) : Chain c lo' xs hi := by
  cases xs with
  | nil => exact Nat.le_trans hl h
  | cons x xs => obtain ⟨o, h1, h2⟩ := h; exact ⟨o, by omega, h2⟩

theorem Chain.append {c : Str} {lo mid hi : Nat} {xs ys : List (Nat × Item)} (h : Chain c lo xs mid) (h' : Chain c mid ys hi) :
    Chain c lo (xs ++ ys) hi := by
  induction xs generalizing lo with
  | nil => exact h'.mono h
  | cons x xs ih => obtain ⟨o, h1, h2, h3, h4⟩ := h; exact ⟨o, h1, h2, h3, ih h4⟩

theorem Chain.one {c : Str} {lo o hi : Nat} {x : Nat × Item} (h1 : lo ≤ o) (h2 : x.1 = lineAt c o)
    (h3 : Stands (c.take o) (c.drop o) x.2) (h4 : o < hi) : Chain c lo [x] hi := ⟨o, h1, h2, h3, h4⟩

/-! ## Attributes -/

theorem name_no_lf {n : Str} (h : IsName n) : n.count 10 = 0 := by
  apply List.count_eq_zero_of_not_mem
  cases n with
  | nil => exact h.elim
  | cons a n =>
    intro hm
    rcases List.mem_cons.1 hm with rfl | hm
    · have := h.1; exact absurd this (by unfold NameStart; decide)
    · have := h.2 _ hm; exact absurd this (by unfold NameByte; decide)

theorem attrL_eq {c : Str} {o : Nat} {p : Str} {k : Nat} (h : At c o p k) :
    match parseAttr p with
    | none => attrL p k = none
    | some (a, r) => ∃ o' k', attrL p k = some (a, r, k') ∧ At c o' r k' ∧ o < o' ∧ Stands (c.take o) (c.drop o) (.attr a.1 a.2) ∧
        ∃ w1 w2 q raw, IsName a.1 ∧ Spaces w1 ∧ Spaces w2 ∧ (q = 34 ∨ q = 39) ∧ q ∉ raw ∧
          p = a.1 ++ (w1 ++ ([61] ++ (w2 ++ ([q] ++ (raw ++ ([q] ++ r)))))) := by
  unfold parseAttr attrL
  cases hn : parseName p with
  | none => rfl
  | some x =>
    obtain ⟨n, p1⟩ := x
    obtain ⟨e1, nm⟩ := parseName_some hn
    have n0 : n ≠ [] := by rintro rfl; exact nm.elim
    subst e1
    have h1 := h.add' (name_no_lf nm)
    obtain ⟨w, e2, sw, q2⟩ := skipL_eq p1 k
    simp only [q2]
    have hs := h.rest
    rw [e2] at h1 hs
    have h2 := h1.add
    generalize skipSpace p1 = p2 at *
    rcases p2 with _ | ⟨b, p3⟩
    · rfl
    by_cases hb : b = 61
    · subst hb
      simp only
      have h3 := At.add' (w := [61]) (p := p3) h2 (by decide)
      obtain ⟨w', e4, sw', q4⟩ := skipL_eq p3 (k + w.count 10)
      simp only [q4]
      rw [e4] at h3 hs
      have h4 := h3.add
      generalize skipSpace p3 = p4 at *
      rcases p4 with _ | ⟨q, p5⟩
      · rfl
      simp only
      by_cases hq : q = 34 ∨ q = 39
      · rw [if_pos hq, if_pos hq, textL_eq]
        cases ht : parseText [q] p5 with
        | none => rfl
        | some y =>
          obtain ⟨v, r⟩ := y
          obtain ⟨e5, nv⟩ := parseText_some (by simp) ht
          subst e5
          have hq0 : [q].count 10 = 0 := by rcases hq with rfl | rfl <;> decide
          have h5 := At.add' (w := [q]) (p := v ++ ([q] ++ r)) h4 hq0
          have h6 := h5.add
          have h7 := h6.add' hq0
          refine ⟨_, _, rfl, h7, by simp; omega, ⟨nm, w, w', q, v, r, sw, sw', hq, ?_, one_infix nv, rfl⟩, w, w', q, v, nm, sw, sw', hq, one_infix nv, ?_⟩
          · rw [hs]; simp
          · rw [e2, e4]; rfl
      · rw [if_neg hq, if_neg hq]
    · split
      · rename_i hh
        split at hh
        · rename_i heq; injection heq with heq _; exact absurd heq hb
        · split
          · rename_i heq; injection heq with heq _; injection heq with heq _; exact absurd heq hb
          · rfl
      · rename_i hh
        split at hh
        · rename_i heq; injection heq with heq _; exact absurd heq hb
        · cases hh

end Verif.Xml.Lines
