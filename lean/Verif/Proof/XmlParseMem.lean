import Verif.Model.Xml.ParseMem
import Verif.Proof.Xml11
/-!
# Reading a document from memory: helper lemmas
-/
namespace Verif.Xml
open Tec

theorem strlen_nul : ∀ s r : Str, strlen (s ++ 0 :: r) = .ok (cstr s).length
  | [], r => rfl
  | b :: s, r => by
    rw [List.cons_append, strlen]
    by_cases h : b = 0
    · subst h; rfl
    · rw [if_neg h, strlen_nul s r]
      show Out.ok _ = _
      unfold cstr
      rw [List.takeWhile_cons_of_pos (by simpa using h)]
      rfl

theorem strlen_none : ∀ {s : Str}, 0 ∉ s → strlen s = .ub .oob
  | [], _ => rfl
  | b :: s, h => by
    rw [strlen, if_neg (by rintro rfl; exact h List.mem_cons_self), strlen_none fun m => h (List.mem_cons_of_mem _ m)]
    rfl

theorem parse_congr {s t : Str} (h : cstr s = cstr t) : parse s = parse t := by
  unfold parse
  rw [h]

theorem parse_empty {s : Str} (h : cstr s = []) : parse s = .error .emptyDocument := by
  rw [parse_congr (t := []) h]
  rfl

theorem load_parse (s : Str) : loadFile (some s) = parse s := by
  cases s <;> rfl

theorem cstr_nul (s r : Str) : cstr (s ++ 0 :: r) = cstr s := by
  unfold cstr
  induction s with
  | nil => rfl
  | cons b s ih =>
    rw [List.cons_append, List.takeWhile_cons, List.takeWhile_cons, ih]

theorem cstr_take (s : Str) : s.take (cstr s).length = cstr s := by
  unfold cstr
  exact (List.prefix_iff_eq_take.mp (List.takeWhile_prefix _)).symm

theorem cstr_cstr (s : Str) : cstr (cstr s) = cstr s := by
  unfold cstr
  induction s with
  | nil => rfl
  | cons b s ih =>
    by_cases h : b = 0
    · subst h; rfl
    · rw [List.takeWhile_cons_of_pos (by simpa using h), List.takeWhile_cons_of_pos (by simpa using h), ih]

theorem parseMem_len {m : Str} {len : Nat} (h : len ≤ m.length) (hl : len ≠ sizeMax) : parseMem (some m) len = .ok (loadFile (some (m.take len))) := by
  unfold parseMem
  rw [load_parse]
  by_cases h0 : len = 0
  · rw [if_pos h0, h0]; rfl
  · rw [if_neg h0]
    cases m with
    | nil => exact absurd (Nat.le_zero.mp h) h0
    | cons b l =>
      obtain ⟨k, rfl⟩ := Nat.exists_eq_succ_of_ne_zero h0
      by_cases hb : b = 0
      · simp only
        rw [if_pos hb, parse_empty]
        subst hb
        rfl
      · simp only [if_neg hb, if_neg hl]
        show (if (b :: l).length < k + 1 then Out.ub UB.oob else _) = _
        rw [if_neg (by omega)]

theorem parseMem_whole (s r : Str) : parseMem (some (s ++ 0 :: r)) sizeMax = .ok (loadFile (some s)) := by
  have hz : sizeMax ≠ 0 := by decide
  rw [load_parse]
  cases s with
  | nil => rfl
  | cons b l =>
    unfold parseMem
    rw [if_neg hz]
    simp only [List.cons_append, if_true]
    by_cases hb : b = 0
    · rw [if_pos hb, parse_empty]
      subst hb
      rfl
    · rw [if_neg hb]
      have e := strlen_nul (b :: l) r
      rw [List.cons_append] at e
      rw [e]
      show (if (b :: (l ++ 0 :: r)).length < (cstr (b :: l)).length then Out.ub UB.oob else Out.ok (parse ((b :: (l ++ 0 :: r)).take (cstr (b :: l)).length))) = _
      have e2 : cstr (b :: (l ++ 0 :: r)) = cstr (b :: l) := cstr_nul (b :: l) r
      rw [← e2, cstr_take, if_neg (by
        have : (cstr (b :: (l ++ 0 :: r))).length ≤ (b :: (l ++ 0 :: r)).length := (List.takeWhile_prefix _).length_le
        omega), e2, parse_congr (cstr_cstr (b :: l))]

theorem parseMem_ub (m : Str) {len : Nat} : parseMem (some m) len = .ub .oob ↔
    len ≠ 0 ∧ m.head? ≠ some 0 ∧ (m = [] ∨ len = sizeMax ∧ 0 ∉ m ∨ len ≠ sizeMax ∧ m.length < len) := by
  by_cases h0 : len = 0
  · subst h0
    exact ⟨fun h => (nomatch h), fun h => absurd rfl h.1⟩
  · cases m with
    | nil =>
      unfold parseMem
      rw [if_neg h0]
      exact ⟨fun _ => ⟨h0, by simp, .inl rfl⟩, fun _ => rfl⟩
    | cons b l =>
      by_cases hb : b = 0
      · subst hb
        unfold parseMem
        rw [if_neg h0]
        exact ⟨fun h => (nomatch h), fun h => absurd rfl h.2.1⟩
      · have hh : (b :: l).head? ≠ some 0 := by simpa using hb
        by_cases hl : len = sizeMax
        · by_cases hm : (0 : UInt8) ∈ b :: l
          · obtain ⟨s, r, e⟩ := List.append_of_mem hm
            rw [e, hl, parseMem_whole]
            refine ⟨fun h => (nomatch h), fun ⟨_, _, h⟩ => ?_⟩
            rcases h with h | ⟨-, h⟩ | ⟨h, -⟩
            · simp at h
            · simp at h
            · exact absurd rfl h
          · refine ⟨fun _ => ⟨h0, hh, .inr (.inl ⟨hl, hm⟩)⟩, fun _ => ?_⟩
            unfold parseMem
            rw [if_neg h0]
            simp only [if_neg hb, if_pos hl]
            rw [strlen_none hm]
            rfl
        · by_cases hm : (b :: l).length < len
          · refine ⟨fun _ => ⟨h0, hh, .inr (.inr ⟨hl, hm⟩)⟩, fun _ => ?_⟩
            unfold parseMem
            rw [if_neg h0]
            simp only [if_neg hb, if_neg hl]
            show (if (b :: l).length < len then Out.ub UB.oob else _) = _
            rw [if_pos hm]
          · rw [parseMem_len (by omega) hl]
            refine ⟨fun h => (nomatch h), fun ⟨_, _, h⟩ => ?_⟩
            rcases h with h | ⟨h, -⟩ | ⟨-, h⟩
            · cases h
            · exact absurd h hl
            · exact absurd h hm

end Verif.Xml
