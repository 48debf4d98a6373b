import Verif.Proof.XmlPlace1
/-! Decoding a value at its place: helper lemmas. -/
namespace Verif.Xml.InPlace
open Tec

theorem utf8_length (n : Nat) : (utf8 n).length ≤ 4 := by
  unfold utf8; simp only []; split <;> (try split) <;> (try split) <;> (try split) <;> simp

theorem charRef_fits {l v r : Str} (h : charRef l = some (v, r)) : r <:+ l ∧ v.length + r.length ≤ l.length + 2 := by
  cases l with
  | nil => simp [charRef] at h
  | cons c l =>
    rw [charRef] at h
    split at h
    · cases hp : parseText [59] l with
      | none => simp [hp] at h
      | some x =>
        obtain ⟨w, r'⟩ := x
        simp only [hp] at h
        obtain ⟨n, hn, h⟩ := Option.map_eq_some_iff.1 h
        simp only [Prod.mk.injEq] at h
        obtain ⟨rfl, rfl⟩ := h
        have e := parseText_split hp
        have := utf8_length n
        subst e
        refine ⟨⟨c :: (w ++ [59]), by simp⟩, ?_⟩
        simp; omega
    · cases hp : parseText [59] (c :: l) with
      | none => simp [hp] at h
      | some x =>
        obtain ⟨w, r'⟩ := x
        simp only [hp] at h
        obtain ⟨n, hn, h⟩ := Option.map_eq_some_iff.1 h
        simp only [Prod.mk.injEq] at h
        obtain ⟨rfl, rfl⟩ := h
        have e := parseText_split hp
        have := utf8_length n
        rw [e]
        refine ⟨⟨w ++ [59], by simp⟩, ?_⟩
        cases w with
        | nil =>
          simp [refNum] at hn
          subst hn
          simp [utf8]; omega
        | cons d w => simp; omega

theorem strip_suffix {pat l r : Str} (h : strip pat l = some r) : r <:+ l ∧ pat.length + r.length = l.length := by
  rw [strip_some h]; exact ⟨⟨pat, rfl⟩, by simp⟩

theorem entity_fits {l r : Str} {c : Byte} (h : entity l = some (c, r)) : r <:+ l ∧ r.length < l.length := by
  unfold entity at h
  have key : ∀ {pat : Str} {r : Str}, 0 < pat.length → strip pat l = some r → r <:+ l ∧ r.length < l.length := fun hp hs => by
    have := strip_suffix hs; exact ⟨this.1, by omega⟩
  split at h
  · next hs => simp at h; exact h.2 ▸ key (by decide) hs
  · split at h
    · next hs => simp at h; exact h.2 ▸ key (by decide) hs
    · split at h
      · next hs => simp at h; exact h.2 ▸ key (by decide) hs
      · split at h
        · next hs => simp at h; exact h.2 ▸ key (by decide) hs
        · split at h
          · next hs => simp at h; exact h.2 ▸ key (by decide) hs
          · simp at h

/-- while a value is decoded: `out` is written, `l` is still to be read, from the write pointer on the bytes are as they were -/
structure Inv (b0 b : Str) (s : Nat) (raw out l : Str) : Prop where
  frame : Frame b0 b s (s + raw.length + 1)
  done : ∀ j, j < out.length → b[s + j]? = out[j]?
  rest : ∀ j, out.length ≤ j → j < raw.length → b[s + j]? = raw[j]?
  nul : b[s + raw.length]? = some 0
  suf : l <:+ raw
  le : out.length + l.length ≤ raw.length
  no : ∀ c ∈ raw, c ≠ 0

theorem Inv.at {b0 b : Str} {s : Nat} {raw out l : Str} (h : Inv b0 b s raw out l) : At b (s + raw.length) (s + raw.length - l.length) l := by
  obtain ⟨pre, e⟩ := h.suf
  have hl := h.le
  have hr : raw.length = pre.length + l.length := by rw [← e]; simp
  refine ⟨by omega, seg_iff.2 fun i hi => ?_, h.nul, fun c hc => h.no c (e ▸ by simp [hc])⟩
  have := h.rest (pre.length + i) (by omega) (by omega)
  rw [show s + raw.length - l.length + i = s + (pre.length + i) by omega, this, ← e, List.getElem?_append_right (by omega)]
  congr 1; omega

theorem Inv.write {b0 b : Str} {s : Nat} {raw out l : Str} (h : Inv b0 b s raw out l) (x : Byte) {l' : Str} (hs : l' <:+ raw) (hl : out.length + 1 + l'.length ≤ raw.length) :
    s + out.length < b.length ∧ Inv b0 (b.set (s + out.length) x) s raw (out ++ [x]) l' := by
  have hn := lt_of_get h.nul
  have hlt : s + out.length < b.length := by omega
  refine ⟨hlt, ⟨⟨by simp [h.frame.len], fun i hi => ?_⟩, fun j hj => ?_, fun j hj hj' => ?_, ?_, hs, by simpa using hl, h.no⟩⟩
  · rw [List.getElem?_set_ne (by omega)]; exact h.frame.same i hi
  · simp at hj
    by_cases e : j = out.length
    · subst e; simp [hlt]
    · rw [List.getElem?_set_ne (by omega), h.done j (by omega), List.getElem?_append_left (by omega)]
  · simp at hj
    rw [List.getElem?_set_ne (by omega)]; exact h.rest j (by omega) hj'
  · rw [List.getElem?_set_ne (by omega)]; exact h.nul

/-- going on without writing -/
theorem Inv.keep {b0 b : Str} {s : Nat} {raw out l : Str} (h : Inv b0 b s raw out l) {l' : Str} (hs : l' <:+ raw) (hl : out.length + 1 + l'.length ≤ raw.length) :
    Inv b0 b s raw (out ++ [raw.getD out.length 0]) l' := by
  refine ⟨h.frame, fun j hj => ?_, fun j hj hj' => ?_, h.nul, hs, by simpa using hl, h.no⟩
  · simp at hj
    by_cases e : j = out.length
    · subst e
      rw [h.rest _ le_rfl (by omega)]
      simp [show out.length < raw.length by omega]
    · rw [h.done j (by omega), List.getElem?_append_left (by omega)]
  · simp at hj; exact h.rest j (by omega) hj'

theorem Inv.drop {b0 b : Str} {s : Nat} {raw out l : Str} (h : Inv b0 b s raw out l) {l' : Str} (hs : l' <:+ raw) (hl : out.length + l'.length ≤ raw.length) :
    Inv b0 b s raw out l' := ⟨h.frame, h.done, h.rest, h.nul, hs, hl, h.no⟩

theorem Inv.writes {b0 : Str} {s : Nat} {raw l' : Str} (hs : l' <:+ raw) {v : Str} : ∀ {b out l : Str}, Inv b0 b s raw out l → out.length + v.length + l'.length ≤ raw.length →
    ∃ b', wrs (s + out.length) v b = .ok () b' ∧ Inv b0 b' s raw (out ++ v) l' := by
  induction v with
  | nil => intro b out l h hl; exact ⟨b, rfl, by simpa using h.drop hs (by simpa using hl)⟩
  | cons c v ih =>
    intro b out l h hl
    simp at hl
    have hsuf : raw.drop (out.length + 1) <:+ raw := List.drop_suffix _ _
    obtain ⟨h1, h2⟩ := h.write c hsuf (by simp; omega)
    obtain ⟨b', h3, h4⟩ := ih h2 (by simp; omega)
    refine ⟨b', ?_, by simpa using h4⟩
    rw [wrs, bind_wr h1, ← h3]
    congr 1
    simp; omega

theorem suffix_tail {c : Byte} {l raw : Str} (h : c :: l <:+ raw) : l <:+ raw := (List.suffix_cons c l).trans h

theorem cook_other (ent : Bool) (orig : Str) (f : Nat) (out : Str) {b : UInt8} (l : Str) (h0 : b ≠ 10) (h1 : b ≠ 13) (h2 : ¬ (ent = true ∧ b = 38)) :
    cook ent orig (f + 1) out (b :: l) = cook ent orig f (out ++ [b]) l := by
  rw [cook.eq_def]
  simp only
  rw [if_neg h1, if_neg h0, if_neg h2]

theorem cook_ref_end (orig : Str) (f : Nat) (out : Str) : cook true orig (f + 1) out [38, 35] = cook true orig f out [35] := by
  rw [cook.eq_def]; rfl

theorem cook_entity (orig : Str) (f : Nat) (out : Str) {l : Str} (h : l.head? ≠ some 35) :
    cook true orig (f + 1) out (38 :: l) = match entity l with
      | some (c, r) => cook true orig f (out ++ [c]) r
      | none => cook true orig f (out ++ [orig.getD out.length 0]) l := by
  rw [cook.eq_def]
  simp only
  rw [if_neg (by decide), if_neg (by decide), if_pos ⟨trivial, trivial⟩]
  split
  · exact absurd rfl h
  · rfl

theorem cook_run {b0 : Str} {s : Nat} {raw : Str} (ent : Bool) : ∀ (f : Nat) {b out l : Str} {g : Nat}, Inv b0 b s raw out l → l.length ≤ f → l.length < g →
    ∃ b', cookB ent true (s + raw.length) g (s + raw.length - l.length) (s + out.length) b = .ok (s + (cook ent raw f out l).length) b' ∧
      Inv b0 b' s raw (cook ent raw f out l) [] := by
  intro f
  induction f with
  | zero =>
    intro b out l g h hf hg
    obtain rfl : l = [] := List.length_eq_zero_iff.1 (by omega)
    cases g with
    | zero => omega
    | succ g => refine ⟨b, ?_, ?_⟩ <;> rw [cook] <;> [rw [cookB, if_neg (by simp)]; exact h]; rfl
  | succ f ih =>
    intro b out l g h hf hg
    cases g with
    | zero => omega
    | succ g =>
    cases l with
    | nil => refine ⟨b, ?_, ?_⟩ <;> rw [cook] <;> [rw [cookB, if_neg (by simp)]; exact h]; rfl
    | cons c l =>
      have hle := h.le
      simp at hle hf hg
      have hat := h.at
      have hsl := suffix_tail h.suf
      have hp : s + raw.length - (c :: l).length + 1 = s + raw.length - l.length := by simp; omega
      have hat1 := hat.tl.to hp
      -- one byte is written, `l'` remains
      have one : ∀ (x : Byte) (l' : Str), l' <:+ l → ∃ b', (wr (s + out.length) x >>= fun _ => cookB ent true (s + raw.length) g (s + raw.length - l'.length) (s + out.length + 1)) b
          = .ok (s + (cook ent raw f (out ++ [x]) l').length) b' ∧ Inv b0 b' s raw (cook ent raw f (out ++ [x]) l') [] := by
        intro x l' hl'
        have hlen := hl'.length_le
        obtain ⟨h1, h2⟩ := h.write x (hl'.trans hsl) (by omega)
        rw [bind_wr h1]
        have := ih (g := g) h2 (by omega) (by omega)
        simpa [Nat.add_assoc] using this
      rw [cookB, if_pos (by simp; omega), bind_rd hat.hd.1]
      by_cases h13 : c = 13
      · subst h13
        rw [if_pos ⟨rfl, rfl⟩, hp]
        cases l with
        | nil =>
          rw [bind_rd hat1.nil, show ([13] : Str) = [13] ++ [] from rfl, cook_newline ent raw f out (.inr (.inr (.inl ⟨rfl, by simp⟩)))]
          exact one 10 [] (List.suffix_refl _)
        | cons d l =>
          rw [bind_rd hat1.hd.1]
          by_cases hd : d = 10
          · subst hd
            have e : s + raw.length - (13 :: 10 :: l).length + 2 = s + raw.length - l.length := by simp at hle ⊢; omega
            simp only [if_true]
            rw [e, show (13 :: 10 :: l : Str) = [13, 10] ++ l from rfl, cook_newline ent raw f out (.inl rfl)]
            exact one 10 l (List.suffix_cons _ _)
          · simp only [if_neg hd]
            rw [show (13 :: d :: l : Str) = [13] ++ (d :: l) from rfl, cook_newline ent raw f out (.inr (.inr (.inl ⟨rfl, by simpa using hd⟩)))]
            exact one 10 (d :: l) (List.suffix_refl _)
      rw [if_neg (fun x => h13 x.2)]
      by_cases h10 : c = 10
      · subst h10
        rw [if_pos ⟨rfl, rfl⟩, hp]
        cases l with
        | nil =>
          rw [bind_rd hat1.nil, show ([10] : Str) = [10] ++ [] from rfl, cook_newline ent raw f out (.inr (.inr (.inr ⟨rfl, by simp⟩)))]
          exact one 10 [] (List.suffix_refl _)
        | cons d l =>
          rw [bind_rd hat1.hd.1]
          by_cases hd : d = 13
          · subst hd
            have e : s + raw.length - (10 :: 13 :: l).length + 2 = s + raw.length - l.length := by simp at hle ⊢; omega
            simp only [if_true]
            rw [e, show (10 :: 13 :: l : Str) = [10, 13] ++ l from rfl, cook_newline ent raw f out (.inr (.inl rfl))]
            exact one 10 l (List.suffix_cons _ _)
          · simp only [if_neg hd]
            rw [show (10 :: d :: l : Str) = [10] ++ (d :: l) from rfl, cook_newline ent raw f out (.inr (.inr (.inr ⟨rfl, by simpa using hd⟩)))]
            exact one 10 (d :: l) (List.suffix_refl _)
      rw [if_neg (fun x => h10 x.2)]
      by_cases h38 : ent = true ∧ c = 38
      · rw [if_pos h38]
        obtain ⟨rfl, rfl⟩ := h38
        by_cases h35 : l.head? = some 35
        · obtain ⟨l', rfl⟩ : ∃ l', l = 35 :: l' := by
            cases l with
            | nil => simp at h35
            | cons d l => simp at h35; exact ⟨l, by rw [h35]⟩
          rw [hp, bind_rd hat1.hd.1, if_pos rfl, M.bind_ok (charRefB_run hat)]
          cases l' with
          | nil =>
            rw [if_pos rfl, cook_ref_end]
            obtain ⟨b', h1, h2⟩ := h.writes (v := []) (l' := [35]) hsl (by simpa using by omega)
            simp only []
            rw [M.bind_ok h1, hp]
            have := ih (g := g) h2 (by simpa using hf) (by simpa using hg)
            simpa using this
          | cons d l' =>
            rw [if_neg (by simp)]
            cases hr : charRef (d :: l') with
            | none =>
              simp only [Option.map_none]
              rw [bind_rd hat.hd.1, cook_wrong raw f out hr]
              exact one 38 (35 :: d :: l') (List.suffix_refl _)
            | some x =>
              obtain ⟨v, r⟩ := x
              obtain ⟨hr1, hr2⟩ := charRef_fits hr
              have hrl := hr1.length_le
              simp at hle hf hg hr2 hrl
              obtain ⟨b', h1, h2⟩ := h.writes (v := v) (l' := r) (hr1.trans (suffix_tail hsl)) (by omega)
              simp only [Option.map_some]
              rw [M.bind_ok h1, cook_ref raw f out hr]
              have := ih (g := g) h2 (by omega) (by omega)
              simpa [Nat.add_assoc] using this
        · have hd : l.head?.getD 0 ≠ 35 := by
            cases l with
            | nil => simp
            | cons d l => simpa using h35
          have hent := entityB_run hat.tl
          rw [hp, bind_rd hat1.get, if_neg hd, M.bind_ok hent, cook_entity raw f out h35]
          cases hr : entity l with
          | none =>
            simp only [Option.map_none]
            have := ih (g := g) (h.keep hsl (by omega)) (by omega) (by omega)
            simpa [Nat.add_assoc] using this
          | some x =>
            obtain ⟨v, r⟩ := x
            simp only [Option.map_some]
            exact one v r (entity_fits hr).1
      · rw [if_neg h38, hp, cook_other ent raw f out l h10 h13 h38]
        exact one c l (List.suffix_refl _)

end Verif.Xml.InPlace
