import Verif.Proof.Xml2
/-!
# The bounds on the number of rounds do not matter; escaped texts
-/
namespace Verif.Xml
open Tec Spec

/-! ## Every step reads something -/

theorem skipSpace_length (p : Str) : (skipSpace p).length ≤ p.length := by
  unfold skipSpace
  induction p with
  | nil => simp
  | cons a p ih => rw [List.dropWhile_cons]; split <;> simp; omega

theorem strip_length {pat p r : Str} (h : strip pat p = some r) : r.length + pat.length = p.length := by
  induction pat generalizing p with
  | nil => cases p <;> simp [strip] at h <;> subst h <;> simp
  | cons a pat ih =>
    cases p with
    | nil => simp [strip] at h
    | cons b p =>
      rw [strip] at h
      split at h
      · have := ih h; simp; omega
      · cases h

theorem parseText_length {tag p v r : Str} (h : parseText tag p = some (v, r)) : v.length + tag.length + r.length = p.length := by
  induction p generalizing v with
  | nil => simp [parseText] at h
  | cons b l ih =>
    rw [parseText] at h
    split at h
    · rename_i r' e
      cases h
      have := strip_length e
      simp at this ⊢; omega
    · split at h
      · rename_i v' r' e
        cases h
        have := ih e
        simp; omega
      · cases h

theorem dropWhile_length (p : UInt8 → Bool) (l : Str) : (l.dropWhile p).length ≤ l.length := by
  induction l with
  | nil => simp
  | cons a l ih => rw [List.dropWhile_cons]; split <;> simp; omega

theorem parseName_length {p n r : Str} (h : parseName p = some (n, r)) : r.length < p.length := by
  cases p with
  | nil => simp [parseName] at h
  | cons b l =>
    rw [parseName] at h
    split at h
    · cases h
      have := dropWhile_length isNameChar l
      simp; omega
    · cases h

theorem parseAttr_length {p : Str} {a : Str × Str} {r : Str} (h : parseAttr p = some (a, r)) : r.length < p.length := by
  unfold parseAttr at h
  split at h
  · cases h
  · rename_i n q e
    have h1 := parseName_length e
    have h2 := skipSpace_length q
    split at h
    · rename_i q2 e2
      rw [e2] at h2
      have h3 := skipSpace_length q2
      split at h
      · rename_i c q3 e3
        rw [e3] at h3
        split at h
        · split at h
          · rename_i v r' e4
            cases h
            have := parseText_length e4
            simp at this h2 h3; omega
          · cases h
        · cases h
      · cases h
    · cases h

theorem parseAttrs_length : ∀ (f : Nat) {as : List (Str × Str)} {p : Str} {bs : List (Str × Str)} {c : Bool} {r : Str},
    parseAttrs f as p = .ok (bs, c, r) → r.length < p.length := by
  intro f
  induction f with
  | zero => intro as p bs c r h; cases h
  | succ f ih =>
    intro as p bs c r h
    rw [parseAttrs] at h
    have h1 := skipSpace_length p
    split at h
    · cases h
    · rename_i b l e
      rw [e] at h1
      split at h
      · split at h
        · cases h
        · rename_i a r' e2
          split at h
          · cases h
          · have h2 := parseAttr_length e2
            have h3 := ih h
            simp at h1 h2; omega
      · split at h
        · cases h; simp at h1; omega
        · split at h
          · split at h
            · cases h; simp at h1; omega
            · cases h
          · cases h

/-- the bound on the rounds of `parseAttrs` does not matter -/
theorem parseAttrs_fuel : ∀ (f g : Nat) (as : List (Str × Str)) (p : Str), p.length < f → p.length < g → parseAttrs f as p = parseAttrs g as p := by
  intro f
  induction f with
  | zero => intro g as p h; omega
  | succ f ih =>
    intro g as p h1 h2
    obtain ⟨g, rfl⟩ : ∃ k, g = k + 1 := ⟨g - 1, by omega⟩
    rw [parseAttrs, parseAttrs]
    have h3 := skipSpace_length p
    split
    · rfl
    · rename_i b l e
      rw [e] at h3
      split
      · split
        · rfl
        · rename_i a r e2
          have h4 := parseAttr_length e2
          split
          · rfl
          · exact ih g _ _ (by simp at h3 h4; omega) (by simp at h3 h4; omega)
      · rfl

theorem parseTag_length {p n : Str} {as : List (Str × Str)} {c : Closing} {r : Str} (h : parseTag p = .ok (n, as, c, r)) : r.length < p.length := by
  unfold parseTag at h
  simp only at h
  have h1 := skipSpace_length p
  have h2 : ((strip [47] (skipSpace p)).getD (skipSpace p)).length ≤ (skipSpace p).length := by
    cases e : strip [47] (skipSpace p) with
    | none => simp
    | some q => have := strip_length e; simp at this ⊢; omega
  split at h
  · cases h
  · rename_i n' q e
    have h3 := parseName_length e
    split at h
    · cases h
    · rename_i as' sl r' e2
      cases h
      have := parseAttrs_length _ e2
      omega

theorem identify_length {p q : Str} {k : Kind} (h : identify p = some (k, q)) :
    (k ≠ .text ∧ q.length < p.length) ∨ (k = .text ∧ q = p ∧ ∀ l, p ≠ 60 :: l) := by
  unfold identify at h
  simp only at h
  have h1 := skipSpace_length p
  split at h
  · cases h
  · split at h
    · rename_i e; cases h; have := strip_length e; exact .inl ⟨by simp, by simp [lit] at this; omega⟩
    · split at h
      · rename_i e; cases h; have := strip_length e; exact .inl ⟨by simp, by simp [lit] at this; omega⟩
      · split at h
        · rename_i e; cases h; have := strip_length e; exact .inl ⟨by simp, by simp [lit] at this; omega⟩
        · split at h
          · rename_i e; cases h; have := strip_length e; exact .inl ⟨by simp, by simp [lit] at this; omega⟩
          · split at h
            · rename_i e; cases h; have := strip_length e; exact .inl ⟨by simp, by simp [lit] at this; omega⟩
            · rename_i e
              cases h
              refine .inr ⟨rfl, rfl, ?_⟩
              rintro l rfl
              rw [skipSpace_cons (by decide)] at e
              rw [show strip (lit "<") (60 :: l) = some l from strip_append [60] l] at e
              cases e

theorem parseText_head {b : UInt8} {p r : Str} (h : parseText [b] p = some ([], r)) : ∃ l, p = b :: l := by
  cases p with
  | nil => simp [parseText] at h
  | cons a l =>
    rw [parseText] at h
    split at h
    · rename_i r' e
      rw [strip] at e
      split at e
      · rename_i hh; exact ⟨l, by rw [hh]⟩
      · cases e
    · split at h
      · cases h
      · cases h

/-- the bound on the rounds of `parseNodes` does not matter, and what is left after an end tag is shorter -/
theorem parseNodes_fuel : ∀ (n : Nat) (p : Str), p.length ≤ n → ∀ (doc : Bool) (cs : List Node),
    (∀ f g, p.length ≤ f → p.length ≤ g → parseNodes f doc cs p = parseNodes g doc cs p) ∧
    ∀ f ks m r, parseNodes f doc cs p = .byTag ks m r → r.length < p.length := by
  intro n
  induction n with
  | zero =>
    intro p hp doc cs
    have : p = [] := List.length_eq_zero_iff.1 (by omega)
    subst this
    have e : ∀ f, parseNodes f doc cs [] = .atEnd cs := fun f => nodes_blank (by intro b hb; cases hb) f doc cs
    exact ⟨fun f g _ _ => by rw [e, e], fun f ks m r h => by rw [e] at h; cases h⟩
  | succ n ih =>
    intro p hp doc cs
    constructor
    · intro f g hf hg
      cases f with
      | zero =>
        have : p = [] := List.length_eq_zero_iff.1 (by omega)
        subst this
        rw [nodes_blank (by intro b hb; cases hb), nodes_blank (by intro b hb; cases hb)]
      | succ f =>
      cases g with
      | zero =>
        have : p = [] := List.length_eq_zero_iff.1 (by omega)
        subst this
        rw [nodes_blank (by intro b hb; cases hb), nodes_blank (by intro b hb; cases hb)]
      | succ g =>
      have go : ∀ (q : Str) (doc : Bool) (cs : List Node), q.length < p.length → parseNodes f doc cs q = parseNodes g doc cs q :=
        fun q doc cs hq => (ih q (by omega) doc cs).1 f g (by omega) (by omega)
      rw [parseNodes, parseNodes]
      cases hi : identify p with
      | none => rfl
      | some x =>
        obtain ⟨k, q⟩ := x
        have hl := identify_length hi
        cases k with
        | comment =>
          simp only
          have hl : q.length < p.length := hl.elim (·.2) (fun h => by cases h.1)
          cases e : parseText (lit "-->") q with
          | none => rfl
          | some y => have := parseText_length (v := y.1) (r := y.2) e; exact go _ _ _ (by omega)
        | decl =>
          simp only
          have hl : q.length < p.length := hl.elim (·.2) (fun h => by cases h.1)
          cases e : parseText (lit "?>") q with
          | none => rfl
          | some y =>
            have := parseText_length (v := y.1) (r := y.2) e
            simp only
            split
            · exact go _ _ _ (by omega)
            · rfl
        | cdata =>
          simp only
          have hl : q.length < p.length := hl.elim (·.2) (fun h => by cases h.1)
          cases e : parseText (lit "]]>") q with
          | none => rfl
          | some y => have := parseText_length (v := y.1) (r := y.2) e; exact go _ _ _ (by omega)
        | unknown =>
          simp only
          have hl : q.length < p.length := hl.elim (·.2) (fun h => by cases h.1)
          cases e : parseText (lit ">") q with
          | none => rfl
          | some y => have := parseText_length (v := y.1) (r := y.2) e; exact go _ _ _ (by omega)
        | text =>
          simp only
          obtain ⟨-, rfl, hne⟩ := hl.resolve_left (fun h => h.1 rfl)
          cases e : parseText (lit "<") q with
          | none => rfl
          | some y =>
            obtain ⟨v, r⟩ := y
            simp only
            split
            · rfl
            · refine go _ _ _ ?_
              have := parseText_length e
              cases v with
              | nil => obtain ⟨l, hl⟩ := parseText_head e; exact absurd hl (hne l)
              | cons a v => simp [lit] at this ⊢; omega
        | elem =>
          simp only
          have hl : q.length < p.length := hl.elim (·.2) (fun h => by cases h.1)
          cases e : parseTag q with
          | error e => rfl
          | ok y =>
            obtain ⟨n', as, c, r⟩ := y
            have hr := parseTag_length e
            cases c with
            | closing => rfl
            | closed => exact go _ _ _ (by omega)
            | opened =>
              simp only
              split
              · rfl
              · rw [go r false [] (by omega)]
                cases e2 : parseNodes g false [] r with
                | failed e => rfl
                | atEnd c => rfl
                | byTag ks m r' =>
                  simp only
                  split
                  · have := (ih r (by omega) false []).2 g ks m r' e2
                    exact go _ _ _ (by omega)
                  · rfl
    · intro f ks m r h
      cases f with
      | zero => rw [parseNodes] at h; cases h
      | succ f =>
      have go : ∀ (q : Str) (doc : Bool) (cs : List Node), q.length < p.length → parseNodes f doc cs q = .byTag ks m r → r.length < p.length :=
        fun q doc cs hq h => by have := (ih q (by omega) doc cs).2 f ks m r h; omega
      rw [parseNodes] at h
      cases hi : identify p with
      | none => rw [hi] at h; cases h
      | some x =>
        obtain ⟨k, q⟩ := x
        have hl := identify_length hi
        rw [hi] at h
        cases k with
        | comment =>
          simp only at h
          have hl : q.length < p.length := hl.elim (·.2) (fun h => by cases h.1)
          cases e : parseText (lit "-->") q with
          | none => rw [e] at h; cases h
          | some y => rw [e] at h; have := parseText_length (v := y.1) (r := y.2) e; exact go _ _ _ (by omega) h
        | decl =>
          simp only at h
          have hl : q.length < p.length := hl.elim (·.2) (fun h => by cases h.1)
          cases e : parseText (lit "?>") q with
          | none => rw [e] at h; cases h
          | some y =>
            rw [e] at h
            have := parseText_length (v := y.1) (r := y.2) e
            simp only at h
            split at h
            · exact go _ _ _ (by omega) h
            · cases h
        | cdata =>
          simp only at h
          have hl : q.length < p.length := hl.elim (·.2) (fun h => by cases h.1)
          cases e : parseText (lit "]]>") q with
          | none => rw [e] at h; cases h
          | some y => rw [e] at h; have := parseText_length (v := y.1) (r := y.2) e; exact go _ _ _ (by omega) h
        | unknown =>
          simp only at h
          have hl : q.length < p.length := hl.elim (·.2) (fun h => by cases h.1)
          cases e : parseText (lit ">") q with
          | none => rw [e] at h; cases h
          | some y => rw [e] at h; have := parseText_length (v := y.1) (r := y.2) e; exact go _ _ _ (by omega) h
        | text =>
          simp only at h
          obtain ⟨-, rfl, hne⟩ := hl.resolve_left (fun h => h.1 rfl)
          cases e : parseText (lit "<") q with
          | none => rw [e] at h; cases h
          | some y =>
            rw [e] at h
            obtain ⟨v, r'⟩ := y
            simp only at h
            split at h
            · cases h
            · refine go _ _ _ ?_ h
              have := parseText_length e
              cases v with
              | nil => obtain ⟨l, hl⟩ := parseText_head e; exact absurd hl (hne l)
              | cons a v => simp [lit] at this ⊢; omega
        | elem =>
          simp only at h
          have hl : q.length < p.length := hl.elim (·.2) (fun h => by cases h.1)
          cases e : parseTag q with
          | error e' => rw [e] at h; cases h
          | ok y =>
            rw [e] at h
            obtain ⟨n', as, c, r'⟩ := y
            have hr := parseTag_length e
            cases c with
            | closing => cases h; omega
            | closed => exact go _ _ _ (by omega) h
            | opened =>
              simp only at h
              split at h
              · cases h
              · cases e2 : parseNodes f false [] r' with
                | failed e => rw [e2] at h; cases h
                | atEnd c => rw [e2] at h; cases h
                | byTag ks' m' r'' =>
                  rw [e2] at h
                  simp only at h
                  split at h
                  · have := (ih r' (by omega) false []).2 f ks' m' r'' e2
                    exact go _ _ _ (by omega) h
                  · cases h

/-! ## Escaped texts -/

theorem strip_all (b : UInt8) (pat r : Str) : strip (b :: pat) (b :: (pat ++ r)) = some r := strip_append (b :: pat) r

theorem entity_amp (r : Str) : entity (lit "amp;" ++ r) = some (38, r) := by
  unfold entity
  rw [show strip (lit "quot;") (lit "amp;" ++ r) = none from strip_ne _ _ (by decide)]
  simp only
  rw [strip_append]

theorem entity_quot (r : Str) : entity (lit "quot;" ++ r) = some (34, r) := by
  unfold entity
  rw [strip_append]

theorem entity_apos (r : Str) : entity (lit "apos;" ++ r) = some (39, r) := by
  unfold entity
  rw [show strip (lit "quot;") (lit "apos;" ++ r) = none from strip_ne _ _ (by decide)]
  simp only
  rw [show strip (lit "amp;") (lit "apos;" ++ r) = none from (strip_eq _ _ _).trans (strip_ne _ _ (by decide))]
  simp only
  rw [strip_append]

theorem entity_lt (r : Str) : entity (lit "lt;" ++ r) = some (60, r) := by
  unfold entity
  rw [show strip (lit "quot;") (lit "lt;" ++ r) = none from strip_ne _ _ (by decide)]
  simp only
  rw [show strip (lit "amp;") (lit "lt;" ++ r) = none from strip_ne _ _ (by decide)]
  simp only
  rw [show strip (lit "apos;") (lit "lt;" ++ r) = none from strip_ne _ _ (by decide)]
  simp only
  rw [strip_append]

theorem entity_gt (r : Str) : entity (lit "gt;" ++ r) = some (62, r) := by
  unfold entity
  rw [show strip (lit "quot;") (lit "gt;" ++ r) = none from strip_ne _ _ (by decide)]
  simp only
  rw [show strip (lit "amp;") (lit "gt;" ++ r) = none from strip_ne _ _ (by decide)]
  simp only
  rw [show strip (lit "apos;") (lit "gt;" ++ r) = none from strip_ne _ _ (by decide)]
  simp only
  rw [show strip (lit "lt;") (lit "gt;" ++ r) = none from strip_ne _ _ (by decide)]
  simp only
  rw [strip_append]

theorem cook_entity (orig : Str) (f : Nat) (out : Str) {a c : UInt8} {l r : Str} (ha : a ≠ 35) (h : entity (a :: l) = some (c, r)) :
    cook true orig (f + 1) out (38 :: a :: l) = cook true orig f (out ++ [c]) r := by
  rw [cook.eq_def]
  simp only
  rw [if_neg (by decide), if_neg (by decide), if_pos ⟨trivial, trivial⟩]
  split
  · rename_i heq; simp at heq; exact absurd heq.1 ha
  · rw [h]

theorem cook_other (orig : Str) (f : Nat) (out : Str) {b : UInt8} {l : Str} (h1 : b ≠ 13) (h2 : b ≠ 38) (hl : ∀ q, l ≠ 13 :: q) :
    cook true orig (f + 1) out (b :: l) = cook true orig f (out ++ [b]) l := by
  rw [cook.eq_def]
  simp only
  rw [if_neg h1]
  split
  · rename_i h10
    subst h10
    cases l with
    | nil => rfl
    | cons c l =>
      by_cases hc : c = 13
      · exact absurd (by rw [hc]) (hl l)
      · simp only
  · rw [if_neg (fun c => h2 c.2)]

theorem escape_head {s : Str} (h : ∀ b ∈ s, b ≠ 13) : ∀ q, escape s ≠ 13 :: q := by
  intro q e
  cases s with
  | nil => cases e
  | cons a s =>
    unfold escape at e
    rw [List.flatMap_cons] at e
    unfold escapeByte at e
    split at e
    · exact absurd (List.cons.inj e).1 (by decide)
    · split at e
      · exact absurd (List.cons.inj e).1 (by decide)
      · split at e
        · exact absurd (List.cons.inj e).1 (by decide)
        · split at e
          · exact absurd (List.cons.inj e).1 (by decide)
          · split at e
            · exact absurd (List.cons.inj e).1 (by decide)
            · exact h a (by simp) (List.cons.inj e).1

theorem escape_cons (a : UInt8) (s : Str) : escape (a :: s) = escapeByte a ++ escape s := List.flatMap_cons

theorem escape_cook (orig : Str) : ∀ (s : Str), (∀ b ∈ s, b ≠ 13) → ∀ f out, (escape s).length ≤ f → cook true orig f out (escape s) = out ++ s := by
  intro s
  induction s with
  | nil => intro _ f out _; show cook true orig f out [] = _; cases f <;> simp [cook]
  | cons a s ih =>
    intro h f out hf
    have ih' := ih fun b hb => h b (by simp [hb])
    have hh := escape_head (s := s) fun b hb => h b (by simp [hb])
    rw [escape_cons] at hf ⊢
    have hpos : 1 ≤ (escapeByte a).length := by
      unfold escapeByte
      repeat' split
      all_goals simp [lit]
    obtain ⟨f, rfl⟩ : ∃ g, f = g + 1 := ⟨f - 1, by rw [List.length_append] at hf; omega⟩
    have hf' : (escape s).length ≤ f := by rw [List.length_append] at hf; omega
    have fin : ∀ c, c = a → cook true orig f (out ++ [c]) (escape s) = out ++ a :: s := by
      intro c e; rw [ih' f _ hf', e]; simp
    unfold escapeByte
    split
    · rename_i e; exact (cook_entity orig f out (by decide) (entity_amp _)).trans (fin _ e.symm)
    · split
      · rename_i e; exact (cook_entity orig f out (by decide) (entity_lt _)).trans (fin _ e.symm)
      · split
        · rename_i e; exact (cook_entity orig f out (by decide) (entity_gt _)).trans (fin _ e.symm)
        · split
          · rename_i e; exact (cook_entity orig f out (by decide) (entity_quot _)).trans (fin _ e.symm)
          · split
            · rename_i e; exact (cook_entity orig f out (by decide) (entity_apos _)).trans (fin _ e.symm)
            · rename_i e _ _ _ _
              exact (cook_other orig f out (h a (by simp)) e hh).trans (fin _ rfl)

theorem value_escape {s : Str} (h : ∀ b ∈ s, b ≠ 0 ∧ b ≠ 13) : value true (escape s) = s := by
  unfold value
  rw [escape_cook _ s (fun b hb => (h b hb).2) _ _ (Nat.le_refl _), List.nil_append, cstr_plain fun b hb => (h b hb).1]

theorem escape_mem {s : Str} {b : UInt8} (h : b ∈ escape s) : b ≠ 60 ∧ b ≠ 34 := by
  obtain ⟨a, -, hb⟩ := List.mem_flatMap.1 h
  unfold escapeByte at hb
  repeat' split at hb
  · exact (by decide : ∀ b ∈ lit "&amp;", b ≠ 60 ∧ b ≠ 34) b hb
  · exact (by decide : ∀ b ∈ lit "&lt;", b ≠ 60 ∧ b ≠ 34) b hb
  · exact (by decide : ∀ b ∈ lit "&gt;", b ≠ 60 ∧ b ≠ 34) b hb
  · exact (by decide : ∀ b ∈ lit "&quot;", b ≠ 60 ∧ b ≠ 34) b hb
  · exact (by decide : ∀ b ∈ lit "&apos;", b ≠ 60 ∧ b ≠ 34) b hb
  · rename_i h1 _ h2 _
    rw [List.mem_singleton.1 hb]
    simp_all

theorem escape_visible {s : Str} (h : Visible s) : Visible (escape s) := by
  obtain ⟨a, ha, hw⟩ := h
  have : ∃ b ∈ escapeByte a, ¬ White b := by
    unfold escapeByte
    repeat' split
    · exact ⟨38, by decide, by decide⟩
    · exact ⟨38, by decide, by decide⟩
    · exact ⟨38, by decide, by decide⟩
    · exact ⟨38, by decide, by decide⟩
    · exact ⟨38, by decide, by decide⟩
    · exact ⟨a, by simp, hw⟩
  obtain ⟨b, hb, hbw⟩ := this
  exact ⟨b, List.mem_flatMap.2 ⟨a, ha, hb⟩, hbw⟩

theorem identify_escape {v : Str} (hv : Visible v) (r : Str) : identify (escape v ++ r) = some (.text, escape v ++ r) := by
  obtain ⟨b, hb, h⟩ := escape_visible hv
  exact identify_visible (fun x hx => (escape_mem hx).1) ⟨b, hb, h⟩ r

theorem escape_noNul {v : Str} (hv : ∀ b ∈ v, b ≠ 0) : NoNul (escape v) := by
  intro b h
  obtain ⟨a, ha, hb⟩ := List.mem_flatMap.1 h
  unfold escapeByte at hb
  repeat' split at hb
  · exact (by decide : ∀ b ∈ lit "&amp;", b ≠ 0) b hb
  · exact (by decide : ∀ b ∈ lit "&lt;", b ≠ 0) b hb
  · exact (by decide : ∀ b ∈ lit "&gt;", b ≠ 0) b hb
  · exact (by decide : ∀ b ∈ lit "&quot;", b ≠ 0) b hb
  · exact (by decide : ∀ b ∈ lit "&apos;", b ≠ 0) b hb
  · rw [List.mem_singleton.1 hb]; exact hv a ha

theorem noNul_lit {s : Str} (h : (0 : UInt8) ∉ s) : NoNul s := fun _ hb c => h (c ▸ hb)

/-- the start of reading a text that starts with `<` -/
theorem parse_start {q : Str} (hn : NoNul (60 :: q)) : parse (60 :: q) =
    match parseNodes (60 :: q).length true [] (60 :: q) with
    | .atEnd cs => .ok cs
    | .byTag cs _ _ => .ok cs
    | .failed e => .error e := by
  unfold parse
  simp only
  rw [cstr_plain hn, skipSpace_cons (by decide), show strip [239, 187, 191] (60 :: q) = none from strip_ne _ _ (by decide), Option.getD_none,
    if_neg (by simp)]
  rfl

theorem attrsOk_none : AttrsOk [] := ⟨by simp, by simp⟩

theorem parse_escaped {n v : Str} (hn : IsName n) (hv : ∀ b ∈ v, b ≠ 0 ∧ b ≠ 13) (vis : Visible v) :
    parse (lit "<" ++ n ++ lit ">" ++ escape v ++ lit "</" ++ n ++ lit ">") = .ok [.elem n [] [.text false v]] := by
  have e : lit "<" ++ n ++ lit ">" ++ escape v ++ lit "</" ++ n ++ lit ">" = 60 :: (n ++ (attrsText [] ++ 62 :: (escape v ++ 60 :: 47 :: (n ++ [62])))) := by
    simp [lit, attrsText]
  have hnn : NoNul (lit "<" ++ n ++ lit ">" ++ escape v ++ lit "</" ++ n ++ lit ">") :=
    noNul_append (noNul_append (noNul_append (noNul_append (noNul_append (noNul_lit (by decide)) (name_noNul hn)) (noNul_lit (by decide)))
      (escape_noNul fun b hb => (hv b hb).1)) (noNul_lit (by decide)) |> fun h => noNul_append h (name_noNul hn)) (noNul_lit (by decide))
  rw [e] at hnn ⊢
  rw [parse_start hnn]
  obtain ⟨f, hf⟩ : ∃ f, (60 :: (n ++ (attrsText [] ++ 62 :: (escape v ++ 60 :: 47 :: (n ++ [62]))))).length = f + 3 :=
    ⟨n.length + (escape v).length + n.length + 2, by simp [attrsText]; omega⟩
  rw [hf]
  have h1 := nodes_open (as := []) hn attrsOk_none (w := []) (by intro b hb; cases hb) (f + 2) true [] [.text false v]
    (escape v ++ 60 :: 47 :: (n ++ [62])) [] (by simp) (by
      rw [parseNodes, identify_escape vis]
      simp only
      rw [show parseText (lit "<") (escape v ++ 60 :: 47 :: (n ++ [62])) = some (escape v, 47 :: (n ++ [62])) from
        parseText_one (fun hh => (escape_mem hh).1 rfl) [] _]
      simp only
      rw [if_neg (by simp), value_escape hv]
      exact nodes_end hn (w := []) (by intro b hb; cases hb) f false _ [])
  rw [List.nil_append] at h1
  rw [h1, nodes_blank (by intro b hb; cases hb)]
  rfl

theorem parseAttr_escaped {n v : Str} (hn : IsName n) (hv : ∀ b ∈ v, b ≠ 0 ∧ b ≠ 13) (r : Str) :
    parseAttr (n ++ 61 :: 34 :: (escape v ++ 34 :: r)) = some ((n, v), r) := by
  unfold parseAttr
  rw [parseName_ok hn (by decide)]
  simp only
  rw [skipSpace_cons (by decide)]
  simp only
  rw [skipSpace_cons (by decide)]
  simp only
  rw [if_pos (.inl trivial), show escape v ++ 34 :: r = escape v ++ 34 :: ([] ++ r) from rfl,
    parseText_one (fun hh => (escape_mem hh).2 rfl)]
  simp only
  rw [value_escape hv]

theorem parse_escaped_attr {n a v : Str} (hn : IsName n) (ha : IsName a) (hv : ∀ b ∈ v, b ≠ 0 ∧ b ≠ 13) :
    parse (lit "<" ++ n ++ lit " " ++ a ++ lit "=\"" ++ escape v ++ lit "\"/>") = .ok [.elem n [(a, v)] []] := by
  obtain ⟨c, q, e1, h1⟩ := name_start hn
  obtain ⟨c', q', e2, h2⟩ := name_start ha
  have e : lit "<" ++ n ++ lit " " ++ a ++ lit "=\"" ++ escape v ++ lit "\"/>" = 60 :: (n ++ 32 :: (a ++ 61 :: 34 :: (escape v ++ 34 :: [47, 62]))) := by
    simp [lit]
  have hnn : NoNul (lit "<" ++ n ++ lit " " ++ a ++ lit "=\"" ++ escape v ++ lit "\"/>") :=
    noNul_append (noNul_append (noNul_append (noNul_append (noNul_append (noNul_append (noNul_lit (by decide)) (name_noNul hn)) (noNul_lit (by decide)))
      (name_noNul ha)) (noNul_lit (by decide))) (escape_noNul fun b hb => (hv b hb).1)) (noNul_lit (by decide))
  rw [e] at hnn ⊢
  rw [parse_start hnn]
  generalize hT : 32 :: (a ++ 61 :: 34 :: (escape v ++ 34 :: [47, 62])) = T
  obtain ⟨f, hf⟩ : ∃ f, (60 :: (n ++ T)).length = f + 1 := ⟨_, rfl⟩
  have tag : parseTag (n ++ T) = .ok (n, [(a, v)], .closed, []) := by
    unfold parseTag
    simp only
    have s1 : skipSpace (n ++ T) = n ++ T := by rw [e1, List.cons_append, skipSpace_cons (name_notSpace h1)]
    have s2 : strip [47] (n ++ T) = none := by rw [e1, List.cons_append, strip_ne _ _ (nameStart_ne h1).1.symm]
    rw [s1, s2, Option.getD_none, ← hT, parseName_ok hn (by decide)]
    simp only
    have hp := parseAttr_escaped ha hv [47, 62]
    rw [e2, List.cons_append] at hp
    have sp : skipSpace (32 :: c' :: (q' ++ 61 :: 34 :: (escape v ++ 34 :: [47, 62]))) = c' :: (q' ++ 61 :: 34 :: (escape v ++ 34 :: [47, 62])) :=
      skipSpace_cons (name_notSpace h2) _
    rw [e2, List.cons_append, parseAttrs, sp]
    simp only
    rw [if_pos h2, hp]
    simp only [List.any_nil, Bool.false_eq_true, if_false, List.length_cons, List.nil_append]
    rfl
  rw [hf, parseNodes, show 60 :: (n ++ T) = [] ++ 60 :: c :: (q ++ T) by rw [e1]; rfl, identify_elem (w := []) (by intro b hb; cases hb) (nameStart_ne h1).2.1 (nameStart_ne h1).2.2.1]
  simp only
  rw [← List.cons_append, ← e1, tag]
  simp only
  rw [nodes_blank (by intro b hb; cases hb)]
  rfl

/-! ## Errors of the reader -/

theorem parseAttrs_code : ∀ (f : Nat) (as : List (Str × Str)) (p : Str), parseAttrs f as p ≠ .error .fileNotFound := by
  intro f
  induction f with
  | zero => intro as p h; cases h
  | succ f ih =>
    intro as p h
    rw [parseAttrs] at h
    repeat' split at h
    all_goals first | cases h | exact ih _ _ h

theorem parseTag_code (p : Str) : parseTag p ≠ .error .fileNotFound := by
  intro h
  unfold parseTag at h
  simp only at h
  split at h
  · cases h
  · split at h
    · rename_i e; cases h; exact parseAttrs_code _ _ _ e
    · cases h

theorem parseNodes_code : ∀ (f : Nat) (doc : Bool) (cs : List Node) (p : Str), parseNodes f doc cs p ≠ .failed .fileNotFound := by
  intro f
  induction f with
  | zero => intro doc cs p h; rw [parseNodes] at h; cases h
  | succ f ih =>
    intro doc cs p h
    rw [parseNodes] at h
    repeat' split at h
    all_goals first
      | cases h
        done
      | exact ih _ _ _ h
      | (rename_i e; injection h with h; subst h; exact parseTag_code _ e)
      | (rename_i e; injection h with h; subst h; exact ih _ _ _ e)

theorem loadFile_found (t : Str) : loadFile (some t) ≠ .error .fileNotFound := by
  intro h
  cases t with
  | nil => cases h
  | cons a t =>
    have h : parse (a :: t) = _ := h
    unfold parse at h
    simp only at h
    split at h
    · cases h
    · split at h
      · cases h
      · cases h
      · rename_i e; injection h with h; subst h; exact parseNodes_code _ _ _ _ e

end Verif.Xml
