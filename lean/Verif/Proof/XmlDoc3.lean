import Verif.Proof.XmlDoc2
import Verif.Proof.Xml8
/-!
# What the reader reads can be written
-/
namespace Verif.Xml
open Tec Spec

/-! ## Parts of the text -/

/-- no NUL, not longer than an `int` -/
def Fit (p : Str) : Prop := NoNul p ∧ p.length ≤ 2147483647

theorem Fit.part {p q : Str} (h : Fit p) (hq : q <:+: p) : Fit q := ⟨fun b hb => h.1 b (hq.subset hb), hq.length_le.trans h.2⟩

theorem skipSpace_suffix (p : Str) : skipSpace p <:+ p := List.dropWhile_suffix _

theorem strip_suffix {pat p r : Str} (h : strip pat p = some r) : r <:+ p := ⟨pat, (strip_some h).symm⟩

theorem strip_none {pat p : Str} (h : strip pat p = none) : ¬ pat <+: p := by
  rintro ⟨r, rfl⟩
  rw [strip_append] at h
  cases h

theorem parseText_some {tag p v r : Str} (h0 : tag ≠ []) (h : parseText tag p = some (v, r)) : p = v ++ (tag ++ r) ∧ ¬ tag <:+: v := by
  induction p generalizing v with
  | nil => simp [parseText] at h
  | cons b l ih =>
    rw [parseText] at h
    split at h
    · rename_i r' e
      cases h
      exact ⟨(strip_some e).trans (List.nil_append _).symm, fun hh => h0 (List.eq_nil_of_infix_nil hh)⟩
    · rename_i e
      split at h
      · rename_i v' r' e2
        cases h
        obtain ⟨rfl, h2⟩ := ih e2
        refine ⟨rfl, fun hh => ?_⟩
        rcases List.infix_cons_iff.1 hh with hh | hh
        · exact strip_none e (hh.trans ⟨tag ++ r, rfl⟩)
        · exact h2 hh
      · cases h

theorem nameStart_of {b : UInt8} (h : isNameStart b = true) : NameStart b := by
  unfold isNameStart at h
  unfold NameStart
  simp only [Bool.or_eq_true, Bool.and_eq_true, decide_eq_true_eq, beq_iff_eq] at h
  simp only [UInt8.le_iff_toNat_le]
  rcases h with (((h | h) | h) | h) | h
  · exact .inr (.inr (.inr (.inr h)))
  · exact .inl h
  · exact .inr (.inl h)
  · exact .inr (.inr (.inl h))
  · exact .inr (.inr (.inr (.inl h)))

theorem nameByte_of {b : UInt8} (h : isNameChar b = true) : NameByte b := by
  unfold isNameChar isDigit at h
  unfold NameByte
  simp only [Bool.or_eq_true, Bool.and_eq_true, decide_eq_true_eq, beq_iff_eq] at h
  rcases h with ((h | h) | h) | h
  · exact .inl (nameStart_of h)
  · refine .inr (.inl ?_)
    simp only [UInt8.le_iff_toNat_le]
    exact h
  · exact .inr (.inr (.inl h))
  · exact .inr (.inr (.inr h))

theorem mem_takeWhile {α : Type} {p : α → Bool} {l : List α} {x : α} (h : x ∈ l.takeWhile p) : p x = true := by
  induction l with
  | nil => cases h
  | cons a l ih =>
    rw [List.takeWhile_cons] at h
    split at h
    · rcases List.mem_cons.1 h with rfl | h
      · assumption
      · exact ih h
    · cases h

theorem parseName_some {p n r : Str} (h : parseName p = some (n, r)) : p = n ++ r ∧ IsName n := by
  cases p with
  | nil => simp [parseName] at h
  | cons b l =>
    rw [parseName] at h
    split at h
    · rename_i hb
      cases h
      refine ⟨by rw [List.cons_append, List.takeWhile_append_dropWhile], nameStart_of hb, fun c hc => nameByte_of (mem_takeWhile hc)⟩
    · cases h

/-! ## Values -/

theorem value_noNul (ent : Bool) (v : Str) : NoNul (value ent v) := by
  intro b hb
  have := mem_takeWhile hb
  simpa using this

theorem utf8_length (n : Nat) : (utf8 n).length ≤ 4 ∧ (n = 0 → (utf8 n).length = 1) := by
  unfold utf8
  simp only
  constructor
  · split
    · simp
    split
    · simp
    split
    · simp
    split
    · simp
    · simp
  · rintro rfl
    simp

theorem charRef_length {l v r : Str} (h : charRef l = some (v, r)) : v.length + r.length ≤ l.length + 2 := by
  unfold charRef at h
  split at h
  · cases h
  · rename_i b l'
    split at h
    · split at h
      · cases h
      · rename_i v' r' e
        have hl := parseText_length e
        cases hn : refNum true (v'.reverse.takeWhile (· ≠ 120)) 1 0 with
        | none => rw [hn] at h; cases h
        | some n =>
          rw [hn] at h
          cases h
          have := (utf8_length n).1
          simp at hl ⊢
          omega
    · split at h
      · cases h
      · rename_i v' r' e
        have hl := parseText_length e
        cases hn : refNum false (v'.reverse.takeWhile (· ≠ 35)) 1 0 with
        | none => rw [hn] at h; cases h
        | some n =>
          rw [hn] at h
          cases h
          have h4 := (utf8_length n).1
          cases v' with
          | nil =>
            have : n = 0 := by simp [refNum] at hn; exact hn.symm
            have := (utf8_length n).2 this
            simp at hl ⊢
            omega
          | cons c v' =>
            simp at hl ⊢
            omega

theorem entity_length {l r : Str} {c : UInt8} (h : entity l = some (c, r)) : r.length + 1 ≤ l.length := by
  unfold entity at h
  split at h
  · rename_i e; cases h; have := strip_length e; simp [lit] at this; omega
  split at h
  · rename_i e; cases h; have := strip_length e; simp [lit] at this; omega
  split at h
  · rename_i e; cases h; have := strip_length e; simp [lit] at this; omega
  split at h
  · rename_i e; cases h; have := strip_length e; simp [lit] at this; omega
  split at h
  · rename_i e; cases h; have := strip_length e; simp [lit] at this; omega
  · cases h

theorem cook_length (ent : Bool) (orig : Str) : ∀ (f : Nat) (out l : Str), (cook ent orig f out l).length ≤ out.length + l.length := by
  intro f
  induction f with
  | zero => intro out l; cases l <;> simp [cook]
  | succ f ih =>
    intro out l
    cases l with
    | nil => simp [cook]
    | cons b l =>
      unfold cook
      split
      · split
        · next l' => have := ih (out ++ [10]) l'; simp at this ⊢; omega
        · have := ih (out ++ [10]) l; simp at this ⊢; omega
      split
      · split
        · next l' => have := ih (out ++ [10]) l'; simp at this ⊢; omega
        · have := ih (out ++ [10]) l; simp at this ⊢; omega
      split
      · split
        · next l' =>
          split
          · have := ih out (35 :: l'); simp at this ⊢; omega
          · split
            · have := ih (out ++ [38]) (35 :: l'); simp at this ⊢; omega
            · rename_i v r e
              have h1 := charRef_length e
              have := ih (out ++ v) r; simp at this ⊢; omega
        · split
          · rename_i c r e
            have h1 := entity_length e
            have := ih (out ++ [c]) r; simp at this ⊢; omega
          · have := ih (out ++ [orig.getD out.length 0]) l; simp at this ⊢; omega
      · have := ih (out ++ [b]) l; simp at this ⊢; omega

theorem value_length (ent : Bool) (v : Str) : (value ent v).length ≤ v.length := by
  have h1 : (value ent v).length ≤ (cook ent v v.length [] v).length := (List.takeWhile_prefix _).length_le
  have h2 := cook_length ent v v.length [] v
  simp at h2
  omega

theorem cook_norm (orig : Str) : ∀ (f : Nat) (out l : Str), l.length ≤ f → cook false orig f out l = out ++ newlines l := by
  intro f
  induction f with
  | zero =>
    intro out l hl
    have : l = [] := List.length_eq_zero_iff.1 (by omega)
    subst this
    simp [cook, newlines]
  | succ f ih =>
    intro out l hl
    cases l with
    | nil => simp [cook, newlines]
    | cons b l =>
      unfold cook
      simp only [List.length_cons] at hl
      split
      · rename_i hb
        subst hb
        split
        · rw [ih _ _ (by simp at hl; omega), newlines]; simp
        · rename_i hne
          rw [ih _ _ (by omega)]
          have : newlines (13 :: l) = 10 :: newlines l := by
            cases l with
            | nil => simp [newlines]
            | cons c l =>
              by_cases hc : c = 10
              · exact absurd (by rw [hc]) (hne l)
              · rw [newlines]; simpa using hc
          rw [this]; simp
      · rename_i hb
        split
        · rename_i hb'
          subst hb'
          split
          · rw [ih _ _ (by simp at hl; omega), newlines]; simp
          · rename_i hne
            rw [ih _ _ (by omega)]
            have : newlines (10 :: l) = 10 :: newlines l := by
              cases l with
              | nil => simp [newlines]
              | cons c l =>
                by_cases hc : c = 13
                · exact absurd (by rw [hc]) (hne l)
                · rw [newlines] <;> simp <;> exact hc
            rw [this]; simp
        · rename_i hb'
          rw [if_neg (by simp), ih _ _ (by omega)]
          have : newlines (b :: l) = b :: newlines l := by rw [newlines] <;> simp [hb, hb']
          rw [this]; simp

theorem norm_clean : ∀ (v : Str), NoNul v → Clean (newlines v) := by
  intro v
  fun_induction newlines v with
  | case1 l ih => intro h b hb; rcases List.mem_cons.1 hb with rfl | hb; decide; exact ih (fun x hx => h x (by simp [hx])) b hb
  | case2 l _ ih => intro h b hb; rcases List.mem_cons.1 hb with rfl | hb; decide; exact ih (fun x hx => h x (by simp [hx])) b hb
  | case3 l ih => intro h b hb; rcases List.mem_cons.1 hb with rfl | hb; decide; exact ih (fun x hx => h x (by simp [hx])) b hb
  | case4 c l _ h2 _ ih =>
    intro h b hb
    rcases List.mem_cons.1 hb with rfl | hb
    · exact ⟨h b (by simp), h2⟩
    · exact ih (fun x hx => h x (by simp [hx])) b hb
  | case5 => intro _ b hb; cases hb

theorem norm_prefix {k : Str} (hk : (10 : UInt8) ∉ k ∧ (13 : UInt8) ∉ k) : ∀ {v : Str}, k <+: newlines v → k <+: v := by
  induction k with
  | nil => intro v _; exact List.nil_prefix
  | cons a k ih =>
    intro v h
    have hk' := @ih ⟨fun hh => hk.1 (by simp [hh]), fun hh => hk.2 (by simp [hh])⟩
    have ha : a ≠ 10 := fun e => hk.1 (by simp [e])
    revert h
    fun_cases newlines v with
    | case1 l => intro h; exact absurd (List.cons_prefix_cons.1 h).1 ha
    | case2 l _ => intro h; exact absurd (List.cons_prefix_cons.1 h).1 ha
    | case3 l => intro h; exact absurd (List.cons_prefix_cons.1 h).1 ha
    | case4 c l =>
      intro h
      obtain ⟨rfl, h'⟩ := List.cons_prefix_cons.1 h
      exact List.cons_prefix_cons.2 ⟨rfl, hk' h'⟩
    | case5 => exact id

theorem norm_infix {k : Str} (hk : (10 : UInt8) ∉ k ∧ (13 : UInt8) ∉ k) : ∀ (v : Str), k <:+: newlines v → k <:+: v := by
  intro v
  have pre : ∀ v, k <+: newlines v → k <:+: v := fun v h => (norm_prefix hk h).isInfix
  fun_induction newlines v with
  | case1 l ih =>
    intro h
    rcases List.infix_cons_iff.1 h with h | h
    · exact pre (13 :: 10 :: l) (by rwa [newlines])
    · exact (ih h).trans ⟨[13, 10], [], by simp⟩
  | case2 l hl ih =>
    intro h
    rcases List.infix_cons_iff.1 h with h | h
    · exact pre (13 :: l) (by rwa [newlines]; exact hl)
    · exact (ih h).trans ⟨[13], [], by simp⟩
  | case3 l ih =>
    intro h
    rcases List.infix_cons_iff.1 h with h | h
    · exact pre (10 :: 13 :: l) (by rwa [newlines])
    · exact (ih h).trans ⟨[10, 13], [], by simp⟩
  | case4 c l h1 h2 h3 ih =>
    intro h
    rcases List.infix_cons_iff.1 h with h | h
    · exact pre (c :: l) (by rw [newlines] <;> assumption)
    · exact (ih h).trans ⟨[c], [], by simp⟩
  | case5 => exact id

theorem value_norm {v : Str} (h : NoNul v) : value false v = newlines v := by
  rw [value, cook_norm v _ [] v (Nat.le_refl _), List.nil_append, cstr_plain fun b hb => (norm_clean v h b hb).1]

/-! ## Tags -/

theorem parseAttr_some {p : Str} {a : Str × Str} {r : Str} (h : parseAttr p = some (a, r)) : r <:+ p ∧ IsName a.1 ∧ ∃ v, a.2 = value true v ∧ v.length ≤ p.length := by
  unfold parseAttr at h
  split at h
  · cases h
  · rename_i n q e
    obtain ⟨rfl, hn⟩ := parseName_some e
    split at h
    · rename_i q2 e2
      have h2 : (61 :: q2) <:+ q := e2 ▸ skipSpace_suffix q
      split at h
      · rename_i c q3 e3
        have h3 : (c :: q3) <:+ q2 := e3 ▸ skipSpace_suffix q2
        split at h
        · split at h
          · rename_i v r' e4
            cases h
            have hl := parseText_length e4
            obtain ⟨rfl, -⟩ := parseText_some (by simp) e4
            have hs : (v ++ ([c] ++ r)) <:+ q := ((List.suffix_cons _ _).trans h3).trans ((List.suffix_cons _ _).trans h2)
            refine ⟨?_, hn, v, rfl, ?_⟩
            · exact ((List.suffix_append [c] r).trans (List.suffix_append v _)).trans (hs.trans (List.suffix_append n q))
            · have := hs.length_le
              simp at this ⊢
              omega
          · cases h
        · cases h
      · cases h
    · cases h

/-- attributes as the reader reads them -/
def ReadAttrs (as : List (Str × Str)) : Prop :=
  (∀ a ∈ as, IsName a.1 ∧ ∃ v, a.2 = value true v ∧ v.length ≤ 2147483647) ∧ (as.map (·.1)).Nodup

theorem parseAttrs_some : ∀ (f : Nat) {as : List (Str × Str)} {p : Str} {bs : List (Str × Str)} {c : Bool} {r : Str}, p.length ≤ 2147483647 → ReadAttrs as →
    parseAttrs f as p = .ok (bs, c, r) → r <:+ p ∧ ReadAttrs bs := by
  intro f
  induction f with
  | zero => intro as p bs c r _ _ h; cases h
  | succ f ih =>
    intro as p bs c r hp ha h
    rw [parseAttrs] at h
    have h1 := skipSpace_suffix p
    split at h
    · cases h
    · rename_i b l e
      rw [e] at h1
      have hl := h1.length_le
      split at h
      · split at h
        · cases h
        · rename_i a r' e2
          split at h
          · cases h
          · rename_i hnew
            obtain ⟨g1, g2, v, g3, g4⟩ := parseAttr_some e2
            have := ih (by have := g1.length_le; omega) ?_ h
            · exact ⟨this.1.trans (g1.trans h1), this.2⟩
            · refine ⟨fun x hx => ?_, ?_⟩
              · rcases List.mem_append.1 hx with hx | hx
                · exact ha.1 x hx
                · rw [List.mem_singleton.1 hx]
                  exact ⟨g2, v, g3, by omega⟩
              · rw [List.map_append, List.map_singleton, List.nodup_append]
                refine ⟨ha.2, by simp, ?_⟩
                intro x hx y hy
                rw [List.mem_singleton.1 hy]
                rintro rfl
                obtain ⟨z, hz, ez⟩ := List.mem_map.1 hx
                exact hnew (List.any_eq_true.2 ⟨z, hz, by simpa using ez⟩)
      · split at h
        · cases h
          exact ⟨(List.suffix_cons _ _).trans h1, ha⟩
        · split at h
          · split at h
            · cases h
              exact ⟨((List.suffix_cons _ _).trans (List.suffix_cons _ _)).trans h1, ha⟩
            · cases h
          · cases h

theorem parseTag_some {p n : Str} {as : List (Str × Str)} {c : Closing} {r : Str} (hp : p.length ≤ 2147483647) (h : parseTag p = .ok (n, as, c, r)) :
    r <:+ p ∧ IsName n ∧ ReadAttrs as := by
  unfold parseTag at h
  simp only at h
  have h1 := skipSpace_suffix p
  have h2 : ((strip [47] (skipSpace p)).getD (skipSpace p)) <:+ skipSpace p := by
    cases e : strip [47] (skipSpace p) with
    | none => simp
    | some q => exact strip_suffix e
  split at h
  · cases h
  · rename_i n' q e
    obtain ⟨e1, hn⟩ := parseName_some e
    have hq : q <:+ p := ((List.suffix_append n' q).trans (e1 ▸ h2)).trans h1
    split at h
    · cases h
    · rename_i as' sl r' e2
      cases h
      have := parseAttrs_some _ (by have := hq.length_le; omega) ⟨fun a ha => (by cases ha), by simp⟩ e2
      exact ⟨this.1.trans hq, hn, this.2⟩

/-! ## Nodes -/

theorem identify_some {p q : Str} {k : Kind} (h : identify p = some (k, q)) :
    q <:+ p ∧ (k = .unknown → ¬ lit "--" <+: q ∧ ¬ lit "[CDATA[" <+: q) ∧ (k = .text → q = p) := by
  unfold identify at h
  simp only at h
  have h1 := skipSpace_suffix p
  split at h
  · cases h
  split at h
  · rename_i e; cases h; exact ⟨(strip_suffix e).trans h1, (fun h => by cases h), (fun h => by cases h)⟩
  split at h
  · rename_i e; cases h; exact ⟨(strip_suffix e).trans h1, (fun h => by cases h), (fun h => by cases h)⟩
  split at h
  · rename_i e; cases h; exact ⟨(strip_suffix e).trans h1, (fun h => by cases h), (fun h => by cases h)⟩
  split at h
  · rename_i e2 _ e3 _ _ e
    cases h
    refine ⟨(strip_suffix e).trans h1, fun _ => ?_, fun h => by cases h⟩
    have := strip_some e
    constructor
    · rintro ⟨t, rfl⟩
      exact strip_none e2 ⟨t, this.symm⟩
    · rintro ⟨t, rfl⟩
      exact strip_none e3 ⟨t, this.symm⟩
  split at h
  · rename_i e; cases h; exact ⟨(strip_suffix e).trans h1, (fun h => by cases h), (fun h => by cases h)⟩
  · cases h; exact ⟨List.suffix_refl _, (fun h => by cases h), fun _ => rfl⟩

/-- no two texts next to each other -/
def Joined : List Node → Prop
  | [] => True
  | x :: l => textsMeet x l = false ∧ Joined l

theorem joined_snoc {l : List Node} {x : Node} (h : Joined l) (hx : isText x = false ∨ ∀ y ∈ l.getLast?, isText y = false) : Joined (l ++ [x]) := by
  induction l with
  | nil => exact ⟨rfl, trivial⟩
  | cons y l ih =>
    cases l with
    | nil =>
      refine ⟨?_, rfl, trivial⟩
      show (isText y && isText x) = false
      rw [Bool.and_eq_false_iff]
      rcases hx with hx | hx
      · exact .inr hx
      · exact .inl (hx y (by simp))
    | cons z l =>
      refine ⟨h.1, ih h.2 (hx.imp_right fun hh w hw => hh w ?_)⟩
      simpa using hw

/-- a declaration that can be written -/
def GoodDecl (x : Node) : Prop := ∃ v, x = .decl v ∧ Clean v ∧ ¬ lit "?>" <:+: v

mutual

/-- what the reader can read: as `Printable`, but carriage returns and texts of white space are possible -/
def Loose : Node → Prop
  | .elem n as cs => IsName n ∧ (∀ a ∈ as, IsName a.1 ∧ Fit a.2) ∧ (as.map (·.1)).Nodup ∧ LooseAll cs
  | .text false v => Fit v
  | .text true v => Clean v ∧ ¬ lit "]]>" <:+: v
  | .comment v => Clean v ∧ ¬ lit "-->" <:+: v
  | .decl _ => False
  | .unknown v => Clean v ∧ ¬ lit ">" <:+: v ∧ ¬ lit "--" <+: v ∧ ¬ lit "[CDATA[" <+: v

/-- the same for nodes one after the other -/
def LooseAll : List Node → Prop
  | [] => True
  | x :: l => Loose x ∧ textsMeet x l = false ∧ LooseAll l

end

theorem fit_sendable {v : Str} (h : Fit v) (h13 : (13 : UInt8) ∉ v) : Sendable v := ⟨fun b hb => ⟨h.1 b hb, fun e => h13 (e ▸ hb)⟩, h.2⟩

mutual

theorem loose_printable : (x : Node) → Loose x → Tame x → Printable x
  | .elem n as cs => by
    rw [Loose, Tame, Printable]
    rintro ⟨h1, h2, h3, h4⟩ ⟨t1, t2⟩
    exact ⟨h1, fun a ha => ⟨(h2 a ha).1, fit_sendable (h2 a ha).2 (t1 a ha)⟩, h3, looseAll_printable cs h4 t2⟩
  | .text false v => by
    rw [Loose, Tame, Printable]
    exact fun h t => ⟨fit_sendable h t.1, t.2⟩
  | .text true v => by rw [Loose, Printable]; exact fun h _ => h
  | .comment v => by rw [Loose, Printable]; exact fun h _ => h
  | .decl v => by rw [Loose]; exact fun h => h.elim
  | .unknown v => by rw [Loose, Printable]; exact fun h _ => h

theorem looseAll_printable : (l : List Node) → LooseAll l → TameAll l → PrintableAll l
  | [] => by rw [PrintableAll]; exact fun _ _ => trivial
  | x :: l => by
    rw [LooseAll, TameAll, PrintableAll]
    exact fun h t => ⟨loose_printable x h.1 t.1, h.2.1, looseAll_printable l h.2.2 t.2⟩

end

/-- children that can be read -/
def Good (doc : Bool) (cs : List Node) : Prop := ∃ ds ns, cs = ds ++ ns ∧ (∀ x ∈ ds, GoodDecl x) ∧ (doc = false → ds = []) ∧
  (∀ x ∈ ns, x.isDecl = false ∧ Loose x) ∧ Joined ns

/-- behind a text comes `<` -/
def Behind (cs : List Node) (p : Str) : Prop := (∃ x ∈ cs.getLast?, isText x = true) → ∃ q, p = 60 :: q

theorem good_snoc {doc : Bool} {cs : List Node} {x : Node} (h : Good doc cs) (hd : x.isDecl = false) (hk : Loose x)
    (hx : isText x = false ∨ ∀ y ∈ cs.getLast?, isText y = false) : Good doc (cs ++ [x]) := by
  obtain ⟨ds, ns, rfl, h1, h2, h3, h4⟩ := h
  refine ⟨ds, ns ++ [x], by simp, h1, h2, fun y hy => ?_, joined_snoc h4 (hx.imp_right fun hh y hy => hh y ?_)⟩
  · rcases List.mem_append.1 hy with hy | hy
    · exact h3 y hy
    · rw [List.mem_singleton.1 hy]; exact ⟨hd, hk⟩
  · cases ns with
    | nil => cases hy
    | cons z ns => rw [List.getLast?_append]; simp at hy ⊢; exact hy

theorem good_decl {doc : Bool} {cs : List Node} {x : Node} (h : Good doc cs) (hd : doc = true) (ha : cs.all Node.isDecl = true) (hx : GoodDecl x) : Good doc (cs ++ [x]) := by
  obtain ⟨ds, ns, rfl, h1, h2, h3, h4⟩ := h
  have : ns = [] := by
    cases ns with
    | nil => rfl
    | cons z ns =>
      have a := List.all_eq_true.1 ha z (by simp)
      rw [(h3 z (by simp)).1] at a
      cases a
  subst this
  refine ⟨ds ++ [x], [], by simp, fun y hy => ?_, (fun h => by rw [hd] at h; cases h), (fun y hy => nomatch hy), trivial⟩
  rcases List.mem_append.1 hy with hy | hy
  · exact h1 y hy
  · rw [List.mem_singleton.1 hy]; exact hx

theorem loose_of {l : List Node} (h : ∀ x ∈ l, x.isDecl = false ∧ Loose x) (hj : Joined l) : LooseAll l := by
  induction l with
  | nil => rw [LooseAll]; trivial
  | cons x l ih =>
    rw [LooseAll]
    exact ⟨(h x (by simp)).2, hj.1, ih (fun y hy => h y (by simp [hy])) hj.2⟩

/-- what is proved about the end of the children -/
def EndGood (doc : Bool) : Ended → Prop
  | .atEnd r => Good doc r
  | .byTag r _ q => Good doc r ∧ Fit q
  | .failed _ => True

theorem behind_snoc {cs : List Node} {x : Node} {p : Str} (h : isText x = false) : Behind (cs ++ [x]) p := by
  rintro ⟨y, hy, hh⟩
  simp at hy
  rw [← hy, h] at hh
  cases hh

theorem good_elem {n : Str} {as : List (Str × Str)} {ks : List Node} (hn : IsName n) (ha : ReadAttrs as) (hk : Good false ks) : Loose (.elem n as ks) := by
  rw [Loose]
  refine ⟨hn, fun a h => ?_, ha.2, ?_⟩
  · obtain ⟨h1, v, h2, h3⟩ := ha.1 a h
    rw [h2]
    exact ⟨h1, value_noNul true v, (value_length true v).trans h3⟩
  · obtain ⟨ds, ns, rfl, g1, g2, g3, g4⟩ := hk
    rw [g2 rfl]
    exact loose_of g3 g4

theorem good_nil (doc : Bool) : Good doc [] := ⟨[], [], rfl, fun _ h => (by cases h), fun _ => rfl, fun _ h => (by cases h), trivial⟩

theorem nodes_good : ∀ (f : Nat) (doc : Bool) (cs : List Node) (p : Str), Fit p → Good doc cs → Behind cs p → EndGood doc (parseNodes f doc cs p) := by
  intro f
  induction f with
  | zero => intro doc cs p _ hc _; exact hc
  | succ f ih =>
    intro doc cs p hp hc hb
    rw [parseNodes]
    cases hi : identify p with
    | none => exact hc
    | some x =>
      obtain ⟨k, q⟩ := x
      obtain ⟨h1, h2, h3⟩ := identify_some hi
      have hq := hp.part h1.isInfix
      cases k with
      | comment =>
        simp only
        cases e : parseText (lit "-->") q with
        | none => trivial
        | some y =>
          obtain ⟨v, r⟩ := y
          obtain ⟨rfl, hv⟩ := parseText_some (by simp [lit]) e
          have fv : Fit v := hq.part ⟨[], _, rfl⟩
          refine ih _ _ _ (hq.part ⟨v ++ lit "-->", [], by simp⟩) (good_snoc hc rfl ?_ (.inl rfl)) (behind_snoc rfl)
          rw [Loose, value_norm fv.1]
          exact ⟨norm_clean v fv.1, fun h => hv (norm_infix (by decide) v h)⟩
      | decl =>
        simp only
        cases e : parseText (lit "?>") q with
        | none => trivial
        | some y =>
          obtain ⟨v, r⟩ := y
          obtain ⟨rfl, hv⟩ := parseText_some (by simp [lit]) e
          have fv : Fit v := hq.part ⟨[], _, rfl⟩
          simp only
          split
          · rename_i hd
            rw [Bool.and_eq_true] at hd
            refine ih _ _ _ (hq.part ⟨v ++ lit "?>", [], by simp⟩) (good_decl hc hd.1 hd.2 ⟨_, rfl, ?_⟩) (behind_snoc rfl)
            rw [value_norm fv.1]
            exact ⟨norm_clean v fv.1, fun h => hv (norm_infix (by decide) v h)⟩
          · trivial
      | cdata =>
        simp only
        cases e : parseText (lit "]]>") q with
        | none => trivial
        | some y =>
          obtain ⟨v, r⟩ := y
          obtain ⟨rfl, hv⟩ := parseText_some (by simp [lit]) e
          have fv : Fit v := hq.part ⟨[], _, rfl⟩
          refine ih _ _ _ (hq.part ⟨v ++ lit "]]>", [], by simp⟩) (good_snoc hc rfl ?_ (.inl rfl)) (behind_snoc rfl)
          rw [Loose, value_norm fv.1]
          exact ⟨norm_clean v fv.1, fun h => hv (norm_infix (by decide) v h)⟩
      | unknown =>
        simp only
        cases e : parseText (lit ">") q with
        | none => trivial
        | some y =>
          obtain ⟨v, r⟩ := y
          obtain ⟨rfl, hv⟩ := parseText_some (by simp [lit]) e
          have fv : Fit v := hq.part ⟨[], _, rfl⟩
          refine ih _ _ _ (hq.part ⟨v ++ lit ">", [], by simp⟩) (good_snoc hc rfl ?_ (.inl rfl)) (behind_snoc rfl)
          rw [Loose, value_norm fv.1]
          exact ⟨norm_clean v fv.1, fun h => hv (norm_infix (by decide) v h), fun h => (h2 rfl).1 ((norm_prefix (by decide) h).trans ⟨_, rfl⟩),
            fun h => (h2 rfl).2 ((norm_prefix (by decide) h).trans ⟨_, rfl⟩)⟩
      | text =>
        simp only
        have hne := ((identify_length hi).resolve_left fun h => h.1 rfl).2.2
        cases e : parseText (lit "<") q with
        | none => trivial
        | some y =>
          obtain ⟨v, r⟩ := y
          simp only
          split
          · trivial
          · obtain ⟨rfl, hv⟩ := parseText_some (by simp [lit]) e
            have fv : Fit v := hq.part ⟨[], _, rfl⟩
            refine ih _ _ _ (hq.part ⟨v, [], by simp [lit]⟩) (good_snoc hc rfl ?_ (.inr fun y hy => ?_)) fun _ => ⟨r, rfl⟩
            · rw [Loose]
              exact ⟨value_noNul true v, (value_length true v).trans fv.2⟩
            · cases ht : isText y with
              | false => rfl
              | true =>
                obtain ⟨l, hl⟩ := hb ⟨y, hy, ht⟩
                exact absurd hl (hne l)
      | elem =>
        simp only
        cases e : parseTag q with
        | error e => trivial
        | ok y =>
          obtain ⟨n, as, c, r⟩ := y
          obtain ⟨g1, g2, g3⟩ := parseTag_some hq.2 e
          have hr := hq.part g1.isInfix
          cases c with
          | closing => exact ⟨hc, hr⟩
          | closed => exact ih _ _ _ hr (good_snoc hc rfl (good_elem g2 g3 (good_nil _)) (.inl rfl)) (behind_snoc rfl)
          | opened =>
            simp only
            split
            · trivial
            · have hin := ih false [] r hr (good_nil _) (by rintro ⟨x, hx, -⟩; cases hx)
              cases e2 : parseNodes f false [] r with
              | failed e => trivial
              | atEnd c => trivial
              | byTag ks m r' =>
                rw [e2] at hin
                simp only
                split
                · exact ih _ _ _ hin.2 (good_snoc hc rfl (good_elem g2 g3 hin.1) (.inl rfl)) (behind_snoc rfl)
                · trivial

theorem parse_good {c : Str} {l : List Node} (hc : c.length ≤ 2147483647) (h : parse c = .ok l) : Good true l := by
  unfold parse at h
  simp only at h
  have f1 : Fit (cstr c) := ⟨fun b hb => by simpa using mem_takeWhile hb, (List.takeWhile_prefix _).length_le.trans hc⟩
  have f2 := f1.part (skipSpace_suffix _).isInfix
  have f3 : Fit ((strip [239, 187, 191] (skipSpace (cstr c))).getD (skipSpace (cstr c))) := by
    cases e : strip [239, 187, 191] (skipSpace (cstr c)) with
    | none => exact f2
    | some r => exact f2.part (strip_suffix e).isInfix
  split at h
  · cases h
  · have := nodes_good (List.length ((strip [239, 187, 191] (skipSpace (cstr c))).getD (skipSpace (cstr c)))) true [] _ f3 (good_nil _) (by rintro ⟨x, hx, -⟩; cases hx)
    revert h this
    generalize parseNodes _ true [] _ = e
    cases e with
    | atEnd cs => intro h g; cases h; exact g
    | byTag cs _ _ => intro h g; cases h; exact g.1
    | failed _ => intro h; cases h

theorem good_printable {l : List Node} (h : Good true l) (ht : TameAll l) (hx : ∀ x ∈ l, isText x = false) (h0 : l ≠ []) : PrintableDoc l := by
  obtain ⟨ds, ns, rfl, h1, -, h3, h4⟩ := h
  refine ⟨h0, ds, ns, rfl, h1, looseAll_printable ns (loose_of h3 h4) ?_, fun x h => hx x (by simp [h])⟩
  clear h0 h1 h3 h4 hx
  induction ds with
  | nil => exact ht
  | cons x ds ih => rw [List.cons_append, TameAll] at ht; exact ih ht.2

theorem printableDoc_texts {l : List Node} (h : PrintableDoc l) : ∀ x ∈ l, isText x = false := by
  intro x hx
  obtain ⟨ds, ns, rfl, hd, -, hn⟩ := h.parts
  rcases List.mem_append.1 hx with hx | hx
  · obtain ⟨v, rfl, -⟩ := hd x hx; rfl
  · exact hn x hx

theorem starts_node {bom : Bool} {l : List Node} {t : Str} (h : ∀ x ∈ l, isText x = false) : Starts bom l t := by
  rintro - ⟨x, hx, ht⟩
  rw [h x (List.mem_of_head? hx)] at ht
  cases ht

/-! ## Indentation -/

mutual

theorem indent_zero (d : Nat) : (x : Node) → indent 0 d x = x
  | .elem n as cs => by rw [indent, indentAll_zero (d + 1) cs]
  | .text c v => by rw [indent]
  | .comment v => by rw [indent]
  | .decl v => by rw [indent]
  | .unknown v => by rw [indent]

theorem indentAll_zero (d : Nat) : (l : List Node) → indentAll 0 d l = l
  | [] => by rw [indentAll]
  | x :: l => by
    rw [indentAll, indentAll_zero d l, indent_zero d x]
    have : padding 0 d l = [] := by
      cases l with
      | nil => rfl
      | cons y l => simp [padding]
    rw [this]
    cases x with
    | text c v => cases c <;> simp [padText]
    | _ => simp [padText]

end

theorem padText_same {k d : Nat} (hk : k ≠ 0) (hd : d ≠ 0) {x : Node} {l : List Node} : padText (padding k d l) x = x ↔ textElem x l = false := by
  cases l with
  | nil => cases x with
    | text c v => cases c <;> simp [padText, padding, textElem]
    | _ => simp [padText, padding, textElem]
  | cons y l =>
    cases x with
    | text c v => cases c <;> cases hy : isElem y <;> simp [padText, padding, textElem, isText, hy, hk, hd]
    | _ => simp [padText, padding, textElem, isText]

mutual

theorem indent_same {k : Nat} (hk : k ≠ 0) (d : Nat) : (x : Node) → (indent k d x = x ↔ Apart x)
  | .elem n as cs => by rw [indent, Apart, ← indentAll_same hk (d + 1) (by omega) cs]; simp
  | .text c v => by rw [indent]; exact ⟨fun _ => by rw [Apart]; trivial; rintro _ _ _ ⟨⟩, fun _ => rfl⟩
  | .comment v => by rw [indent]; exact ⟨fun _ => by rw [Apart]; trivial; rintro _ _ _ ⟨⟩, fun _ => rfl⟩
  | .decl v => by rw [indent]; exact ⟨fun _ => by rw [Apart]; trivial; rintro _ _ _ ⟨⟩, fun _ => rfl⟩
  | .unknown v => by rw [indent]; exact ⟨fun _ => by rw [Apart]; trivial; rintro _ _ _ ⟨⟩, fun _ => rfl⟩

theorem indentAll_same {k : Nat} (hk : k ≠ 0) (d : Nat) (hd : d ≠ 0) : (l : List Node) → (indentAll k d l = l ↔ ApartAll l)
  | [] => by rw [indentAll, ApartAll]; simp
  | x :: l => by
    rw [indentAll, ApartAll, List.cons.injEq, indentAll_same hk d hd l, ← indent_same hk d x, ← and_assoc]
    refine and_congr_left fun _ => ?_
    constructor
    · intro h
      have h1 : indent k d x = x := by
        cases x with
        | elem n as cs => rw [indent, padText] at h; rw [indent]; exact h; simp
        | _ => rw [indent]
      rw [h1] at h
      exact ⟨h1, (padText_same hk hd).1 h⟩
    · rintro ⟨h1, h2⟩
      rw [h1]
      exact (padText_same hk hd).2 h2

end

theorem indentAll_top {k : Nat} (hk : k ≠ 0) {l : List Node} (hx : ∀ x ∈ l, isText x = false) : indentAll k 0 l = l ↔ ApartAll l := by
  induction l with
  | nil => rw [indentAll, ApartAll]; simp
  | cons x l ih =>
    rw [indentAll, ApartAll, List.cons.injEq, ih fun y hy => hx y (by simp [hy]), ← indent_same hk 0 x, ← and_assoc]
    refine and_congr_left fun _ => ?_
    have h0 := hx x (by simp)
    have h1 : padText (padding k 0 l) (indent k 0 x) = indent k 0 x := by
      cases x with
      | text c v => cases c with
        | true => simp [indent, padText]
        | false => simp [isText] at h0
      | _ => simp [indent, padText]
    have h2 : textElem x l = false := by
      cases l <;> simp [textElem, h0]
    rw [h1]
    simp [h2]

end Verif.Xml
