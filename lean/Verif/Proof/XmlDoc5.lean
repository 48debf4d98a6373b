import Verif.Proof.XmlDoc4
/-!
# What is read from the text of a document printed compactly
-/
namespace Verif.Xml
open Tec Spec

/-! ## The last node -/

theorem ctextAll_append (l m : List Node) : ctextAll (l ++ m) = ctextAll l ++ ctextAll m := by
  induction l with
  | nil => rw [List.nil_append, ctextAll, List.nil_append]
  | cons x l ih => rw [List.cons_append, ctextAll, ctextAll, ih, List.append_assoc]

theorem settleAll_append (l m : List Node) : settleAll (l ++ m) = settleAll l ++ settleAll m := by
  induction l with
  | nil => rw [List.nil_append, settleAll, List.nil_append]
  | cons x l ih =>
    rw [List.cons_append, settleAll, settleAll, ih]
    split <;> simp

theorem loose_concat {l : List Node} {x : Node} (h : LooseAll (l ++ [x])) : LooseAll l ∧ Loose x ∧ (isText x = true → LastNode l) := by
  induction l with
  | nil =>
    rw [List.nil_append, LooseAll] at h
    rw [LooseAll]
    exact ⟨trivial, h.1, fun _ y hy => by cases hy⟩
  | cons y l ih =>
    rw [List.cons_append, LooseAll] at h
    obtain ⟨h1, h2, h3⟩ := h
    obtain ⟨g1, g2, g3⟩ := ih h3
    rw [LooseAll]
    refine ⟨⟨h1, ?_, g1⟩, g2, fun hx => ?_⟩
    · cases l with
      | nil => rfl
      | cons z l => exact h2
    · cases l with
      | nil =>
        intro z hz
        cases hz
        have : (isText y && isText x) = false := h2
        rwa [hx, Bool.and_true] at this
      | cons z l =>
        intro u hu
        exact g3 hx u (by simpa using hu)

theorem isText_settle (x : Node) : isText (settle x) = isText x := by
  cases x with
  | text c v => cases c <;> simp [settle, isText]
  | _ => simp [settle, isText]

theorem last_concat {l : List Node} {x : Node} : LastNode (l ++ [x]) ↔ isText x = false := by
  unfold LastNode
  simp

theorem last_settle {l : List Node} (h : LastNode l) : LastNode (settleAll l) := by
  rcases List.eq_nil_or_concat l with rfl | ⟨l, x, rfl⟩
  · rw [settleAll]; exact h
  · rw [List.concat_eq_append] at h ⊢
    have hx := last_concat.1 h
    rw [settleAll_append, settleAll, isBlank_node hx, settleAll]
    exact last_concat.2 ((isText_settle x).trans hx)

theorem last_cases {l : List Node} (h : LooseAll l) : LastNode (settleAll l) ∨
    ∃ m v, l = m ++ [.text false v] ∧ LooseAll m ∧ Fit v ∧ Visible v ∧ LastNode (settleAll m) := by
  rcases List.eq_nil_or_concat l with rfl | ⟨l, x, rfl⟩
  · exact .inl (by rw [settleAll]; intro x hx; cases hx)
  · rw [List.concat_eq_append] at h ⊢
    obtain ⟨h1, h2, h3⟩ := loose_concat h
    cases hx : isText x with
    | false => exact .inl (last_settle (last_concat.2 hx))
    | true =>
      replace h3 := h3 hx
      cases x with
      | text c v => cases c with
        | true => exact absurd hx (by simp [isText])
        | false =>
          rw [Loose] at h2
          by_cases hb : Blank v
          · left
            rw [settleAll_append, settleAll, if_pos (by simpa [isBlank] using hb), settleAll, List.append_nil]
            exact last_settle h3
          · exact .inr ⟨l, v, rfl, h1, h2, visible_of hb, last_settle h3⟩
      | _ => exact absurd hx (by simp [isText])

/-! ## Documents -/

/-- a document that the reader can read -/
def LooseDoc (l : List Node) : Prop := ∃ ds ns, l = ds ++ ns ∧ (∀ x ∈ ds, GoodDecl x) ∧ LooseAll ns

theorem good_loose {l : List Node} (h : Good true l) : LooseDoc l := by
  obtain ⟨ds, ns, rfl, h1, -, h3, h4⟩ := h
  exact ⟨ds, ns, rfl, h1, loose_of h3 h4⟩

theorem settle_decls {ds ns : List Node} (h : ∀ x ∈ ds, GoodDecl x) : settleAll (ds ++ ns) = ds ++ settleAll ns := by
  induction ds with
  | nil => rfl
  | cons x ds ih =>
    obtain ⟨v, rfl, -⟩ := h x (by simp)
    rw [List.cons_append, settleAll, ih fun y hy => h y (by simp [hy]), settle]
    rfl

theorem shows_doc {ds ns : List Node} (h : ∀ x ∈ ds, GoodDecl x) (hn : LooseAll ns) (hl : LastNode (settleAll ns)) : WritesDoc (ds ++ settleAll ns) (ctextAll (ds ++ ns)) := by
  induction ds with
  | nil => exact .nodes hl (showsAll ns hn false [] blank_none (fun h => nomatch h) (fun h => (h.elim (fun h => nomatch h) (fun h => (h rfl).elim))))
  | cons x ds ih =>
    obtain ⟨v, rfl, hc, he⟩ := h x (by simp)
    have := WritesDoc.decl (w := []) blank_none hc he (ih fun y hy => h y (by simp [hy]))
    rw [List.cons_append, List.cons_append, ctextAll, ctext]
    exact this

theorem reads_doc_then {l : List Node} {t : Str} (h : WritesDoc l t) : ∀ (f : Nat) (cs : List Node) (r : Str), cs.all Node.isDecl = true → (t ++ r).length ≤ f →
    ∃ w g, Blank w ∧ r.length ≤ g ∧ parseNodes f true cs (t ++ r) = parseNodes g true (cs ++ l) (w ++ r) := by
  induction h with
  | @nodes l t hn hl =>
    intro f cs r _ hf
    obtain ⟨w, hw, e⟩ := reads_writesAll hl f true cs r (.inr hn) hf
    have := writesAll_length hl
    exact ⟨w, _, hw, by simp at hf; omega, e⟩
  | @decl v l w t hw hc he _ ih =>
    intro f cs r hcs hf
    obtain ⟨f, rfl⟩ : ∃ g, f = g + 1 := ⟨f - 1, by simp [lit] at hf; omega⟩
    simp only [List.append_assoc] at hf ⊢
    rw [parseNodes, identify_decl' hw]
    simp only
    rw [show parseText (lit "?>") (v ++ (lit "?>" ++ (t ++ r))) = some (v, t ++ r) from parseText_mark (m := [63]) (by decide) he (t ++ r)]
    simp only
    rw [if_pos (by rw [hcs]; rfl), value_clean hc]
    obtain ⟨w', g, h1, h2, h3⟩ := ih f (cs ++ [Node.decl v]) r (by rw [List.all_append, hcs]; rfl) (by simp [lit] at hf; simp; omega)
    exact ⟨w', g, h1, h2, by rw [h3]; simp⟩

theorem parseText_absent {c : UInt8} {p : Str} (h : c ∉ p) : parseText [c] p = none := by
  induction p with
  | nil => rfl
  | cons b p ih =>
    rw [List.mem_cons, not_or] at h
    rw [parseText, strip_ne _ _ h.1, ih h.2]

theorem shown_plain {v : Str} (h : NoNul v) : ∀ b ∈ shown true v, b ≠ 0 ∧ b ≠ 60 := (escapes_clean (.inl rfl) (shown_escapes (.inr ⟨rfl, rfl⟩) h)).1

theorem shown_visible {v : Str} (h : NoNul v) (hv : Visible v) : Visible (shown true v) :=
  escapes_visible (shown_escapes (stop := 60) (.inr ⟨rfl, rfl⟩) h) (newlines_visible hv)

/-- the text of a document is read as what is left of the document, or not at all -/
theorem reads_loose {l : List Node} (h : LooseDoc l) : NoNul (ctextAll l) ∧
    (LastNode (settleAll l) ∧ parseNodes (ctextAll l).length true [] (ctextAll l) = .atEnd (settleAll l) ∨
      ¬ LastNode (settleAll l) ∧ ∃ e, parseNodes (ctextAll l).length true [] (ctextAll l) = .failed e) := by
  obtain ⟨ds, ns, rfl, h1, h2⟩ := h
  rw [settle_decls h1]
  rcases last_cases h2 with hl | ⟨m, v, rfl, g1, g2, g3, g4⟩
  · have hw := shows_doc h1 h2 hl
    refine ⟨writesDoc_noNul hw, .inl ⟨?_, reads_doc hw _ [] rfl (Nat.le_refl _)⟩⟩
    intro x hx
    cases e : settleAll ns with
    | nil =>
      rw [e, List.append_nil] at hx
      obtain ⟨v, rfl, -⟩ := h1 x (List.mem_of_getLast? hx)
      rfl
    | cons y l =>
      rw [e, List.getLast?_append] at hx
      refine hl x ?_
      rw [e]
      simpa using hx
  · have hw := shows_doc h1 g1 g4
    have hv := shown_plain g2.1
    have e1 : ctextAll (ds ++ (m ++ [.text false v])) = ctextAll (ds ++ m) ++ shown true v := by
      rw [← List.append_assoc, ctextAll_append, ctextAll, ctextAll, ctext_text g2, List.append_nil]
    rw [e1]
    refine ⟨noNul_append (writesDoc_noNul hw) fun b hb => (hv b hb).1, .inr ⟨?_, .parsingText, ?_⟩⟩
    · rw [settleAll_append, settleAll, if_neg (by
        obtain ⟨b, hb, hbw⟩ := g3
        simpa [isBlank] using fun hh : Blank v => hbw (hh b hb)), settleAll, settle, ← List.append_assoc, last_concat]
      simp [isText]
    obtain ⟨w, g, h3, h4, h5⟩ := reads_doc_then hw _ [] (shown true v) rfl (Nat.le_refl _)
    obtain ⟨b, hb, hbw⟩ := shown_visible g2.1 g3
    have hpos := List.length_pos_of_mem hb
    obtain ⟨g, rfl⟩ : ∃ k, g = k + 1 := ⟨g - 1, by omega⟩
    have h60 : ∀ b ∈ w ++ shown true v, b ≠ 60 := by
      intro b hb
      rcases List.mem_append.1 hb with hb | hb
      · rintro rfl; exact absurd (h3 60 hb) (by decide)
      · exact (hv b hb).2
    have hi := identify_visible h60 ⟨b, List.mem_append_right _ hb, hbw⟩ []
    rw [List.append_nil] at hi
    rw [h5, parseNodes, hi]
    simp only
    rw [show parseText (lit "<") (w ++ shown true v) = none from parseText_absent fun hh => h60 60 hh rfl]

/-! ## The start of a text -/

/-- the reader starts with the first byte -/
def HeadOk (t : Str) : Prop := (∀ b ∈ t.head?, ¬ White b) ∧ ¬ bomText true <+: t

theorem parse_headOk {t : Str} (hn : NoNul t) (bom : Bool) (h : bom = false → HeadOk t) : parse (bomText bom ++ t) =
    if t = [] then .error .emptyDocument else
      match parseNodes t.length true [] t with
      | .atEnd cs => .ok cs
      | .byTag cs _ _ => .ok cs
      | .failed e => .error e := by
  unfold parse
  simp only
  cases bom with
  | false =>
    obtain ⟨h1, h2⟩ := h rfl
    have hsk : skipSpace t = t := by
      cases t with
      | nil => rfl
      | cons b t =>
        refine skipSpace_cons ?_ t
        rw [← Bool.not_eq_true, isSpace_iff]
        exact h1 b rfl
    have hst : strip [239, 187, 191] t = none := by
      cases e : strip [239, 187, 191] t with
      | none => rfl
      | some r => exact (h2 ⟨r, (strip_some e).symm⟩).elim
    rw [show bomText false = [] from rfl, List.nil_append, cstr_plain hn, hsk, hst, Option.getD_none]
    rfl
  | true =>
    rw [cstr_plain (noNul_append (by unfold NoNul bomText; decide) hn),
      show skipSpace (bomText true ++ t) = [239, 187, 191] ++ t from skipSpace_cons (by decide) _, strip_append, Option.getD_some]
    rfl

/-- what is read from the text of a document -/
theorem parse_loose {l : List Node} (h : LooseDoc l) (bom : Bool) (hh : bom = false → HeadOk (ctextAll l)) (m : List Node) :
    parse (bomText bom ++ ctextAll l) = .ok m ↔ m = settleAll l ∧ LastNode (settleAll l) ∧ ctextAll l ≠ [] := by
  obtain ⟨h1, h2⟩ := reads_loose h
  rw [parse_headOk h1 bom hh]
  by_cases ht : ctextAll l = []
  · rw [if_pos ht]
    exact ⟨fun h => (by cases h), fun h => (h.2.2 ht).elim⟩
  · rw [if_neg ht]
    rcases h2 with ⟨h3, h4⟩ | ⟨h3, e, h4⟩
    · rw [h4]
      exact ⟨fun h => by cases h; exact ⟨rfl, h3, ht⟩, fun h => by rw [h.1]⟩
    · rw [h4]
      exact ⟨fun h => (by cases h), fun h => (h3 h.2.1).elim⟩

/-- a text at the start of a document: `shown` has a byte that is neither `&` nor `<` where the text has it -/
theorem prefix_shown {k : Str} (hk : ∀ b ∈ k, b ≠ 38 ∧ b ≠ 60 ∧ Printer.entityOf true b = none) {v r : Str} (hr : r = [] ∨ ∃ q, r = 60 :: q) :
    k <+: shown true v ++ r ↔ k <+: v := by
  induction k generalizing v with
  | nil => simp
  | cons a k ih =>
    have ha := hk a (by simp)
    have ih := @ih (fun b hb => hk b (by simp [hb]))
    cases v with
    | nil =>
      constructor
      · intro h
        rcases hr with rfl | ⟨q, rfl⟩
        · simp [shown] at h
        · simp only [shown, List.flatMap_nil, List.nil_append] at h
          exact absurd (List.cons_prefix_cons.1 h).1 ha.2.1
      · intro h
        exact absurd (List.prefix_nil.1 h) (by simp)
    | cons c v =>
      rw [shown_cons]
      cases e : Printer.entityOf true c with
      | none =>
        simp only [List.cons_append, List.nil_append, List.cons_prefix_cons]
        rw [ih]
      | some t =>
        have hne : a ≠ c := by rintro rfl; rw [ha.2.2] at e; cases e
        constructor
        · intro h
          simp only [lit, List.append_assoc] at h
          exact absurd (List.cons_prefix_cons.1 h).1 ha.1
        · intro h
          exact absurd (List.cons_prefix_cons.1 h).1 hne

theorem shown_append (v w : Str) : shown true (v ++ w) = shown true v ++ shown true w := by
  unfold shown; exact List.flatMap_append

theorem ctext_start {x : Node} (h : isText x = false) (hl : Loose x ∨ x.isDecl = true) : ∃ q, ctext x = 60 :: q := by
  cases x with
  | elem n as cs => rw [ctext]; simp only [List.append_assoc]; exact ⟨_, rfl⟩
  | text c v => cases c with
    | true => rw [ctext]; exact ⟨_, rfl⟩
    | false => simp [isText] at h
  | comment v => rw [ctext]; exact ⟨_, rfl⟩
  | decl v => rw [ctext]; exact ⟨_, rfl⟩
  | unknown v => rw [ctext]; exact ⟨_, rfl⟩

theorem headOk_lt (q : Str) : HeadOk (60 :: q) := by
  refine ⟨fun b hb => ?_, fun h => ?_⟩
  · cases hb; decide
  · exact absurd (List.cons_prefix_cons.1 h).1 (by decide)

theorem headOk_nil : HeadOk [] := ⟨fun b hb => (by cases hb), by decide⟩

theorem parse_white {b : UInt8} (h : White b) (c : Str) : parse (b :: c) = parse c := by
  have h0 : b ≠ 0 := by rintro rfl; exact absurd h (by decide)
  have e : skipSpace (cstr (b :: c)) = skipSpace (cstr c) := by
    rw [show cstr (b :: c) = [b] ++ cstr c by unfold cstr; rw [List.takeWhile_cons, if_pos (by simpa using h0)]; rfl]
    exact skipSpace_blank (fun x hx => by rw [List.mem_singleton.1 hx]; exact h) _
  unfold parse
  simp only
  rw [e]

/-- the start of the text of a document that starts with a text -/
theorem headOk_text {v : Str} (hv : Fit v) {r : Str} (hr : r = [] ∨ ∃ q, r = 60 :: q) :
    HeadOk (shown true v ++ r) ↔ (∀ b ∈ v.head?, ¬ White b) ∧ ¬ bomText true <+: v := by
  unfold HeadOk
  rw [prefix_shown (by unfold bomText; decide) hr]
  refine and_congr_left fun _ => ?_
  cases v with
  | nil =>
    simp only [shown, List.flatMap_nil, List.nil_append]
    constructor
    · intro _ b hb; cases hb
    · intro _ b hb
      rcases hr with rfl | ⟨q, rfl⟩
      · cases hb
      · cases hb; decide
  | cons c v =>
    rw [shown_cons]
    cases e : Printer.entityOf true c with
    | none => simp
    | some t =>
      obtain ⟨-, -, -, -, -, -, -, h'⟩ := table_cases (entity_table e)
      constructor
      · intro _ b hb
        cases hb
        exact h'
      · intro _ b hb
        simp only [lit, List.append_assoc] at hb
        cases hb
        decide

/-- a document that starts with a text, without a byte order mark: what is read has a text at its start that is shorter, if the reader does not start
with the first byte -/
theorem parse_text {rest : List Node} : ∀ (n : Nat) (v : Str), v.length = n → LooseAll (.text false v :: rest) → ∀ m,
    parse (ctextAll (.text false v :: rest)) = .ok m → ¬ HeadOk (ctextAll (.text false v :: rest)) → ∃ v', v'.length < v.length ∧ m = settleAll (.text false v' :: rest) := by
  intro n
  induction n with
  | zero =>
    intro v hv hl m _ hh
    exfalso
    have : v = [] := List.length_eq_zero_iff.1 hv
    subst this
    rw [LooseAll, Loose] at hl
    refine hh ?_
    rw [ctextAll, ctext_text hl.1, headOk_text hl.1]
    · exact ⟨fun b hb => (by cases hb), by decide⟩
    · cases rest with
      | nil => exact .inl (by rw [ctextAll])
      | cons y rest =>
        right
        have hy : isText y = false := by simpa [textsMeet, isText] using hl.2.1
        have h2 := hl.2.2
        rw [LooseAll] at h2
        obtain ⟨q, hq⟩ := ctext_start hy (.inl h2.1)
        exact ⟨q ++ ctextAll rest, by rw [ctextAll, hq]; rfl⟩
  | succ n ih =>
    intro v hv hl m hm hh
    have hl' := hl
    rw [LooseAll, Loose] at hl'
    obtain ⟨h1, h2, h3⟩ := hl'
    have hr : ctextAll rest = [] ∨ ∃ q, ctextAll rest = 60 :: q := by
      cases rest with
      | nil => exact .inl (by rw [ctextAll])
      | cons y rest =>
        right
        have hy : isText y = false := by simpa [textsMeet, isText] using h2
        rw [LooseAll] at h3
        obtain ⟨q, hq⟩ := ctext_start hy (.inl h3.1)
        exact ⟨q ++ ctextAll rest, by rw [ctextAll, hq]; rfl⟩
    have part : ∀ {p v'}, v = p ++ v' → LooseAll (.text false v' :: rest) := by
      intro p v' e
      rw [LooseAll, Loose]
      refine ⟨h1.part ⟨p, [], by rw [e]; simp⟩, ?_, h3⟩
      cases rest with
      | nil => rfl
      | cons y rest => exact h2
    have doc : ∀ {p v'}, v = p ++ v' → LooseDoc (.text false v' :: rest) := fun e => ⟨[], _, rfl, fun _ h => (by cases h), part e⟩
    rw [ctextAll, ctext_text h1, headOk_text h1 hr] at hh
    by_cases hw : ∀ b ∈ v.head?, ¬ White b
    · have hb : bomText true <+: v := Classical.byContradiction fun hb => hh ⟨hw, hb⟩
      obtain ⟨v', rfl⟩ := hb
      have hd := doc rfl
      have := (part rfl)
      rw [LooseAll, Loose] at this
      refine ⟨v', by simp [bomText]; omega, ?_⟩
      refine ((parse_loose hd true (fun h => nomatch h) m).1 ?_).1
      rw [ctextAll, ctext_text this.1, ← List.append_assoc, ← hm, ctextAll, ctext_text h1, shown_append]
      rfl
    · obtain ⟨b, v', rfl, hb⟩ : ∃ b v', v = b :: v' ∧ White b := by
        cases v with
        | nil => cases hv
        | cons b v =>
          refine ⟨b, v, rfl, Classical.byContradiction fun hb => hw ?_⟩
          intro c hc
          cases hc
          exact hb
      have hp := part (p := [b]) rfl
      have hp' := hp
      rw [LooseAll, Loose] at hp'
      have e : ctextAll (.text false (b :: v') :: rest) = b :: ctextAll (.text false v' :: rest) := by
        rw [ctextAll, ctextAll, ctext_text h1, ctext_text hp'.1, shown_white _ hb]
        rfl
      rw [e, parse_white hb] at hm
      by_cases hok : HeadOk (ctextAll (.text false v' :: rest))
      · exact ⟨v', by simp, ((parse_loose (doc (p := [b]) rfl) false (fun _ => hok) m).1 hm).1⟩
      · obtain ⟨u, hu, e⟩ := ih v' (by simpa using hv) hp m hm hok
        exact ⟨u, by simp; omega, e⟩

theorem newlines_noReturn (v : Str) : (13 : UInt8) ∉ newlines v := by
  fun_induction newlines v with
  | case1 l ih => simpa using ih
  | case2 l hl ih => simpa using ih
  | case3 l ih => simpa using ih
  | case4 b l h1 h2 h3 ih =>
    intro h
    rcases List.mem_cons.1 h with h | h
    · exact h2 h.symm
    · exact ih h
  | case5 => simp

/-! ## Documents that stay the same -/

mutual

theorem settle_tame : (x : Node) → Tame (settle x) ∨ isBlank x = true
  | .elem n as cs => by
    left
    rw [settle, Tame]
    refine ⟨fun a ha => ?_, settleAll_tame cs⟩
    obtain ⟨b, -, rfl⟩ := List.mem_map.1 ha
    exact newlines_noReturn b.2
  | .text false v => by
    by_cases hb : Blank v
    · exact .inr (by simpa [isBlank] using hb)
    · left
      rw [settle, Tame]
      exact ⟨newlines_noReturn v, newlines_visible (visible_of hb)⟩
  | .text true v => by left; rw [settle, Tame]; trivial; all_goals (intros; simp_all)
  | .comment v => by left; rw [settle, Tame]; trivial; all_goals (intros; simp_all)
  | .decl v => by left; rw [settle, Tame]; trivial; all_goals (intros; simp_all)
  | .unknown v => by left; rw [settle, Tame]; trivial; all_goals (intros; simp_all)

theorem settleAll_tame : (l : List Node) → TameAll (settleAll l)
  | [] => by rw [settleAll, TameAll]; trivial
  | x :: l => by
    rw [settleAll]
    split
    · exact settleAll_tame l
    · next h =>
      rw [TameAll]
      exact ⟨(settle_tame x).resolve_right h, settleAll_tame l⟩

end

mutual

theorem settle_same : (x : Node) → Tame x → settle x = x ∧ isBlank x = false
  | .elem n as cs => by
    rw [settle, Tame]
    rintro ⟨h1, h2⟩
    rw [settleAll_same cs h2]
    refine ⟨?_, rfl⟩
    congr 1
    conv_rhs => rw [← List.map_id as]
    exact List.map_congr_left fun a ha => by rw [newlines_same (h1 a ha)]; rfl
  | .text false v => by
    rw [settle, Tame]
    rintro ⟨h1, b, hb, hw⟩
    exact ⟨by rw [newlines_same h1], by simpa [isBlank] using fun h : Blank v => hw (h b hb)⟩
  | .text true v => fun _ => ⟨by rw [settle], rfl⟩
  | .comment v => fun _ => ⟨by rw [settle], rfl⟩
  | .decl v => fun _ => ⟨by rw [settle], rfl⟩
  | .unknown v => fun _ => ⟨by rw [settle], rfl⟩

theorem settleAll_same : (l : List Node) → TameAll l → settleAll l = l
  | [] => by rw [settleAll]; exact fun _ => rfl
  | x :: l => by
    rw [settleAll, TameAll]
    rintro ⟨h1, h2⟩
    obtain ⟨h3, h4⟩ := settle_same x h1
    rw [h3, h4, settleAll_same l h2]
    rfl

end

theorem settleAll_length (l : List Node) : (settleAll l).length ≤ l.length := by
  induction l with
  | nil => rw [settleAll]
  | cons x l ih =>
    rw [settleAll]
    split
    · simp; omega
    · simpa using ih

/-! ## Documents after one round -/

theorem textsMeet_not {x : Node} {l : List Node} (h : isText x = false) : textsMeet x l = false := by
  cases l with
  | nil => rfl
  | cons y l => rw [textsMeet, h]; rfl

theorem newlines_sendable {v : Str} (h : Fit v) : Sendable (newlines v) := ⟨norm_clean v h.1, (newlines_length v).trans h.2⟩

mutual

theorem settle_printable : (x : Node) → Loose x → isBlank x = false → Printable (settle x)
  | .elem n as cs => by
    rw [Loose, settle, Printable]
    rintro ⟨h1, h2, h3, h4⟩ -
    refine ⟨h1, fun a ha => ?_, by rw [List.map_map]; exact h3, settleAll_printable cs h4⟩
    obtain ⟨b, hb, rfl⟩ := List.mem_map.1 ha
    exact ⟨(h2 b hb).1, newlines_sendable (h2 b hb).2⟩
  | .text false v => by
    rw [Loose, settle, Printable]
    intro h hb
    exact ⟨newlines_sendable h, newlines_visible (visible_of (by simpa [isBlank] using hb))⟩
  | .text true v => by rw [Loose, settle, Printable]; exact fun h _ => h
  | .comment v => by rw [Loose, settle, Printable]; exact fun h _ => h
  | .decl v => by rw [Loose]; exact fun h => h.elim
  | .unknown v => by rw [Loose, settle, Printable]; exact fun h _ => h

theorem settleAll_printable : (l : List Node) → LooseAll l → PrintableAll (settleAll l)
  | [] => by rw [settleAll, PrintableAll]; exact fun _ => trivial
  | x :: l => by
    rw [LooseAll, settleAll]
    rintro ⟨h1, h2, h3⟩
    have ih := settleAll_printable l h3
    split
    · exact ih
    · next hb =>
      rw [PrintableAll]
      refine ⟨settle_printable x h1 (by simpa using hb), ?_, ih⟩
      cases hx : isText x with
      | false => exact textsMeet_not ((isText_settle x).trans hx)
      | true =>
        cases l with
        | nil => rw [settleAll]; rfl
        | cons y l =>
          have hy : isText y = false := by simpa [textsMeet, hx] using h2
          rw [settleAll, isBlank_node hy]
          show (isText (settle x) && isText (settle y)) = false
          rw [isText_settle y, hy, Bool.and_false]

end

theorem settleAll_texts {l : List Node} (h : ∀ x ∈ l, isText x = false) : settleAll l = l.map settle := by
  induction l with
  | nil => rw [settleAll]; rfl
  | cons x l ih =>
    rw [settleAll, isBlank_node (h x (by simp)), ih fun y hy => h y (by simp [hy])]
    rfl

theorem settle_printableDoc {l : List Node} (h : LooseDoc l) (few : l ≠ []) (top : ∀ x ∈ l, isText x = false) : PrintableDoc (settleAll l) := by
  have hm := settleAll_texts top
  refine ⟨by rw [hm]; simpa using few, ?_⟩
  obtain ⟨ds, ns, rfl, h1, h2⟩ := h
  refine ⟨ds, settleAll ns, settle_decls h1, h1, settleAll_printable ns h2, ?_⟩
  rw [settleAll_texts fun x hx => top x (by simp [hx])]
  intro x hx
  obtain ⟨y, hy, rfl⟩ := List.mem_map.1 hx
  exact (isText_settle y).trans (top y (by simp [hy]))

end Verif.Xml
