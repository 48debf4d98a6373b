import Verif.Proof.XmlTop
/-!
# What is read from a document with texts outside of its elements, printed with indentation
-/
namespace Verif.Xml
open Tec Spec

/-- the text of a document printed with indentation, without byte order mark -/
def wide (l : List Node) : Str :=
  match acceptAll l (.new false) with
  | .ok s => s.out
  | .err _ => []
  | .ub _ => []

theorem out0_new : Out0 (.new false) := ⟨⟨⟨rfl, show (-1 : Int) < 0 by decide⟩, rfl⟩, rfl⟩

theorem wide_run {l : List Node} (h : LooseDoc l) : ∃ s, acceptAll l (.new false) = .ok s ∧ s.out = wide l := by
  obtain ⟨s, h1, -⟩ := reads_top h out0_new rfl
  exact ⟨s, h1, by unfold wide; rw [h1]⟩

theorem printed_wide {l : List Node} (h : LooseDoc l) (bom : Bool) : printed false bom l = .ok (bomText bom ++ wide l) := by
  obtain ⟨s, h1, h2⟩ := wide_run h
  unfold printed acceptDoc
  cases bom with
  | false =>
    rw [if_neg (by simp), h1, ← h2]
    rfl
  | true =>
    have : (Printer.new false).put [0xEF, 0xBB, 0xBF] = (Printer.new false).pre (bomText true) := rfl
    rw [if_pos rfl, this, pre_acceptAll, h1, ← h2]
    rfl

/-- what is left of a document -/
def leftTop (l : List Node) : List Node := settleAll (topAll true false l)

theorem parse_top {l : List Node} (h : LooseDoc l) (bom : Bool) (hh : bom = false → HeadOk (wide l)) (m : List Node) :
    parse (bomText bom ++ wide l) = .ok m ↔ m = leftTop l ∧ LastNode (leftTop l) ∧ wide l ≠ [] := by
  obtain ⟨s, h0, h1, h2⟩ := reads_top h out0_new rfl
  have e : s.out = wide l := by unfold wide; rw [h0]
  rw [e] at h1 h2
  rw [parse_headOk h1 bom hh]
  by_cases ht : wide l = []
  · rw [if_pos ht]
    exact ⟨fun h => (by cases h), fun h => (h.2.2 ht).elim⟩
  · rw [if_neg ht]
    rcases h2 with ⟨h3, h4⟩ | ⟨h3, e, h4⟩
    · rw [h4]
      exact ⟨fun h => by cases h; exact ⟨rfl, h3, ht⟩, fun h => by rw [h.1]; rfl⟩
    · rw [h4]
      exact ⟨fun h => (by cases h), fun h => (h3 h.2.1).elim⟩

/-- the start of a document that does not start with a text -/
theorem wide_node {l : List Node} (h : LooseDoc l) (hn : ∀ x ∈ l.head?, isText x = false) : l = [] ∧ wide l = [] ∨ ∃ q, wide l = 60 :: q := by
  obtain ⟨ds, ns, rfl, h1, h2⟩ := h
  cases ds with
  | cons x ds =>
    right
    obtain ⟨v, rfl, -⟩ := h1 x (by simp)
    obtain ⟨s1, g1, g2, g3, g4⟩ := top_marked (x := .decl v) (body := lit "<?" ++ v ++ lit "?>") out0_new (fun s => by rw [Node.accept]; rfl)
    obtain ⟨s', t, k1, k2, -, -⟩ := top_decls h2 ds s1 g3 fun y hy => h1 y (by simp [hy])
    have : wide (.decl v :: ds ++ ns) = s'.out := by
      unfold wide
      rw [List.cons_append, acceptAll, g1]
      change (match acceptAll (ds ++ ns) s1 with | .ok s => s.out | .err _ => [] | .ub _ => []) = _
      rw [k1]
    rw [this, k2, g2]
    exact ⟨_, rfl⟩
  | nil =>
    obtain ⟨s', t, g⟩ := topOk ns (.new false) out0_new h2
    have hw : wide ([] ++ ns) = t := by
      unfold wide
      rw [List.nil_append, g.run]
      simp only
      rw [g.out]
      cases ns with
      | nil => rfl
      | cons x ns => rfl
    rw [hw]
    have ha := g.after (by simpa using hn)
    cases ns with
    | nil =>
      left
      rw [topAll, settleAll] at ha
      refine ⟨rfl, ?_⟩
      cases ha with
      | nil _ h => exact h rfl
    | cons x ns =>
      right
      have hx : isText x = false := hn x rfl
      have : ∃ y L, settleAll (topAll (Printer.new false).first false (x :: ns)) = y :: L := by
        cases x with
        | text c v => cases c with
          | true => rw [topAll, settleAll]; exact ⟨_, _, rfl⟩
          | false => exact absurd hx (by simp [isText])
        | elem n as cs => rw [topAll, settleAll, isBlank_indent]; exact ⟨_, _, rfl⟩
        | _ => rw [topAll, settleAll]; exact ⟨_, _, rfl⟩
      obtain ⟨y, L, e⟩ := this
      rw [e] at ha
      cases ha with
      | node _ h1 h2 _ =>
        obtain ⟨b, q, hq⟩ := writes_start h2
        rw [h1 rfl, hq]
        exact ⟨_, rfl⟩

theorem wide_text {v : Str} {rest : List Node} (h : LooseAll (.text false v :: rest)) : wide (.text false v :: rest) = shown true v ++ wide rest := by
  rw [LooseAll, Loose] at h
  obtain ⟨h1, h2, h3⟩ := h
  obtain ⟨s, g1, g2⟩ := wide_run (l := rest) ⟨[], rest, rfl, fun x hx => (by cases hx), h3⟩
  have e : (Printer.new false).pushText false v = (Printer.new false).pre (shown true v) := by
    unfold Printer.pushText
    simp [Printer.new, Printer.sealed, Printer.put, Printer.pre, string_shown (restricted := true) [] (by simpa using h1.2)]
  have : acceptAll (.text false v :: rest) (.new false) = .ok (s.pre (shown true v)) := by
    rw [acceptAll, Node.accept]
    change acceptAll rest _ = _
    rw [e, pre_acceptAll, g1]
    rfl
  unfold wide at g2 ⊢
  rw [this, ← g2]
  rfl

theorem loose_rest {v : Str} {rest : List Node} (h : LooseAll (.text false v :: rest)) : wide rest = [] ∨ ∃ q, wide rest = 60 :: q := by
  rw [LooseAll, Loose] at h
  obtain ⟨h1, h2, h3⟩ := h
  rcases wide_node (l := rest) ⟨[], rest, rfl, fun x hx => (by cases hx), h3⟩ (by
    cases rest with
    | nil => intro x hx; cases hx
    | cons y rest => intro x hx; cases hx; simpa [textsMeet, isText] using h2) with h | h
  · exact .inl h.2
  · exact .inr h

/-- a document that starts with a text, without a byte order mark: what is read has a text at its start that is shorter, if the reader does not start
with the first byte -/
theorem parse_topText {rest : List Node} : ∀ (n : Nat) (v : Str), v.length = n → LooseAll (.text false v :: rest) → ∀ m,
    parse (wide (.text false v :: rest)) = .ok m → ¬ HeadOk (wide (.text false v :: rest)) → ∃ v', v'.length < v.length ∧ m = leftTop (.text false v' :: rest) := by
  intro n
  induction n with
  | zero =>
    intro v hv hl m _ hh
    exfalso
    have : v = [] := List.length_eq_zero_iff.1 hv
    subst this
    have hr := loose_rest hl
    refine hh ?_
    rw [wide_text hl]
    rw [LooseAll, Loose] at hl
    rw [headOk_text hl.1 hr]
    exact ⟨fun b hb => (by cases hb), by decide⟩
  | succ n ih =>
    intro v hv hl m hm hh
    have hr := loose_rest hl
    have hl' := hl
    rw [LooseAll, Loose] at hl'
    obtain ⟨h1, h2, h3⟩ := hl'
    have part : ∀ {p v'}, v = p ++ v' → LooseAll (.text false v' :: rest) := by
      intro p v' e
      rw [LooseAll, Loose]
      refine ⟨h1.part ⟨p, [], by rw [e]; simp⟩, ?_, h3⟩
      cases rest with
      | nil => rfl
      | cons y rest => exact h2
    have doc : ∀ {p v'}, v = p ++ v' → LooseDoc (.text false v' :: rest) := fun e => ⟨[], _, rfl, fun _ h => (by cases h), part e⟩
    rw [wide_text hl, headOk_text h1 hr] at hh
    by_cases hw : ∀ b ∈ v.head?, ¬ White b
    · have hb : bomText true <+: v := Classical.byContradiction fun hb => hh ⟨hw, hb⟩
      obtain ⟨v', rfl⟩ := hb
      have hd := doc rfl
      refine ⟨v', by simp [bomText]; omega, ?_⟩
      refine ((parse_top hd true (fun h => nomatch h) m).1 ?_).1
      rw [wide_text (part rfl), ← List.append_assoc, ← hm, wide_text hl, shown_append]
      rfl
    · obtain ⟨b, v', rfl, hb⟩ : ∃ b v', v = b :: v' ∧ White b := by
        cases v with
        | nil => cases hv
        | cons b v =>
          refine ⟨b, v, rfl, Classical.byContradiction fun hb => hw ?_⟩
          intro c hc
          cases hc
          exact hb
      have hp := part (p := [b]) rfl
      have e : wide (.text false (b :: v') :: rest) = b :: wide (.text false v' :: rest) := by
        rw [wide_text hl, wide_text hp, shown_white _ hb]
        rfl
      rw [e, parse_white hb] at hm
      by_cases hok : HeadOk (wide (.text false v' :: rest))
      · exact ⟨v', by simp, ((parse_top (doc (p := [b]) rfl) false (fun _ => hok) m).1 hm).1⟩
      · obtain ⟨u, hu, e⟩ := ih v' (by simpa using hv) hp m hm hok
        exact ⟨u, by simp; omega, e⟩

/-! ## Documents that stay the same -/

/-- the nodes stay as they are, step by step -/
def TopSame (f b : Bool) : List Node → Prop
  | [] => True
  | x :: l => Apart x ∧ (isText x = true → b = false ∧ brk f l = []) ∧ TopSame (f && isChars x) (isElem x) l

theorem apart_indent {n : Str} {as : List (Str × Str)} {cs : List Node} : indent 4 0 (.elem n as cs) = .elem n as cs ↔ Apart (.elem n as cs) := indent_same (by decide) 0 _

theorem topAll_same {l : List Node} (f b : Bool) : topAll f b l = l ↔ TopSame f b l := by
  induction l generalizing f b with
  | nil => rw [topAll, TopSame]; simp
  | cons x l ih =>
    rw [TopSame]
    cases x with
    | elem n as cs =>
      rw [topAll, List.cons.injEq, ih, apart_indent]
      simp [isText, isElem, isChars]
    | text c v =>
      cases c with
      | true => rw [topAll, List.cons.injEq, ih]; simp [isText, isElem, isChars, Apart]
      | false =>
        rw [topAll, List.cons.injEq, ih, Node.text.injEq]
        simp only [true_and, isText, isElem, isChars, Apart, Bool.and_true, forall_const]
        refine and_congr_left fun _ => ?_
        constructor
        · intro h
          have h := congrArg List.length h
          simp only [List.length_append] at h
          refine ⟨?_, List.length_eq_zero_iff.1 (by omega)⟩
          cases b with
          | false => rfl
          | true => simp [nl, lit] at h; omega
        · rintro ⟨rfl, h⟩
          rw [h]; simp [nl]
    | comment v => rw [topAll, List.cons.injEq, ih]; simp [isText, isElem, isChars, Apart]
    | decl v => rw [topAll, List.cons.injEq, ih]; simp [isText, isElem, isChars, Apart]
    | unknown v => rw [topAll, List.cons.injEq, ih]; simp [isText, isElem, isChars, Apart]

theorem brk_none {f : Bool} {l : List Node} : brk f l = [] ↔ f = true ∨ ∀ y ∈ l.head?, isChars y = true := by
  cases l with
  | nil => simp [brk]
  | cons x l =>
    cases f <;> cases h : isChars x <;> simp [brk, nl, lit, h]

theorem topSame_iff {l : List Node} (f b : Bool) : TopSame f b l ↔ (∀ x ∈ l, Apart x) ∧ ∀ a v c, l = a ++ .text false v :: c →
    ((a = [] → b = false) ∧ ∀ x ∈ a.getLast?, isElem x = false) ∧ ((f = true ∧ ∀ x ∈ a, isChars x = true) ∨ ∀ y ∈ c.head?, isChars y = true) := by
  induction l generalizing f b with
  | nil => simp [TopSame]
  | cons x l ih =>
    rw [TopSame, ih]
    constructor
    · rintro ⟨h1, h2, h3, h4⟩
      refine ⟨fun y hy => ?_, fun a v c e => ?_⟩
      · rcases List.mem_cons.1 hy with rfl | hy
        · exact h1
        · exact h3 y hy
      · cases a with
        | nil =>
          cases e
          obtain ⟨g1, g2⟩ := h2 rfl
          refine ⟨⟨fun _ => g1, fun x hx => by cases hx⟩, ?_⟩
          rcases brk_none.1 g2 with g | g
          · exact .inl ⟨g, fun x hx => by cases hx⟩
          · exact .inr g
        | cons y a =>
          cases e
          obtain ⟨⟨g1, g2⟩, g3⟩ := h4 a v c rfl
          refine ⟨⟨(fun h => by cases h), fun z hz => ?_⟩, ?_⟩
          · cases a with
            | nil => cases hz; exact g1 rfl
            | cons u a => exact g2 z (by rw [Option.mem_def] at hz ⊢; rw [← hz]; simp [List.getLast?_cons_cons])
          · rcases g3 with ⟨g, g'⟩ | g
            · left
              simp only [Bool.and_eq_true] at g
              refine ⟨g.1, fun z hz => ?_⟩
              rcases List.mem_cons.1 hz with rfl | hz
              · exact g.2
              · exact g' z hz
            · exact .inr g
    · rintro ⟨h1, h2⟩
      refine ⟨h1 x (by simp), fun hx => ?_, fun y hy => h1 y (by simp [hy]), fun a v c e => ?_⟩
      · cases x with
        | text k v => cases k with
          | true => exact absurd hx (by simp [isText])
          | false =>
            obtain ⟨⟨g1, -⟩, g2⟩ := h2 [] v l rfl
            refine ⟨g1 rfl, brk_none.2 ?_⟩
            rcases g2 with g | g
            · exact .inl g.1
            · exact .inr g
        | _ => exact absurd hx (by simp [isText])
      · obtain ⟨⟨-, g2⟩, g3⟩ := h2 (x :: a) v c (by rw [e]; rfl)
        refine ⟨⟨fun h => ?_, fun z hz => g2 z ?_⟩, ?_⟩
        · subst h; exact g2 x rfl
        · cases a with
          | nil => cases hz
          | cons u a => rw [Option.mem_def] at hz ⊢; rw [← hz]; simp [List.getLast?_cons_cons]
        · rcases g3 with ⟨g, g'⟩ | g
          · left
            refine ⟨by simp [g, g' x (by simp)], fun z hz => g' z (by simp [hz])⟩
          · exact .inr g

theorem tame_text {w v p : Str} (hw : Blank w ∧ (13 : UInt8) ∉ w) (hp : Blank p ∧ (13 : UInt8) ∉ p) (h : Tame (.text false v)) : Tame (.text false (w ++ v ++ p)) := by
  rw [Tame] at h ⊢
  obtain ⟨h1, b, hb, hv⟩ := h
  refine ⟨?_, b, by simp [hb], hv⟩
  simp only [List.mem_append, not_or]
  exact ⟨⟨hw.2, h1⟩, hp.2⟩

theorem nl_noReturn (b : Bool) : Blank (nl b) ∧ (13 : UInt8) ∉ nl b := ⟨blank_lf b, by cases b <;> decide⟩
theorem brk_noReturn (f : Bool) (l : List Node) : Blank (brk f l) ∧ (13 : UInt8) ∉ brk f l := by
  cases l with
  | nil => exact ⟨blank_none, by simp [brk]⟩
  | cons x l => exact nl_noReturn _

theorem topAll_tame {l : List Node} (f b : Bool) (h : TameAll l) : TameAll (topAll f b l) := by
  induction l generalizing f b with
  | nil => rw [topAll]; exact h
  | cons x l ih =>
    rw [TameAll] at h
    cases x with
    | elem n as cs => rw [topAll, TameAll]; exact ⟨indent_tame 4 0 _ h.1, ih _ _ h.2⟩
    | text c v => cases c with
      | true => rw [topAll, TameAll]; exact ⟨h.1, ih _ _ h.2⟩
      | false => rw [topAll, TameAll]; exact ⟨tame_text (nl_noReturn b) (brk_noReturn f l) h.1, ih _ _ h.2⟩
    | comment v => rw [topAll, TameAll]; exact ⟨h.1, ih _ _ h.2⟩
    | decl v => rw [topAll, TameAll]; exact ⟨h.1, ih _ _ h.2⟩
    | unknown v => rw [topAll, TameAll]; exact ⟨h.1, ih _ _ h.2⟩

theorem leftTop_same {l : List Node} : leftTop l = l ↔ TameAll l ∧ TopSame true false l := by
  unfold leftTop
  constructor
  · intro h
    have ht : TameAll l := by rw [← h]; exact settleAll_tame _
    rw [settleAll_same _ (topAll_tame _ _ ht)] at h
    exact ⟨ht, (topAll_same _ _).1 h⟩
  · rintro ⟨h1, h2⟩
    rw [(topAll_same _ _).2 h2, settleAll_same l h1]

theorem topAll_length {l : List Node} (f b : Bool) : (topAll f b l).length = l.length := by
  induction l generalizing f b with
  | nil => rw [topAll]
  | cons x l ih =>
    cases x with
    | text c v => cases c <;> (rw [topAll, List.length_cons, ih]; rfl)
    | _ => rw [topAll, List.length_cons, ih]; rfl

end Verif.Xml
