import Verif.Proof.XmlDoc3
import Verif.Spec.XmlAgain
/-!
# A document printed compactly and read again
-/
namespace Verif.Xml
open Tec Spec

/-! ## What the printer writes -/

mutual

/-- the text of a node -/
def ctext : Node → Str
  | .elem n as cs => lit "<" ++ n ++ attrsText (rawAttrs as) ++ (if cs = [] then lit "/>" else lit ">" ++ ctextAll cs ++ lit "</" ++ n ++ lit ">")
  | .text false v => Printer.string true [] v
  | .text true v => lit "<![CDATA[" ++ v ++ lit "]]>"
  | .comment v => lit "<!--" ++ v ++ lit "-->"
  | .decl v => lit "<?" ++ v ++ lit "?>"
  | .unknown v => lit "<!" ++ v ++ lit ">"

/-- the texts of nodes one after the other -/
def ctextAll : List Node → Str
  | [] => []
  | x :: l => ctext x ++ ctextAll l

end

/-- the state after some nodes -/
structure Wrote (s s' : Printer) : Prop where
  stack : s'.stack = s.stack
  compact : s'.compact = true

theorem newLine_compact {s : Printer} (h : s.compact = true) : s.newLine = { s with first := false } := by
  unfold Printer.newLine
  simp [h]

mutual

theorem accept_compact : (x : Node) → (s : Printer) → s.compact = true → ∃ s', x.accept s = .ok s' ∧ s'.out = s.out ++ sealText s ++ ctext x ∧ Wrote s s' ∧ s'.justOpened = false
  | .elem n as cs, s, h => by
    obtain ⟨out, jo, st, fi, de, td, co⟩ := s
    simp only at h
    subst h
    obtain ⟨⟨out', jo', st', fi', de', td', co'⟩, h1, h2, ⟨h3, h4⟩, h5⟩ := acceptAll_compact cs
      (Printer.put (Printer.openElement ⟨out, jo, st, fi, de, td, true⟩ n) (attrsText (rawAttrs as))) (by rw [open_eq]; rfl)
    rw [open_eq] at h1 h2 h3 h5
    simp only [Printer.put] at h2 h3 h4 h5
    subst h2 h3 h4 h5
    have hstep : Node.accept (.elem n as cs) ⟨out, jo, st, fi, de, td, true⟩ =
        (acceptAll cs (Printer.put (Printer.openElement ⟨out, jo, st, fi, de, td, true⟩ n) (attrsText (rawAttrs as)))).bind Printer.closeElement := by
      rw [Node.accept, push_attrs]; rfl
    rw [open_eq] at hstep
    refine ⟨_, hstep.trans ((congrArg (Out.bind · Printer.closeElement) h1).trans close_eq), ?_, ⟨rfl, rfl⟩, rfl⟩
    rw [ctext]
    by_cases hcs : cs = []
    · subst hcs
      simp [sealText, tab, ctextAll]
    · simp [sealText, tab, hcs]
  | .text c v, s, h => by
    refine ⟨_, by rw [Node.accept], ?_, ?_, ?_⟩
    · rw [Printer.pushText, seal_eq]
      cases c <;> simp [ctext, Printer.put, sealText]
    · rw [Printer.pushText, seal_eq]
      cases c <;> exact ⟨rfl, h⟩
    · rw [Printer.pushText, seal_eq]
      cases c <;> rfl
  | .comment v, s, h => by
    refine ⟨_, by rw [Node.accept], ?_, ?_, ?_⟩ <;> rw [Printer.pushComment, newLine_compact (by rw [seal_eq]; exact h), seal_eq]
    · simp [ctext, Printer.put]
    · exact ⟨rfl, h⟩
    · rfl
  | .decl v, s, h => by
    refine ⟨_, by rw [Node.accept], ?_, ?_, ?_⟩ <;> rw [Printer.pushDeclaration, newLine_compact (by rw [seal_eq]; exact h), seal_eq]
    · simp [ctext, Printer.put]
    · exact ⟨rfl, h⟩
    · rfl
  | .unknown v, s, h => by
    refine ⟨_, by rw [Node.accept], ?_, ?_, ?_⟩ <;> rw [Printer.pushUnknown, newLine_compact (by rw [seal_eq]; exact h), seal_eq]
    · simp [ctext, Printer.put]
    · exact ⟨rfl, h⟩
    · rfl

theorem acceptAll_compact : (l : List Node) → (s : Printer) → s.compact = true → ∃ s', acceptAll l s = .ok s' ∧
    s'.out = s.out ++ (if l = [] then [] else sealText s) ++ ctextAll l ∧ Wrote s s' ∧ s'.justOpened = if l = [] then s.justOpened else false
  | [], s, h => ⟨s, by rw [acceptAll], by simp [ctextAll], ⟨rfl, h⟩, by simp⟩
  | x :: l, s, h => by
    obtain ⟨s1, h1, h2, h3, h4⟩ := accept_compact x s h
    obtain ⟨s2, g1, g2, g3, g4⟩ := acceptAll_compact l s1 h3.compact
    refine ⟨s2, ?_, ?_, ⟨g3.stack.trans h3.stack, g3.compact⟩, ?_⟩
    · rw [acceptAll, h1]; exact g1
    · rw [g2, h2, ctextAll]; simp [sealText, h4]
    · rw [g4, h4]; simp

end

theorem printed_compact (bom : Bool) (l : List Node) : printed true bom l = .ok (bomText bom ++ ctextAll l) := by
  have key : ∀ s : Printer, s.compact = true → s.justOpened = false → s.out = bomText bom → (acceptAll l s).bind (fun s => .ok s.out) = .ok (bomText bom ++ ctextAll l) := by
    intro s h1 h2 h3
    obtain ⟨s', g1, g2, -, -⟩ := acceptAll_compact l s h1
    rw [g1]
    show Out.ok s'.out = _
    rw [g2, h3]
    simp [sealText, h2]
  cases bom with
  | true => exact key (Printer.put (.new true) [0xEF, 0xBB, 0xBF]) rfl rfl rfl
  | false => exact key (.new true) rfl rfl rfl

/-! ## Texts -/

theorem ctext_text {v : Str} (h : Fit v) : ctext (.text false v) = shown true v := by
  rw [ctext, string_shown [] (by simpa using h.2)]; rfl

theorem shown_blank {v : Str} (h : Blank v) : shown true v = v := by
  induction v with
  | nil => rfl
  | cons b v ih => rw [shown_white _ (h b (by simp)), ih fun x hx => h x (by simp [hx])]

theorem visible_of {v : Str} (h : ¬ Blank v) : Visible v := by
  unfold Blank at h
  unfold Visible
  simpa using h

theorem newlines_visible {v : Str} (h : Visible v) : Visible (newlines v) := by
  obtain ⟨c, hc, hw⟩ := h
  fun_induction newlines v with
  | case1 l ih =>
    simp only [List.mem_cons] at hc
    rcases hc with rfl | rfl | hc
    · exact absurd (by decide) hw
    · exact absurd (by decide) hw
    · obtain ⟨d, h1, h2⟩ := ih hc; exact ⟨d, by simp [h1], h2⟩
  | case2 l hl ih =>
    simp only [List.mem_cons] at hc
    rcases hc with rfl | hc
    · exact absurd (by decide) hw
    · obtain ⟨d, h1, h2⟩ := ih hc; exact ⟨d, by simp [h1], h2⟩
  | case3 l ih =>
    simp only [List.mem_cons] at hc
    rcases hc with rfl | rfl | hc
    · exact absurd (by decide) hw
    · exact absurd (by decide) hw
    · obtain ⟨d, h1, h2⟩ := ih hc; exact ⟨d, by simp [h1], h2⟩
  | case4 b l h1 h2 h3 ih =>
    simp only [List.mem_cons] at hc
    rcases hc with rfl | hc
    · exact ⟨c, by simp, hw⟩
    · obtain ⟨d, h1, h2⟩ := ih hc; exact ⟨d, by simp [h1], h2⟩
  | case5 => cases hc

theorem newlines_length (v : Str) : (newlines v).length ≤ v.length := by
  fun_induction newlines v with
  | case1 l ih => simp; omega
  | case2 l hl ih => simpa using ih
  | case3 l ih => simp; omega
  | case4 b l h1 h2 h3 ih => simpa using ih
  | case5 => simp

/-! ## What the text shows -/

theorem rawAttrs_loose {as : List (Str × Str)} (h : ∀ a ∈ as, IsName a.1 ∧ Fit a.2) (hn : (as.map (·.1)).Nodup) :
    WritesAttrs (rawAttrs as) (as.map fun a => (a.1, newlines a.2)) := by
  refine ⟨?_, by rw [List.map_map]; exact hn⟩
  clear hn
  induction as with
  | nil => exact .nil
  | cons a as ih =>
    refine .cons ⟨rfl, (h a (by simp)).1, ?_⟩ (ih fun x hx => h x (by simp [hx]))
    show Escapes 34 (Printer.string false [] a.2) (newlines a.2)
    rw [string_shown [] (by simpa using (h a (by simp)).2.2)]
    exact shown_escapes (.inl ⟨rfl, rfl⟩) (h a (by simp)).2.1

/-- what is proved about the text of nodes: white space before them is possible, if they do not start with a text -/
def Shows (l : List Node) : Prop := LooseAll l → ∀ (after : Bool) (w : Str), Blank w → (after = true → w = []) →
  ((after = true ∨ w ≠ []) → ∀ x ∈ l.head?, isText x = false) → WritesAll after (settleAll l) (w ++ ctextAll l)

theorem isBlank_node {x : Node} (h : isText x = false) : isBlank x = false := by
  cases x with
  | text c v => cases c with
    | true => rfl
    | false => simp [isText] at h
  | _ => rfl

theorem shows_node {x : Node} {l : List Node} (hx : isText x = false) (h1 : Loose x → WritesNode (settle x) (ctext x)) (ih : Shows l) : Shows (x :: l) := by
  intro h after w hw ha _
  rw [LooseAll] at h
  rw [settleAll, isBlank_node hx, ctextAll, ← List.append_assoc]
  have := ih h.2.2 false [] blank_none (fun h => nomatch h) (fun h => (h.elim (fun h => nomatch h) (fun h => (h rfl).elim)))
  exact .node hw ha (h1 h.1) this

mutual

theorem showsNode : (x : Node) → isText x = false → Loose x → WritesNode (settle x) (ctext x)
  | .elem n as cs => by
    rw [Loose, settle, ctext]
    rintro - ⟨h1, h2, h3, h4⟩
    have ha := rawAttrs_loose h2 h3
    by_cases hcs : cs = []
    · subst hcs
      rw [if_pos rfl, settleAll]
      exact .sealed h1 ha
    · rw [if_neg hcs]
      have := showsAll cs h4 false [] blank_none (fun h => nomatch h) (fun h => (h.elim (fun h => nomatch h) (fun h => (h rfl).elim)))
      have := WritesNode.node h1 ha this
      simpa only [List.append_assoc, List.nil_append] using this
  | .text false v => fun h => absurd h (by simp [isText])
  | .text true v => by rw [Loose, settle, ctext]; exact fun _ h => .cdata h.1 h.2
  | .comment v => by rw [Loose, settle, ctext]; exact fun _ h => .comment h.1 h.2
  | .decl v => by rw [Loose]; exact fun _ h => h.elim
  | .unknown v => by rw [Loose, settle, ctext]; exact fun _ h => .unknown h.1 h.2.1 h.2.2

theorem showsAll : (l : List Node) → Shows l
  | [] => fun _ after w hw ha _ => by
    rw [settleAll, ctextAll, List.append_nil]
    exact .nil hw ha
  | x :: l => by
    cases hx : isText x with
    | false => exact shows_node hx (showsNode x hx) (showsAll l)
    | true =>
      have ih := showsAll l
      cases x with
      | text c v => cases c with
        | true => exact absurd hx (by simp [isText])
        | false =>
          intro h after w hw ha hh
          rw [LooseAll, Loose] at h
          obtain ⟨h1, h2, h3⟩ := h
          have hnext : ∀ y ∈ l.head?, isText y = false := by
            cases l with
            | nil => intro y hy; cases hy
            | cons y l => intro z hz; cases hz; simpa [textsMeet, isText] using h2
          have hno : ¬ (after = true ∨ w ≠ []) := fun hc => absurd (hh hc _ rfl) (by simp [isText])
          have hw0 : w = [] := Classical.byContradiction fun hc => hno (.inr hc)
          have ha0 : after = false := by
            cases after with
            | false => rfl
            | true => exact (hno (.inl rfl)).elim
          subst hw0 ha0
          rw [settleAll, ctextAll, ctext_text h1, List.nil_append]
          by_cases hb : Blank v
          · rw [if_pos (by simpa [isBlank] using hb), shown_blank hb]
            exact ih h3 false v hb (fun h => nomatch h) (fun _ => hnext)
          · rw [if_neg (by simpa [isBlank] using hb), settle]
            refine .text (shown_escapes (.inr ⟨rfl, rfl⟩) h1.1) (escapes_visible (shown_escapes (stop := 60) (.inr ⟨rfl, rfl⟩) h1.1) (newlines_visible (visible_of hb))) ?_
            exact ih h3 true [] blank_none (fun _ => rfl) (fun _ => hnext)
      | _ => exact absurd hx (by simp [isText])

end

end Verif.Xml
