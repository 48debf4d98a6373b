import Verif.Proof.XmlDoc6
import Verif.Spec.XmlTop
/-!
# Documents with texts outside of their elements, printed with indentation
-/
namespace Verif.Xml
open Tec Spec

/-! ## What is printed does not depend on what was printed before -/

/-- a printer that has printed `a` before -/
def Printer.pre (a : Str) (s : Printer) : Printer := { s with out := a ++ s.out }

/-- the same of an outcome -/
def preOut (a : Str) : Out Printer → Out Printer
  | .ok s => .ok (s.pre a)
  | .err e => .err e
  | .ub u => .ub u

theorem pre_put (a t : Str) (s : Printer) : (s.pre a).put t = (s.put t).pre a := by simp [Printer.pre, Printer.put]
theorem pre_sealed (a : Str) (s : Printer) : (s.pre a).sealed = s.sealed.pre a := by
  rw [seal_eq, seal_eq]; simp [Printer.pre, sealText]; rfl
theorem pre_newLine (a : Str) (s : Printer) : (s.pre a).newLine = s.newLine.pre a := by
  unfold Printer.newLine Printer.pre
  by_cases h : s.textDepth < 0 ∧ ¬ s.first ∧ ¬ s.compact
  · rw [if_pos h, if_pos h]; simp [Printer.put, Printer.printSpace]
  · rw [if_neg h, if_neg h]
theorem pre_open (a n : Str) (s : Printer) : (s.pre a).openElement n = (s.openElement n).pre a := by
  obtain ⟨out, jo, st, fi, de, td, co⟩ := s
  unfold Printer.pre
  rw [open_eq, open_eq]; simp
theorem pre_attrs (a : Str) (as : List (Str × Str)) (s : Printer) : as.foldl Printer.pushAttribute (s.pre a) = (as.foldl Printer.pushAttribute s).pre a := by
  induction as generalizing s with
  | nil => rfl
  | cons x as ih =>
    rw [List.foldl_cons, List.foldl_cons, ← ih]
    congr 1
    exact pre_put _ _ _
theorem pre_close (a : Str) (s : Printer) : (s.pre a).closeElement = preOut a s.closeElement := by
  obtain ⟨out, jo, st, fi, de, td, co⟩ := s
  cases st with
  | nil => rfl
  | cons n st =>
    unfold Printer.pre
    rw [close_eq, close_eq]; simp [preOut, Printer.pre]
theorem pre_text (a : Str) (c : Bool) (v : Str) (s : Printer) : (s.pre a).pushText c v = (s.pushText c v).pre a := by
  unfold Printer.pushText
  simp only [seal_eq]
  cases c <;> simp [Printer.pre, sealText, Printer.put] <;> rfl

mutual

theorem pre_accept (a : Str) : (x : Node) → (s : Printer) → x.accept (s.pre a) = preOut a (x.accept s)
  | .elem n as cs, s => by
    rw [Node.accept, Node.accept, pre_open, pre_attrs, pre_acceptAll a cs]
    cases acceptAll cs (as.foldl Printer.pushAttribute (s.openElement n)) with
    | ok t => exact pre_close a t
    | err e => rfl
    | ub u => rfl
  | .text c v, s => by rw [Node.accept, Node.accept, pre_text]; rfl
  | .comment v, s => by rw [Node.accept, Node.accept, Printer.pushComment, Printer.pushComment, pre_sealed, pre_newLine, pre_put]; rfl
  | .decl v, s => by rw [Node.accept, Node.accept, Printer.pushDeclaration, Printer.pushDeclaration, pre_sealed, pre_newLine, pre_put]; rfl
  | .unknown v, s => by rw [Node.accept, Node.accept, Printer.pushUnknown, Printer.pushUnknown, pre_sealed, pre_newLine, pre_put]; rfl

theorem pre_acceptAll (a : Str) : (l : List Node) → (s : Printer) → acceptAll l (s.pre a) = preOut a (acceptAll l s)
  | [], s => by rw [acceptAll, acceptAll]; rfl
  | x :: l, s => by
    rw [acceptAll, acceptAll, pre_accept a x]
    cases x.accept s with
    | ok t => exact pre_acceptAll a l t
    | err e => rfl
    | ub u => rfl

end

/-! ## The flag of the first node -/

theorem first_put (s : Printer) (t : Str) : (s.put t).first = s.first := rfl
theorem first_open (s : Printer) (n : Str) : (s.openElement n).first = false := by
  obtain ⟨out, jo, st, fi, de, td, co⟩ := s
  rw [open_eq]
theorem first_attrs (as : List (Str × Str)) (s : Printer) : (as.foldl Printer.pushAttribute s).first = s.first := by
  induction as generalizing s with
  | nil => rfl
  | cons x as ih => rw [List.foldl_cons, ih]; rfl
theorem first_close {s s' : Printer} (h : s.closeElement = .ok s') : s'.first = s.first := by
  obtain ⟨out, jo, st, fi, de, td, co⟩ := s
  cases st with
  | nil => cases h
  | cons n st => rw [close_eq] at h; cases h; rfl
theorem first_newLine (s : Printer) : s.newLine.first = false := rfl
theorem first_text (s : Printer) (c : Bool) (v : Str) : (s.pushText c v).first = s.first := by
  unfold Printer.pushText
  simp only [seal_eq]
  cases c <;> rfl

mutual

theorem first_accept : (x : Node) → (s s' : Printer) → s.first = false → x.accept s = .ok s' → s'.first = false
  | .elem n as cs, s, s', _, h => by
    rw [Node.accept] at h
    cases hc : acceptAll cs (as.foldl Printer.pushAttribute (s.openElement n)) with
    | ok t =>
      rw [hc] at h
      rw [first_close h]
      exact first_acceptAll cs _ _ (by rw [first_attrs, first_open]) hc
    | err e => rw [hc] at h; cases h
    | ub u => rw [hc] at h; cases h
  | .text c v, s, s', hf, h => by rw [Node.accept] at h; cases h; rw [first_text, hf]
  | .comment v, s, s', _, h => by rw [Node.accept] at h; cases h; rfl
  | .decl v, s, s', _, h => by rw [Node.accept] at h; cases h; rfl
  | .unknown v, s, s', _, h => by rw [Node.accept] at h; cases h; rfl

theorem first_acceptAll : (l : List Node) → (s s' : Printer) → s.first = false → acceptAll l s = .ok s' → s'.first = false
  | [], s, s', hf, h => by rw [acceptAll] at h; cases h; exact hf
  | x :: l, s, s', hf, h => by
    rw [acceptAll] at h
    cases hx : x.accept s with
    | ok t => rw [hx] at h; exact first_acceptAll l t s' (first_accept x s t hf hx) h
    | err e => rw [hx] at h; cases h
    | ub u => rw [hx] at h; cases h

end

/-! ## Nodes outside of elements -/

/-- outside of all elements, with indentation -/
structure Out0 (s : Printer) : Prop where
  top : Top s
  wide : s.compact = false

theorem top_elem {n : Str} {as : List (Str × Str)} {cs : List Node} {s : Printer} (hs : Out0 s) (hp : Loose (.elem n as cs)) :
    ∃ s' sx, Node.accept (.elem n as cs) s = .ok s' ∧ s'.out = s.out ++ nl (!s.first) ++ sx ++ lit "\n" ∧ WritesNode (settle (indent 4 0 (.elem n as cs))) sx ∧
      Out0 s' ∧ s'.first = false := by
  obtain ⟨hn, ha, hu, hc⟩ : IsName n ∧ (∀ a ∈ as, IsName a.1 ∧ Fit a.2) ∧ (as.map (·.1)).Nodup ∧ LooseAll cs := by rwa [Loose] at hp
  have hw := rawAttrs_loose ha hu
  obtain ⟨out, jo, st, fi, de, td, co⟩ := s
  obtain ⟨⟨⟨hd, ht⟩, hj⟩, hco⟩ := hs
  simp only at hd ht hj hco
  subst hd hj hco
  obtain ⟨⟨out', jo', st', fi', de', td', co'⟩, t, h1, h2, ⟨⟨h3, h4⟩, h5, h6⟩, ht0, h7, h8⟩ := looseNodes cs 1
    (Printer.put (Printer.openElement ⟨out, false, st, fi, (0 : Nat), td, false⟩ n) (attrsText (rawAttrs as))) false
    (by rw [open_eq]; exact ⟨by simp [Printer.put], by simp [Printer.put]; omega⟩) hc (fun h => by omega) (fun h => nomatch h)
  rw [open_eq] at h1 h2 h5 h6 h7 h8
  simp only [Printer.put] at h2 h3 h4 h5 h6 h7 h8
  subst h2 h3 h5 h7
  replace h6 := h6.symm
  subst h6
  have hstep : Node.accept (.elem n as cs) ⟨out, false, st, fi, (0 : Nat), td, false⟩ =
      (acceptAll cs (Printer.put (Printer.openElement ⟨out, false, st, fi, (0 : Nat), td, false⟩ n) (attrsText (rawAttrs as)))).bind Printer.closeElement := by
    rw [Node.accept, push_attrs]; rfl
  rw [open_eq] at hstep
  have hacc := hstep.trans ((congrArg (Out.bind · Printer.closeElement) h1).trans close_eq)
  refine ⟨_, if cs = [] then lit "<" ++ n ++ attrsText (rawAttrs as) ++ lit "/>" else
      lit "<" ++ n ++ attrsText (rawAttrs as) ++ lit ">" ++ (t ++ (if td' < 0 then lit "\n" else [])) ++ lit "</" ++ n ++ lit ">", hacc, ?_, ?_, ⟨⟨⟨?_, ?_⟩, rfl⟩, rfl⟩, ?_⟩
  · have e : td < 0 := by omega
    by_cases hcs : cs = []
    · rw [ht0 hcs]; cases fi <;> simp [hcs, nl, e]
    · cases fi <;> simp [hcs, nl, e, sealText]
  · rw [indent]
    split
    · next hcs =>
      subst hcs
      exact .sealed hn hw
    · next hcs =>
      refine .node hn hw ?_
      have := h8 [] (if td' < 0 then lit "\n" else []) blank_none (by split; exact blank_nl; exact blank_none) (fun _ => rfl) (fun _ => rfl) (fun hh => by rw [if_neg (by omega)])
      exact this
  · simp
  · simp only
    split <;> omega
  · have := first_acceptAll cs _ _ rfl h1
    exact this

theorem top_marked {x : Node} {body : Str} {s : Printer} (hs : Out0 s) (hx : ∀ s : Printer, x.accept s = .ok (s.sealed.newLine.put body)) :
    ∃ s', x.accept s = .ok s' ∧ s'.out = s.out ++ nl (!s.first) ++ body ∧ Out0 s' ∧ s'.first = false := by
  obtain ⟨out, jo, st, fi, de, td, co⟩ := s
  obtain ⟨⟨⟨hd, ht⟩, hj⟩, hco⟩ := hs
  simp only at hd ht hj hco
  subst hd hj hco
  have e : td < 0 := by omega
  have h : Printer.put (Printer.newLine (Printer.sealed ⟨out, false, st, fi, (0 : Nat), td, false⟩)) body = ⟨out ++ nl (!fi) ++ body, false, st, false, (0 : Nat), td, false⟩ := by
    rw [seal_eq]
    unfold Printer.newLine
    cases fi <;> simp [sealText, e, nl, Printer.put, Printer.printSpace]
  refine ⟨_, hx _, ?_, ?_, ?_⟩
  · rw [h]
  · rw [h]; exact ⟨⟨⟨rfl, ht⟩, rfl⟩, rfl⟩
  · rw [h]

theorem top_chars {s : Printer} (hs : Out0 s) (c : Bool) (v : Str) :
    (s.pushText c v).out = s.out ++ (if c then lit "<![CDATA[" ++ v ++ lit "]]>" else Printer.string true [] v) ∧ Out0 (s.pushText c v) ∧ (s.pushText c v).first = s.first := by
  obtain ⟨out, jo, st, fi, de, td, co⟩ := s
  obtain ⟨⟨⟨hd, ht⟩, hj⟩, hco⟩ := hs
  simp only at hd ht hj hco
  subst hd hj hco
  unfold Printer.pushText
  simp only [seal_eq]
  cases c
  · exact ⟨by simp [Printer.put, sealText], ⟨⟨⟨rfl, by simp [Printer.put]⟩, rfl⟩, rfl⟩, rfl⟩
  · exact ⟨by simp [Printer.put, sealText], ⟨⟨⟨rfl, by simp [Printer.put]⟩, rfl⟩, rfl⟩, rfl⟩

theorem blank_lf (b : Bool) : Blank (nl b) := by
  unfold nl; split
  · exact blank_nl
  · exact blank_none

theorem blank_brk (f : Bool) (l : List Node) : Blank (brk f l) := by
  cases l with
  | nil => exact blank_none
  | cons x l => exact blank_lf _

/-- what is proved about printing the nodes of a document -/
structure TopOk (l : List Node) (s s' : Printer) (t : Str) : Prop where
  run : acceptAll l s = .ok s'
  out : s'.out = s.out ++ brk s.first l ++ t
  writes : ∀ behind w, Blank w → ((∃ x ∈ l.head?, isText x = true) → w = nl behind) → WritesAll false (settleAll (topAll s.first behind l)) (w ++ brk s.first l ++ t)
  after : (∀ x ∈ l.head?, isText x = false) → WritesAll true (settleAll (topAll s.first false l)) t
  out0 : Out0 s'

theorem topOk : (l : List Node) → (s : Printer) → Out0 s → LooseAll l → ∃ s' t, TopOk l s s' t
  | [], s, hs, _ => ⟨s, [], by rw [acceptAll], by simp [brk], fun b w hw _ => by
      rw [topAll, settleAll]; exact .nil (by simpa [brk] using hw) (fun h => nomatch h), fun _ => by
      rw [topAll, settleAll]; exact .nil blank_none (fun _ => rfl), hs⟩
  | x :: l, s, hs, hp => by
    obtain ⟨hpx, hmeet, hl⟩ : Loose x ∧ textsMeet x l = false ∧ LooseAll l := by rwa [LooseAll] at hp
    -- nodes that start a new line
    have marked : ∀ (body : Str) (y : Node), isChars x = false → isBlank y = false → (∀ f b, topAll f b (x :: l) = y :: topAll false false l) → WritesNode (settle y) body →
        (∀ s : Printer, x.accept s = .ok (s.sealed.newLine.put body)) → ∃ s' t, TopOk (x :: l) s s' t := by
      intro body y hx hy ht hw hacc
      obtain ⟨s1, h1, h2, h3, h4⟩ := top_marked hs hacc
      obtain ⟨s', t, g⟩ := topOk l s1 h3 hl
      have hb : brk s.first (x :: l) = nl (!s.first) := by simp [brk, hx]
      have htl : WritesAll false (settleAll (topAll false false l)) ([] ++ brk false l ++ t) := by
        have := g.writes false [] blank_none (fun _ => rfl)
        rwa [h4] at this
      refine ⟨s', body ++ (brk false l ++ t), ?_, ?_, ?_, ?_, g.out0⟩
      · rw [acceptAll, h1]; exact g.run
      · rw [g.out, h2, hb, h4]; simp
      · intro b w hw' _
        rw [ht, settleAll, hy, hb]
        have := WritesAll.node (after := false) (blank_app hw' (blank_lf (!s.first))) (fun h => nomatch h) hw htl
        simpa [List.append_assoc] using this
      · intro _
        rw [ht, settleAll, hy]
        have := WritesAll.node (after := true) blank_none (fun _ => rfl) hw htl
        simpa [List.append_assoc] using this
    cases x with
    | elem n as cs =>
      obtain ⟨s1, sx, h1, h2, hw, h3, h4⟩ := top_elem hs hpx
      obtain ⟨s', t, g⟩ := topOk l s1 h3 hl
      have hb : brk s.first (.elem n as cs :: l) = nl (!s.first) := by simp [brk, isChars]
      have htl : WritesAll false (settleAll (topAll false true l)) (lit "\n" ++ brk false l ++ t) := by
        have := g.writes true (lit "\n") blank_nl (fun _ => rfl)
        rwa [h4] at this
      have hy : isBlank (indent 4 0 (.elem n as cs)) = false := by rw [isBlank_indent]; rfl
      refine ⟨s', sx ++ (lit "\n" ++ brk false l ++ t), ?_, ?_, ?_, ?_, g.out0⟩
      · rw [acceptAll, h1]; exact g.run
      · rw [g.out, h2, hb, h4]; simp
      · intro b w hw' _
        rw [topAll, settleAll, hy, hb]
        have := WritesAll.node (after := false) (blank_app hw' (blank_lf (!s.first))) (fun h => nomatch h) hw htl
        simpa [List.append_assoc] using this
      · intro _
        rw [topAll, settleAll, hy]
        have := WritesAll.node (after := true) blank_none (fun _ => rfl) hw htl
        simpa [List.append_assoc] using this
    | text c v =>
      obtain ⟨h1, h2, h3⟩ := top_chars hs c v
      obtain ⟨s', t, g⟩ := topOk l (s.pushText c v) h2 hl
      have gw := g.writes
      have ga := g.after
      have go := g.out
      rw [h3] at gw ga go
      have hb : brk s.first (.text c v :: l) = [] := by simp [brk, isChars, nl]
      have hrun : acceptAll (.text c v :: l) s = .ok s' := by rw [acceptAll, Node.accept]; exact g.run
      cases c with
      | true =>
        have hpx : Clean v ∧ ¬ lit "]]>" <:+: v := by rwa [Loose] at hpx
        have hw : WritesNode (settle (.text true v)) (lit "<![CDATA[" ++ v ++ lit "]]>") := by rw [settle]; exact .cdata hpx.1 hpx.2
        have htl := gw false [] blank_none (fun _ => rfl)
        refine ⟨s', (lit "<![CDATA[" ++ v ++ lit "]]>") ++ (brk s.first l ++ t), hrun, ?_, ?_, ?_, g.out0⟩
        · rw [go, h1, hb]; simp
        · intro b w hw' _
          rw [topAll, settleAll, show isBlank (.text true v) = false from rfl, hb]
          have := WritesAll.node (after := false) hw' (fun h => nomatch h) hw htl
          simpa [List.append_assoc] using this
        · intro _
          rw [topAll, settleAll, show isBlank (.text true v) = false from rfl]
          have := WritesAll.node (after := true) blank_none (fun _ => rfl) hw htl
          simpa [List.append_assoc] using this
      | false =>
        have hpx : Fit v := by rwa [Loose] at hpx
        have hnext : ∀ x ∈ l.head?, isText x = false := by
          cases l with
          | nil => intro x hx; cases hx
          | cons y l => intro x hx; cases hx; simpa [textsMeet, isText] using hmeet
        have hstr : Printer.string true [] v = shown true v := by rw [string_shown [] (by simpa using hpx.2)]; rfl
        refine ⟨s', shown true v ++ (brk s.first l ++ t), hrun, ?_, ?_, fun h => absurd (h _ rfl) (by simp [isText]), g.out0⟩
        · rw [go, h1, hb]; simp [hstr]
        · intro b w hw' hwb
          rw [hwb ⟨_, rfl, rfl⟩, hb, topAll, settleAll]
          by_cases hv : Blank v
          · rw [if_pos (by simpa [isBlank] using blank_app (blank_app (blank_lf b) hv) (blank_brk s.first l)), shown_blank hv]
            have := gw false (nl b ++ v) (blank_app (blank_lf b) hv) (fun ⟨x, hx, ht⟩ => absurd (hnext x hx) (by simp [ht]))
            simpa [List.append_assoc] using this
          · rw [if_neg (by
              simp only [isBlank, decide_eq_true_eq]
              exact fun h => hv fun c hc => h c (by simp [hc])), settle]
            have hno : ∀ c ∈ nl b ++ v ++ brk s.first l, c ≠ 0 := by
              intro c hc
              rcases List.mem_append.1 hc with hc | hc
              · rcases List.mem_append.1 hc with hc | hc
                · exact blank_noNul (blank_lf b) c hc
                · exact hpx.1 c hc
              · exact blank_noNul (blank_brk s.first l) c hc
            have hesc := shown_escapes (stop := 60) (restricted := true) (.inr ⟨rfl, rfl⟩) hno
            have hvis : Visible (newlines (nl b ++ v ++ brk s.first l)) := newlines_visible (visible_of fun h => hv fun c hc => h c (by simp [hc]))
            have := WritesAll.text hesc (escapes_visible hesc hvis) (ga hnext)
            rw [shown_append, shown_append, shown_blank (blank_lf b), shown_blank (blank_brk s.first l)] at this
            simpa [List.append_assoc] using this
    | comment v =>
      have hpx : Clean v ∧ ¬ lit "-->" <:+: v := by rwa [Loose] at hpx
      exact marked (lit "<!--" ++ v ++ lit "-->") (.comment v) rfl rfl (fun f b => by rw [topAll]) (by rw [settle]; exact .comment hpx.1 hpx.2) (fun s => by rw [Node.accept]; rfl)
    | decl v => rw [Loose] at hpx; exact hpx.elim
    | unknown v =>
      have hpx : Clean v ∧ ¬ lit ">" <:+: v ∧ ¬ lit "--" <+: v ∧ ¬ lit "[CDATA[" <+: v := by rwa [Loose] at hpx
      exact marked (lit "<!" ++ v ++ lit ">") (.unknown v) rfl rfl (fun f b => by rw [topAll]) (by rw [settle]; exact .unknown hpx.1 hpx.2.1 hpx.2.2) (fun s => by rw [Node.accept]; rfl)

/-! ## Documents -/

theorem top_decls {ns : List Node} (hn : LooseAll ns) : ∀ (ds : List Node) (s : Printer), Out0 s → (∀ x ∈ ds, GoodDecl x) →
    ∃ s' t, acceptAll (ds ++ ns) s = .ok s' ∧ s'.out = s.out ++ t ∧ Out0 s' ∧
      (LastNode (settleAll (topAll s.first false (ds ++ ns))) → WritesDoc (settleAll (topAll s.first false (ds ++ ns))) t)
  | [], s, hs, _ => by
    obtain ⟨s', t, g⟩ := topOk ns s hs hn
    refine ⟨s', brk s.first ns ++ t, g.run, by rw [g.out]; simp, g.out0, fun hl => .nodes hl ?_⟩
    have := g.writes false [] blank_none (fun _ => rfl)
    simpa using this
  | x :: ds, s, hs, hd => by
    obtain ⟨v, rfl, hc, he⟩ := hd x (by simp)
    obtain ⟨s1, h1, h2, h3, h4⟩ := top_marked (x := .decl v) (body := lit "<?" ++ v ++ lit "?>") hs (fun s => by rw [Node.accept]; rfl)
    obtain ⟨s', t, g1, g2, g3, g4⟩ := top_decls hn ds s1 h3 fun y hy => hd y (by simp [hy])
    rw [h4] at g4
    refine ⟨s', nl (!s.first) ++ lit "<?" ++ v ++ lit "?>" ++ t, ?_, ?_, g3, fun hl => ?_⟩
    · rw [List.cons_append, acceptAll, h1]; exact g1
    · rw [g2, h2]; simp
    · rw [List.cons_append, topAll, settleAll, if_neg (by simp [isBlank]), settle] at hl ⊢
      refine .decl (blank_lf _) hc he (g4 fun y hy => hl y ?_)
      rw [Option.mem_def] at hy ⊢
      rw [List.getLast?_cons, hy]; rfl

theorem topAll_concat {l : List Node} {x : Node} (h : LastNode l) (f b : Bool) : ∃ f' b', topAll f b (l ++ [x]) = topAll f b l ++ topAll f' b' [x] := by
  induction l generalizing f b with
  | nil => exact ⟨f, b, rfl⟩
  | cons y l ih =>
    have ih := fun f b => ih (fun z hz => h z (by rw [Option.mem_def] at hz ⊢; rw [List.getLast?_cons, hz]; rfl)) f b
    cases y with
    | text c v =>
      cases c with
      | true => obtain ⟨f', b', e⟩ := ih f false; exact ⟨f', b', by rw [List.cons_append, topAll, topAll, e]; rfl⟩
      | false =>
        obtain ⟨f', b', e⟩ := ih f false
        refine ⟨f', b', ?_⟩
        cases l with
        | nil => exact absurd (h _ rfl) (by simp [isText])
        | cons z l => rw [List.cons_append, topAll, topAll, e]; rfl
    | elem n as cs => obtain ⟨f', b', e⟩ := ih false true; exact ⟨f', b', by rw [List.cons_append, topAll, topAll, e]; rfl⟩
    | comment v => obtain ⟨f', b', e⟩ := ih false false; exact ⟨f', b', by rw [List.cons_append, topAll, topAll, e]; rfl⟩
    | decl v => obtain ⟨f', b', e⟩ := ih false false; exact ⟨f', b', by rw [List.cons_append, topAll, topAll, e]; rfl⟩
    | unknown v => obtain ⟨f', b', e⟩ := ih false false; exact ⟨f', b', by rw [List.cons_append, topAll, topAll, e]; rfl⟩

theorem last_top {l : List Node} (h : LastNode l) (f b : Bool) : LastNode (topAll f b l) := by
  induction l generalizing f b with
  | nil => intro x hx; rw [topAll] at hx; cases hx
  | cons y l ih =>
    have key : ∀ z f b, topAll f b l = [] → isText z = isText y → isText z = false := by
      intro z f b e hz
      cases l with
      | nil => rw [hz]; exact h y rfl
      | cons u l => cases u with
        | text c v => cases c <;> (rw [topAll] at e; cases e)
        | _ => rw [topAll] at e; cases e
    have step : ∀ z f b, isText z = isText y → LastNode (z :: topAll f b l) := by
      intro z f b hz x hx
      rw [Option.mem_def, List.getLast?_cons] at hx
      cases e : (topAll f b l).getLast? with
      | none =>
        rw [e] at hx; cases hx
        exact key _ f b (List.getLast?_eq_none_iff.1 e) hz
      | some u =>
        rw [e] at hx; cases hx
        exact ih (fun z hz => h z (by rw [Option.mem_def] at hz ⊢; rw [List.getLast?_cons, hz]; rfl)) f b _ e
    cases y with
    | text c v => cases c <;> (rw [topAll]; exact step _ _ _ rfl)
    | elem n as cs => rw [topAll, indent]; exact step _ _ _ rfl
    | _ => rw [topAll]; exact step _ _ _ rfl

theorem last_decls {ds ns : List Node} (h : ∀ x ∈ ds, GoodDecl x) (hn : LastNode ns) : LastNode (ds ++ ns) := by
  intro x hx
  rw [Option.mem_def, List.getLast?_append] at hx
  cases e : ns.getLast? with
  | none =>
    rw [e] at hx
    obtain ⟨v, rfl, -⟩ := h x (List.mem_of_getLast? hx)
    rfl
  | some y => rw [e] at hx; cases hx; exact hn _ e

/-- the printed text of a document is read as what is left of the document, or not at all -/
theorem reads_top {l : List Node} (h : LooseDoc l) {s : Printer} (hs : Out0 s) (ho : s.out = []) : ∃ s', acceptAll l s = .ok s' ∧ NoNul s'.out ∧
    (LastNode (settleAll (topAll s.first false l)) ∧ parseNodes s'.out.length true [] s'.out = .atEnd (settleAll (topAll s.first false l)) ∨
      ¬ LastNode (settleAll (topAll s.first false l)) ∧ ∃ e, parseNodes s'.out.length true [] s'.out = .failed e) := by
  obtain ⟨ds, ns, rfl, h1, h2⟩ := h
  have fine : LastNode (settleAll (topAll s.first false (ds ++ ns))) → ∃ s', acceptAll (ds ++ ns) s = .ok s' ∧ NoNul s'.out ∧
      (LastNode (settleAll (topAll s.first false (ds ++ ns))) ∧ parseNodes s'.out.length true [] s'.out = .atEnd (settleAll (topAll s.first false (ds ++ ns))) ∨
      ¬ LastNode (settleAll (topAll s.first false (ds ++ ns))) ∧ ∃ e, parseNodes s'.out.length true [] s'.out = .failed e) := by
    intro hl
    obtain ⟨s', t, g1, g2, -, g4⟩ := top_decls h2 ds s hs h1
    rw [ho, List.nil_append] at g2
    rw [← g2] at g4
    have hw := g4 hl
    exact ⟨s', g1, writesDoc_noNul hw, .inl ⟨hl, reads_doc hw _ [] rfl (Nat.le_refl _)⟩⟩
  rcases List.eq_nil_or_concat ns with rfl | ⟨m, x, rfl⟩
  · exact fine (last_settle (last_top (last_decls h1 (fun x hx => by cases hx)) _ _))
  · rw [List.concat_eq_append] at h2 fine ⊢
    obtain ⟨k1, k2, k3⟩ := loose_concat h2
    cases hx : isText x with
    | false => exact fine (last_settle (last_top (last_decls h1 (last_concat.2 hx)) _ _))
    | true =>
      replace k3 := k3 hx
      cases x with
      | text c u => cases c with
        | true => exact absurd hx (by simp [isText])
        | false =>
          have k2 : Fit u := by rwa [Loose] at k2
          have hlast := last_decls h1 k3
          obtain ⟨f', b', hsplit⟩ := topAll_concat (x := .text false u) hlast s.first false
          rw [List.append_assoc] at hsplit
          have hset : settleAll (topAll s.first false (ds ++ (m ++ [.text false u]))) =
              settleAll (topAll s.first false (ds ++ m)) ++ settleAll [.text false (nl b' ++ u)] := by
            rw [hsplit, settleAll_append, topAll, topAll, brk, List.append_nil]
          have hm := last_settle (last_top hlast s.first false)
          by_cases hb : Blank u
          · refine fine ?_
            rw [hset, settleAll, if_pos (by simpa [isBlank] using blank_app (blank_lf b') hb), settleAll, List.append_nil]
            exact hm
          · have hvis := visible_of hb
            have hbb : ¬ Blank (nl b' ++ u) := fun h => hb fun c hc => h c (by simp [hc])
            obtain ⟨s1, t, g1, g2, g3, g4⟩ := top_decls k1 ds s hs h1
            rw [ho, List.nil_append] at g2
            have hw := g4 hm
            rw [← g2] at hw
            obtain ⟨q1, -, -⟩ := top_chars g3 false u
            rw [if_neg (by simp), string_shown [] (by simpa using k2.2), List.nil_append] at q1
            have hv := shown_plain k2.1
            refine ⟨s1.pushText false u, ?_, ?_, .inr ⟨?_, .parsingText, ?_⟩⟩
            · rw [← List.append_assoc, acceptAll_append, g1]
              change acceptAll [.text false u] s1 = _
              rw [acceptAll, Node.accept]
              change acceptAll [] _ = _
              rw [acceptAll]
            · rw [q1]; exact noNul_append (writesDoc_noNul hw) fun b hb => (hv b hb).1
            · rw [hset, settleAll, if_neg (by simpa [isBlank] using hbb), settleAll, settle, last_concat]
              simp [isText]
            · obtain ⟨w, g, h3, h4, h5⟩ := reads_doc_then hw _ [] (shown true u) rfl (Nat.le_refl _)
              obtain ⟨b, hb, hbw⟩ := shown_visible k2.1 hvis
              have hpos := List.length_pos_of_mem hb
              obtain ⟨g, rfl⟩ : ∃ k, g = k + 1 := ⟨g - 1, by omega⟩
              have h60 : ∀ b ∈ w ++ shown true u, b ≠ 60 := by
                intro b hb
                rcases List.mem_append.1 hb with hb | hb
                · rintro rfl; exact absurd (h3 60 hb) (by decide)
                · exact (hv b hb).2
              have hi := identify_visible h60 ⟨b, List.mem_append_right _ hb, hbw⟩ []
              rw [List.append_nil] at hi
              rw [q1, h5, parseNodes, hi]
              simp only
              rw [show parseText (lit "<") (w ++ shown true u) = none from parseText_absent fun hh => h60 60 hh rfl]
      | _ => exact absurd hx (by simp [isText])

end Verif.Xml
