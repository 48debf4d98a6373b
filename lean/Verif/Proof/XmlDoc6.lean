import Verif.Proof.XmlDoc5
/-!
# What is read from the text of a document printed with indentation
-/
namespace Verif.Xml
open Tec Spec

theorem writesAll_widen {l : List Node} {t u : Str} (h : WritesAll true l t) (hu : Blank u) : WritesAll false l (u ++ t) := by
  cases h with
  | nil b h => rw [h rfl, List.append_nil]; exact .nil hu (fun h => nomatch h)
  | node b h1 h2 h3 =>
    rw [h1 rfl]
    have := WritesAll.node (after := false) hu (fun h => nomatch h) h2 h3
    simpa [List.append_assoc] using this

theorem newlines_spaces (n : Nat) : newlines (List.replicate n 32) = List.replicate n 32 := by
  refine newlines_same fun h => ?_
  have := (List.mem_replicate.1 h).2
  exact absurd this (by decide)

theorem newlines_padded (v : Str) (n : Nat) : newlines (v ++ List.replicate n 32) = newlines v ++ List.replicate n 32 := by
  cases n with
  | zero => simp
  | succ n =>
    fun_induction newlines v with
    | case1 l ih => simpa [newlines] using ih
    | case2 l hl ih =>
      rw [List.cons_append, newlines, ih]
      · rfl
      · intro m hm
        cases l with
        | nil => cases hm
        | cons c l => cases hm; exact hl l rfl
    | case3 l ih => simpa [newlines] using ih
    | case4 b l h1 h2 h3 ih =>
      rw [List.cons_append, newlines, ih]
      · rfl
      · intro m hb hm; exact h2 hb
      · exact h2
      · intro m hb hm
        cases l with
        | nil => cases hm
        | cons c l => cases hm; exact h3 l hb rfl
    | case5 => rw [List.nil_append, newlines_spaces]

theorem padding_spaces (k d : Nat) (l : List Node) : ∃ n, padding k d l = List.replicate n 32 := by
  unfold padding
  split
  · split
    · exact ⟨_, rfl⟩
    · exact ⟨0, rfl⟩
  · exact ⟨0, rfl⟩

theorem blank_pad {v : Str} {n : Nat} : Blank (v ++ List.replicate n 32) ↔ Blank v :=
  ⟨fun h b hb => h b (List.mem_append_left _ hb), fun h => blank_app h (blank_spaces n)⟩

theorem isBlank_indent (k d : Nat) (x : Node) : isBlank (indent k d x) = isBlank x := by
  cases x <;> simp [indent, isBlank]

/-- what is proved about printing a node that is not a text between elements -/
def LooseNode (x : Node) : Prop := ∀ (d : Nat) (s : Printer), At d s → Loose x → isText x = false →
  ∃ s' w sx w2, x.accept s = .ok s' ∧ s'.out = s.out ++ sealText s ++ w ++ sx ++ w2 ∧ Blank w ∧ Blank w2 ∧ (d ≠ 0 → w2 = []) ∧
    (0 ≤ s.textDepth → w = padding (tab s.compact) d [x]) ∧ WritesNode (settle (indent (tab s.compact) d x)) sx ∧ Went d s s' ∧ s'.justOpened = false

/-- and nodes one after the other -/
def LooseNodes (l : List Node) : Prop := ∀ (d : Nat) (s : Printer) (after : Bool), At d s → LooseAll l → (d = 0 → ∀ x ∈ l, isText x = false) →
  (after = true → 0 ≤ s.textDepth ∧ s.justOpened = false ∧ ∀ x ∈ l.head?, isText x = false) →
  ∃ s' t, acceptAll l s = .ok s' ∧
    s'.out = s.out ++ (if l = [] then [] else sealText s) ++ (if after then padding (tab s.compact) d l else []) ++ t ∧ Went d s s' ∧ (l = [] → t = []) ∧
    (s'.justOpened = if l = [] then s.justOpened else false) ∧
    ∀ w0 w, Blank w0 → Blank w → (d ≠ 0 → w0 = []) → (after = true → w0 = []) → (0 ≤ s'.textDepth → w = []) →
      WritesAll after (settleAll (indentAll (tab s.compact) d l)) (w0 ++ t ++ w)

theorem loose_elem {n : Str} {as : List (Str × Str)} {cs : List Node} (ih : LooseNodes cs) : LooseNode (.elem n as cs) := by
  intro d s hs hp _
  obtain ⟨hn, ha, hu, hc⟩ : IsName n ∧ (∀ a ∈ as, IsName a.1 ∧ Fit a.2) ∧ (as.map (·.1)).Nodup ∧ LooseAll cs := by rwa [Loose] at hp
  have hw := rawAttrs_loose ha hu
  obtain ⟨out, jo, st, fi, de, td, co⟩ := s
  obtain ⟨hd, ht⟩ := hs
  simp only at hd ht
  subst hd
  obtain ⟨⟨out', jo', st', fi', de', td', co'⟩, t, h1, h2, ⟨⟨h3, h4⟩, h5, h6⟩, ht0, h7, h8⟩ := ih (d + 1)
    (Printer.put (Printer.openElement ⟨out, jo, st, fi, d, td, co⟩ n) (attrsText (rawAttrs as))) false
    (by rw [open_eq]; exact ⟨by simp [Printer.put], by simp [Printer.put]; omega⟩) hc (fun h => by omega) (fun h => nomatch h)
  rw [open_eq] at h1 h2 h5 h6 h7 h8
  simp only [Printer.put] at h2 h3 h4 h5 h6 h7 h8
  subst h2 h3 h5 h7
  replace h6 := h6.symm
  subst h6
  have e : ((d + 1 : Nat) : Int) - 1 = d := by omega
  have hstep : Node.accept (.elem n as cs) ⟨out, jo, st, fi, d, td, co⟩ =
      (acceptAll cs (Printer.put (Printer.openElement ⟨out, jo, st, fi, d, td, co⟩ n) (attrsText (rawAttrs as)))).bind Printer.closeElement := by
    rw [Node.accept, push_attrs]; rfl
  rw [open_eq] at hstep
  have hacc := hstep.trans ((congrArg (Out.bind · Printer.closeElement) h1).trans close_eq)
  refine ⟨_, (if td < 0 ∧ ¬ fi = true ∧ ¬ co = true then lit "\n" else []) ++ List.replicate (tab co * d) 32,
    if cs = [] then lit "<" ++ n ++ attrsText (rawAttrs as) ++ lit "/>" else
      lit "<" ++ n ++ attrsText (rawAttrs as) ++ lit ">" ++ (t ++ (if td' < 0 ∧ ¬ co = true then lit "\n" ++ List.replicate (4 * d) 32 else [])) ++ lit "</" ++ n ++ lit ">",
    if (d : Int) = 0 ∧ ¬ co = true then lit "\n" else [], hacc, ?_, ?_, ?_, ?_, ?_, ?_, ?_, rfl⟩
  · simp only [sealText, e, Int.toNat_natCast]
    by_cases hcs : cs = []
    · rw [ht0 hcs]; simp [hcs]
    · simp [hcs]
  · exact blank_app (by split; exact blank_nl; exact blank_none) (blank_spaces _)
  · split
    · exact blank_nl
    · exact blank_none
  · intro hd; rw [if_neg (by omega)]
  · intro hh
    rw [if_neg (by simp only at hh; omega)]
    simp [padding, isElem]
  · rw [indent]
    split
    · next hcs =>
      subst hcs
      exact .sealed hn hw
    · next hcs =>
      refine .node hn hw ?_
      have := h8 [] (if td' < 0 ∧ ¬ co = true then lit "\n" ++ List.replicate (4 * d) 32 else []) blank_none
        (by split; exact blank_app blank_nl (blank_spaces _); exact blank_none) (fun _ => rfl) (fun _ => rfl) (fun hh => by rw [if_neg (by omega)])
      exact this
  · refine ⟨⟨e, ?_⟩, rfl, rfl⟩
    simp only [e]
    split <;> omega

theorem loose_text {v : Str} {l : List Node} (ih : LooseNodes l) : LooseNodes (.text false v :: l) := by
  intro d s after hs hp htop hafter
  cases after with
  | true => exact absurd ((hafter rfl).2.2 (.text false v) rfl) (by simp [isText])
  | false =>
  obtain ⟨hx, hmeet, hl⟩ : Fit v ∧ textsMeet (.text false v) l = false ∧ LooseAll l := by
    rw [LooseAll, Loose] at hp; exact hp
  have hd : d ≠ 0 := fun h => absurd (htop h _ List.mem_cons_self) (by simp [isText])
  obtain ⟨out, jo, st, fi, de, td, co⟩ := s
  obtain ⟨hd', ht⟩ := hs
  simp only at hd' ht
  subst hd'
  have hpush : Printer.pushText ⟨out, jo, st, fi, d, td, co⟩ false v = ⟨out ++ (if jo then lit ">" else []) ++ Printer.string true [] v, false, st, fi, d, (d : Int) - 1, co⟩ := by
    unfold Printer.pushText
    rw [seal_eq]
    simp [Printer.put, sealText]
  obtain ⟨s', t, h1, h2, h3, -, h7, h8⟩ := ih d (Printer.pushText ⟨out, jo, st, fi, d, td, co⟩ false v) true (by rw [hpush]; exact ⟨rfl, by simp only; omega⟩) hl
    (fun h => (hd h).elim) (fun _ => by
      rw [hpush]
      refine ⟨by simp only; omega, rfl, ?_⟩
      cases l with
      | nil => intro x hx; cases hx
      | cons y l => intro x hx; cases hx; simpa [textsMeet, isText] using hmeet)
  rw [hpush] at h2 h3 h7 h8
  simp only [sealText] at h2 h7 h8
  refine ⟨s', Printer.string true [] v ++ padding (tab co) d l ++ t, ?_, ?_, ⟨h3.at', h3.stack, h3.compact⟩, (fun h => by cases h), ?_, ?_⟩
  · rw [acceptAll, Node.accept]
    exact h1
  · rw [h2]; simp [sealText]
  · rw [h7]; simp
  · intro w0 w b0 b1 h0 _ h9
    obtain ⟨n, hn⟩ := padding_spaces (tab co) d l
    have := h8 [] w blank_none b1 (fun _ => rfl) (fun _ => rfl) h9
    rw [List.nil_append] at this
    rw [h0 hd, List.nil_append, indentAll, indent, padText, hn, settleAll, string_shown [] (by simpa using hx.2), List.nil_append]
    by_cases hb : Blank v
    · rw [if_pos (by simpa [isBlank] using blank_pad.2 hb), shown_blank hb]
      have := writesAll_widen this (blank_pad (n := n).2 hb)
      simpa [List.append_assoc] using this
    · rw [if_neg (by simpa [isBlank] using fun h => hb (blank_pad.1 h)), settle, newlines_padded]
      have hesc : Escapes 60 (shown true v ++ List.replicate n 32) (newlines v ++ List.replicate n 32) := by
        refine escapes_append (shown_escapes (.inr ⟨rfl, rfl⟩) hx.1) (escapes_spaces n) ?_
        cases n <;> simp [List.replicate]
      have := WritesAll.text hesc (escapes_visible hesc ?_) this
      · simpa [List.append_assoc] using this
      · obtain ⟨b, hb, hh⟩ := newlines_visible (visible_of hb)
        exact ⟨b, List.mem_append_left _ hb, hh⟩

theorem loose_cons {x : Node} {l : List Node} (hx : isText x = false) (ih1 : LooseNode x) (ih2 : LooseNodes l) : LooseNodes (x :: l) := by
  intro d s after hs hp htop hafter
  obtain ⟨hpx, -, hl⟩ : Loose x ∧ textsMeet x l = false ∧ LooseAll l := by rwa [LooseAll] at hp
  obtain ⟨s1, w, sx, w2, h1, h2, h3, h4, h5, h6, h7, h8, h9⟩ := ih1 d s hs hpx hx
  obtain ⟨s', t, g1, g2, g3, -, g4, g5⟩ := ih2 d s1 false h8.at' hl (fun h y hy => htop h y (by simp [hy])) (fun h => nomatch h)
  have hpad : padText (padding (tab s.compact) d l) (indent (tab s.compact) d x) = indent (tab s.compact) d x := by
    cases x with
    | text c v => cases c with
      | true => rw [indent, padText]; simp
      | false => exact absurd hx (by simp [isText])
    | _ => simp [indent, padText]
  have hseal : sealText s1 = [] := by rw [sealText, h9]; rfl
  rw [h8.compact] at g5
  refine ⟨s', (if after then [] else w) ++ sx ++ w2 ++ t, ?_, ?_, ⟨g3.at', g3.stack.trans h8.stack, g3.compact.trans h8.compact⟩, (fun h => by cases h), ?_, ?_⟩
  · rw [acceptAll, h1]
    exact g1
  · rw [g2, h2, hseal]
    cases after with
    | false => simp
    | true =>
      rw [h6 (hafter rfl).1]
      simp [padding]
  · rw [g4, h9]; simp
  · intro w0 wE b0 bE h0 ha hE
    have := g5 w2 wE h4 bE h5 (fun h => nomatch h) hE
    rw [indentAll, hpad, settleAll, isBlank_node (x := indent (tab s.compact) d x) (by cases x with
      | text c v => cases c with
        | true => simp [indent, isText]
        | false => exact absurd hx (by simp [isText])
      | _ => simp [indent, isText]), if_neg (by simp)]
    cases after with
    | false =>
      have := WritesAll.node (after := false) (blank_app b0 h3) (fun h => nomatch h) h7 this
      simpa [List.append_assoc] using this
    | true =>
      rw [ha rfl]
      have := WritesAll.node (after := true) blank_none (fun _ => rfl) h7 this
      simpa [List.append_assoc] using this

mutual

theorem looseNode : (x : Node) → LooseNode x
  | .elem n as cs => loose_elem (looseNodes cs)
  | .text false v => fun _ _ _ _ h => absurd h (by simp [isText])
  | .text true v => by
    intro d s hs hp _
    have hp : Clean v ∧ ¬ lit "]]>" <:+: v := by rwa [Loose] at hp
    obtain ⟨out, jo, st, fi, de, td, co⟩ := s
    obtain ⟨hd, ht⟩ := hs
    simp only at hd ht
    subst hd
    refine ⟨⟨out ++ (if jo then lit ">" else []) ++ (lit "<![CDATA[" ++ v ++ lit "]]>"), false, st, fi, d, (d : Int) - 1, co⟩, [], _, [], ?_, ?_, blank_none, blank_none,
      fun _ => rfl, fun _ => ?_, .cdata hp.1 hp.2, ⟨⟨rfl, by simp only; omega⟩, rfl, rfl⟩, rfl⟩
    · rw [Node.accept, Printer.pushText]
      rw [seal_eq]
      simp [Printer.put, sealText]
    · simp [sealText]
    · simp [padding, isElem]
  | .comment v => by
    intro d s hs hp _
    have hp : Clean v ∧ ¬ lit "-->" <:+: v := by rwa [Loose] at hp
    rw [indent]
    exact prints_marked hs (fun s => by rw [Node.accept]; rfl) (fun k => by simp [padding, isElem]) (.comment hp.1 hp.2)
  | .decl v => by
    intro d s hs hp _
    rw [Loose] at hp
    exact hp.elim
  | .unknown v => by
    intro d s hs hp _
    have hp : Clean v ∧ ¬ lit ">" <:+: v ∧ ¬ lit "--" <+: v ∧ ¬ lit "[CDATA[" <+: v := by rwa [Loose] at hp
    rw [indent]
    exact prints_marked hs (fun s => by rw [Node.accept]; rfl) (fun k => by simp [padding, isElem]) (.unknown hp.1 hp.2.1 hp.2.2)

theorem looseNodes : (l : List Node) → LooseNodes l
  | [] => by
    intro d s after hs _ _ hafter
    refine ⟨s, [], by rw [acceptAll], by simp [padding], ⟨hs, rfl, rfl⟩, fun _ => rfl, by simp, ?_⟩
    intro w0 w b0 b1 h0 h1 h2
    rw [indentAll]
    refine .nil (blank_app (blank_app b0 blank_none) b1) fun ha => ?_
    rw [h1 ha, h2 (hafter ha).1]
    rfl
  | x :: l => by
    cases hx : isText x with
    | true =>
      have ih := looseNodes l
      cases x with
      | text c v => cases c with
        | false => exact loose_text ih
        | true => exact absurd hx (by simp [isText])
      | _ => exact absurd hx (by simp [isText])
    | false => exact loose_cons hx (looseNode x) (looseNodes l)

end

/-! ## Documents -/

theorem settleAll_indent {k d : Nat} {ds ns : List Node} (h : ∀ x ∈ ds, GoodDecl x) : settleAll (ds ++ indentAll k d ns) = ds ++ settleAll (indentAll k d ns) :=
  settle_decls h

theorem loose_decls {ns : List Node} (hn : LooseAll ns) (hx : ∀ x ∈ ns, isText x = false) : ∀ (ds : List Node) (s : Printer), Top s →
    (∀ x ∈ ds, GoodDecl x) → ∃ s' t, acceptAll (ds ++ ns) s = .ok s' ∧ s'.out = s.out ++ t ∧ WritesDoc (ds ++ settleAll (indentAll (tab s.compact) 0 ns)) t
  | [], s, hs, _ => by
    obtain ⟨s', t, h1, h2, h3, -, -, h5⟩ := looseNodes ns 0 s false hs.at' hn (fun _ => hx) (fun h => nomatch h)
    refine ⟨s', t, h1, ?_, .nodes (last_settle fun x h => indentAll_texts hx x (List.mem_of_getLast? h)) ?_⟩
    · rw [h2]; simp [sealText, hs.closed]
    · have := h5 [] [] blank_none blank_none (fun _ => rfl) (fun _ => rfl) (fun _ => rfl)
      simpa using this
  | x :: ds, s, hs, hd => by
    obtain ⟨v, rfl, hc, he⟩ := hd x (by simp)
    obtain ⟨w, b, -, e⟩ := newLine_ok (s := s.sealed) (d := 0) (by rw [seal_eq]; exact ⟨hs.at'.depth, hs.at'.text⟩)
    have hpush : s.pushDeclaration v = { s with first := false, justOpened := false, out := s.out ++ w ++ (lit "<?" ++ v ++ lit "?>") } := by
      unfold Printer.pushDeclaration
      rw [e, seal_eq]
      simp [Printer.put, sealText, hs.closed]
    obtain ⟨s', t, h1, h2, h3⟩ := loose_decls hn hx ds (s.pushDeclaration v) (by rw [hpush]; exact ⟨⟨hs.at'.depth, hs.at'.text⟩, rfl⟩) fun y hy => hd y (by simp [hy])
    rw [hpush] at h2 h3
    refine ⟨s', w ++ lit "<?" ++ v ++ lit "?>" ++ t, ?_, ?_, ?_⟩
    · rw [List.cons_append, acceptAll, Node.accept]; exact h1
    · rw [h2]; simp
    · rw [List.cons_append]; exact .decl b hc he h3

theorem loose_doc {l : List Node} (h : LooseDoc l) (top : ∀ x ∈ l, isText x = false) (compact bom : Bool) : ∃ t, printed compact bom l = .ok (bomText bom ++ t) ∧
    WritesDoc (settleAll (indentAll (tab compact) 0 l)) t := by
  obtain ⟨ds, ns, rfl, hd, hn⟩ := h
  have hstart : ∀ s : Printer, Top s → s.compact = compact → s.out = bomText bom → ∃ t, (acceptAll (ds ++ ns) s).bind (fun s => .ok s.out) = .ok (bomText bom ++ t) ∧
      WritesDoc (settleAll (indentAll (tab compact) 0 (ds ++ ns))) t := by
    intro s hs hc ho
    obtain ⟨s', t, h1, h2, h3⟩ := loose_decls hn (fun x hx => top x (by simp [hx])) ds s hs hd
    refine ⟨t, ?_, ?_⟩
    · rw [h1, ← ho, ← h2]; rfl
    · rw [indentAll_decls, settleAll_indent hd, ← hc]
      · exact h3
      · intro x hx
        obtain ⟨v, rfl, -⟩ := hd x hx
        exact ⟨rfl, rfl⟩
  cases bom with
  | true => exact hstart (Printer.put (.new compact) [0xEF, 0xBB, 0xBF]) ⟨⟨rfl, show (-1 : Int) < 0 by decide⟩, rfl⟩ rfl rfl
  | false => exact hstart (.new compact) ⟨⟨rfl, show (-1 : Int) < 0 by decide⟩, rfl⟩ rfl rfl

theorem tame_pad {x : Node} {k d : Nat} {l : List Node} (h : Tame x) : Tame (padText (padding k d l) x) := by
  obtain ⟨n, hn⟩ := padding_spaces k d l
  rw [hn]
  cases x with
  | text c v => cases c with
    | true => simpa [padText] using h
    | false =>
      rw [Tame] at h
      rw [padText, Tame]
      obtain ⟨h1, b, hb, hw⟩ := h
      refine ⟨fun hc => ?_, b, List.mem_append_left _ hb, hw⟩
      rcases List.mem_append.1 hc with hc | hc
      · exact h1 hc
      · exact absurd (List.mem_replicate.1 hc).2 (by decide)
  | _ => simpa [padText] using h

mutual

theorem indent_tame (k d : Nat) : (x : Node) → Tame x → Tame (indent k d x)
  | .elem n as cs => by rw [indent, Tame, Tame]; exact fun h => ⟨h.1, indentAll_tame k (d + 1) cs h.2⟩
  | .text c v => by rw [indent]; exact id
  | .comment v => by rw [indent]; exact id
  | .decl v => by rw [indent]; exact id
  | .unknown v => by rw [indent]; exact id

theorem indentAll_tame (k d : Nat) : (l : List Node) → TameAll l → TameAll (indentAll k d l)
  | [] => by rw [indentAll]; exact id
  | x :: l => by
    rw [indentAll, TameAll, TameAll]
    exact fun h => ⟨tame_pad (indent_tame k d x h.1), indentAll_tame k d l h.2⟩

end

theorem settle_indent_same {k : Nat} (hk : k ≠ 0) {l : List Node} (top : ∀ x ∈ l, isText x = false) : settleAll (indentAll k 0 l) = l ↔ TameAll l ∧ ApartAll l := by
  constructor
  · intro h
    have ht : TameAll l := by rw [← h]; exact settleAll_tame _
    rw [settleAll_same _ (indentAll_tame k 0 l ht)] at h
    exact ⟨ht, (indentAll_top hk top).1 h⟩
  · rintro ⟨h1, h2⟩
    rw [(indentAll_top hk top).2 h2, settleAll_same l h1]

end Verif.Xml
