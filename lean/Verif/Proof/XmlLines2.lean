import Verif.Proof.XmlLines
/-!
# The counter of lines is right everywhere: nodes
-/
namespace Verif.Xml.Lines
open Tec Spec

/-- the attributes as things -/
def attrItems (as : List (Nat × Str × Str)) : List (Nat × Item) := as.map fun a => (a.1, .attr a.2.1 a.2.2)

theorem attrsL_eq {c : Str} {line f : Nat} {name : Str} {as : List (Nat × Str × Str)} {o : Nat} {p : Str} {k : Nat} (h : At c o p k) (hf : p.length < f) :
    match parseAttrs f (as.map Prod.snd) p with
    | .error e => ∃ n told, attrsL line name f as p k = .error (e, n, told) ∧ (e = .parsingElement ∧ n = line ∧
        (told = some (lit "XMLElement name=" ++ name) ∧ Attrs p ∨ told = none ∧ ∃ t p', p = t ++ p' ∧ Attrs t ∧ Stray p') ∨
        e = .parsingAttribute ∧ told = some (lit "XMLElement name=" ++ name) ∧
          ∃ o' t, n = lineAt c o' ∧ Blames (c.drop o') e ∧ p = t ++ c.drop o' ∧ Attrs t)
    | .ok (as', sealed, r) => ∃ new o' k', attrsL line name f as p k = .ok (as ++ new, sealed, r, k') ∧ as' = (as ++ new).map Prod.snd ∧
        At c o' r k' ∧ Chain c o (attrItems new) o' := by
  induction f generalizing as o p k with
  | zero => omega
  | succ f ih =>
    rw [parseAttrs, attrsL]
    obtain ⟨w, e1, sw, q1⟩ := skipL_eq p k
    rw [q1]
    have h1 := h
    rw [e1] at h1
    replace h1 := h1.add
    have hhd := @skipSpace_head p
    generalize skipSpace p = p1 at *
    rcases p1 with _ | ⟨b, l⟩
    · exact ⟨line, _, rfl, .inl ⟨rfl, rfl, .inl ⟨rfl, by rw [e1, List.append_nil]; exact .done sw⟩⟩⟩
    have hsp : isSpace b = false := hhd rfl
    have hbad : isNameStart b = false → b ≠ 62 → (b = 47 → l.head? ≠ some 62) →
        ∃ t p', p = t ++ p' ∧ Attrs t ∧ Stray p' := fun h1 h2 h3 => ⟨w, _, e1, .done sw, b, l, rfl, hsp, h1, h2, h3⟩
    simp only
    by_cases hb : isNameStart b = true
    · rw [if_pos hb, if_pos hb]
      have ha := attrL_eq h1
      have hbl : Blames (c.drop (o + w.length)) .parsingAttribute := ⟨b, l, h1.rest, hb⟩
      cases hp : parseAttr (b :: l) with
      | none =>
        rw [hp] at ha
        simp only [ha]
        exact ⟨_, _, rfl, .inr ⟨trivial, rfl, _, w, h1.line, hbl, by rw [h1.rest]; exact e1, .done sw⟩⟩
      | some x =>
        obtain ⟨a, r⟩ := x
        rw [hp] at ha
        obtain ⟨o', k', a1, a2, a3, a4, w1, w2, q, raw, b1, b2, b3, b4, b5, b6⟩ := ha
        simp only [a1]
        have hany : (as.map Prod.snd).any (fun x => x.1 == a.1) = as.any (fun x => x.2.1 == a.1) := by rw [List.any_map]; rfl
        rw [hany]
        by_cases hd : as.any (fun x => x.2.1 == a.1) = true
        · rw [if_pos hd, if_pos hd]
          exact ⟨_, _, rfl, .inr ⟨rfl, rfl, _, w, h1.line, hbl, by rw [h1.rest]; exact e1, .done sw⟩⟩
        · rw [if_neg hd, if_neg hd]
          have hi := ih (as := as ++ [(k + w.count 10, a)]) a2 (by
            have := congrArg List.length e1
            rw [b6] at this
            simp only [List.length_append, List.length_cons, List.length_nil] at this
            omega)
          rw [b6] at e1
          have more : ∀ {t : Str}, Attrs t → Attrs (w ++ (a.1 ++ (w1 ++ ([61] ++ (w2 ++ ([q] ++ (raw ++ ([q] ++ t)))))))) :=
            fun ht => .attr sw b1 b2 b3 b4 b5 ht
          rw [List.map_append] at hi
          simp only [List.map_cons, List.map_nil] at hi
          cases hr : parseAttrs f (as.map Prod.snd ++ [a]) r with
          | error e =>
            rw [hr] at hi
            obtain ⟨n, told, g1, g2⟩ := hi
            refine ⟨n, told, g1, ?_⟩
            rcases g2 with ⟨g2, g3, ⟨g4, g5⟩ | ⟨g4, t, p', g5, g6, g7⟩⟩ | ⟨g2, g3, o2, t, g4, g5, g6, g7⟩
            · exact .inl ⟨g2, g3, .inl ⟨g4, by rw [e1]; exact more g5⟩⟩
            · exact .inl ⟨g2, g3, .inr ⟨g4, _, p', by rw [e1, g5]; simp, more g6, g7⟩⟩
            · exact .inr ⟨g2, g3, o2, _, g4, g5, by rw [e1, g6]; simp, more g7⟩
          | ok y =>
            obtain ⟨as', sealed, r'⟩ := y
            rw [hr] at hi
            obtain ⟨new, o'', k'', g1, g2, g3, g4⟩ := hi
            refine ⟨(k + w.count 10, a) :: new, o'', k'', by rw [g1]; simp, by rw [g2]; simp, g3, ?_⟩
            exact ⟨o + w.length, by omega, h1.line, a4, g4.mono a3⟩
    · rw [if_neg hb, if_neg hb]
      by_cases hc : b = 62
      · rw [if_pos hc, if_pos hc]
        subst hc
        have := At.add' (w := [62]) (p := l) h1 (by decide)
        exact ⟨[], _, _, by simp, by simp, this, by show o ≤ _; omega⟩
      · rw [if_neg hc, if_neg hc]
        by_cases hs : b = 47
        · rw [if_pos hs, if_pos hs]
          subst hs
          rcases l with _ | ⟨d, r⟩
          · exact ⟨_, _, rfl, .inl ⟨rfl, rfl, .inr ⟨rfl, hbad (by simpa using hb) hc (by simp)⟩⟩⟩
          by_cases hd : d = 62
          · subst hd
            have := At.add' (w := [47, 62]) (p := r) h1 (by decide)
            exact ⟨[], _, _, by simp, by simp, this, by show o ≤ _; omega⟩
          · split
            · rename_i hh
              split at hh
              · rename_i heq; injection heq with heq _; exact absurd heq hd
              · injection hh with hh
                subst hh
                split
                · rename_i heq; injection heq with heq _; exact absurd heq hd
                · exact ⟨_, _, rfl, .inl ⟨rfl, rfl, .inr ⟨rfl, hbad (by simpa using hb) hc (by simpa using hd)⟩⟩⟩
            · rename_i hh
              split at hh
              · rename_i heq; injection heq with heq _; exact absurd heq hd
              · cases hh
        · rw [if_neg hs, if_neg hs]
          exact ⟨_, _, rfl, .inl ⟨rfl, rfl, .inr ⟨rfl, hbad (by simpa using hb) hc (fun h => absurd h hs)⟩⟩⟩

/-- the tag of an element that begins at `o` -/
theorem tagL_eq {c : Str} {o : Nat} {q : Str} (h0 : c.drop o = 60 :: q) (h : At c (o + 1) q (lineAt c o)) :
    match parseTag q with
    | .error e => ∃ o' told, tagL (lineAt c o) q (lineAt c o) = .error (e, lineAt c o', told) ∧ Blames (c.drop o') e ∧ Tells c o' e told
    | .ok (n, as', cl, r) => ∃ as o' k', tagL (lineAt c o) q (lineAt c o) = .ok (n, as, cl, r, k') ∧ as' = as.map Prod.snd ∧
        At c o' r k' ∧ Chain c (o + 1) (attrItems as) o' ∧ Stands (c.take o) (c.drop o) (.elem n) := by
  unfold parseTag tagL
  obtain ⟨w, e1, sw, q1⟩ := skipL_eq q (lineAt c o)
  simp only [q1]
  have hs := h0
  have h1 := h
  rw [e1] at h1 hs
  replace h1 := h1.add
  generalize skipSpace q = p1 at *
  obtain ⟨s, p2, e2, hs2, hg, hsome⟩ : ∃ s p2, p1 = s ++ p2 ∧ (s = [] ∨ s = [47]) ∧ (strip [47] p1).getD p1 = p2 ∧
      ((strip [47] p1).isSome = true ↔ s = [47]) := by
    cases hst : strip [47] p1 with
    | none => exact ⟨[], p1, rfl, .inl rfl, rfl, by simp⟩
    | some r => exact ⟨[47], r, strip_some hst, .inr rfl, rfl, by simp⟩
  rw [hg]
  generalize (strip [47] p1).isSome = isC at *
  subst e2
  have h2 := h1.add' (by rcases hs2 with rfl | rfl <;> decide)
  cases hn : parseName p2 with
  | none => exact ⟨o, none, rfl, ⟨60, q, h0, by decide⟩, rfl⟩
  | some x =>
    obtain ⟨n, p3⟩ := x
    obtain ⟨e3, nm⟩ := parseName_some hn
    have hr : ∀ b ∈ p3.head?, isNameChar b = false := by
      cases p2 with
      | nil => cases hn
      | cons b l =>
        rw [parseName] at hn
        split at hn
        · injection hn with hn
          injection hn with _ hn
          rw [← hn]
          intro b hb
          have := List.head?_dropWhile_not isNameChar l
          rw [Option.mem_def] at hb
          rw [hb] at this
          simpa using this
        · cases hn
    subst e3
    have h3 := h2.add' (name_no_lf nm)
    have hop : Opens n p3 (c.drop o) := ⟨nm, w, s, sw, hs2, by rw [hs]; simp, hr⟩
    have ha := attrsL_eq (line := lineAt c o) (f := p3.length + 1) (name := n) (as := []) h3 (Nat.lt_succ_self _)
    simp only [List.map_nil] at ha
    simp only
    cases hp : parseAttrs (p3.length + 1) [] p3 with
    | error e =>
      rw [hp] at ha
      obtain ⟨m, told, g1, g2⟩ := ha
      rw [g1]
      rcases g2 with ⟨rfl, rfl, g3⟩ | ⟨rfl, g2, o', t, rfl, g3, g4, g5⟩
      · exact ⟨o, told, rfl, ⟨q, h0⟩, n, p3, hop, g3⟩
      · exact ⟨o', told, rfl, g3, n, o, t, by rw [← g4]; exact hop, g5, g2⟩
    | ok y =>
      obtain ⟨as', sealed, r⟩ := y
      rw [hp] at ha
      obtain ⟨new, o', k', g1, g2, g3, g4⟩ := ha
      rw [List.nil_append] at g1 g2
      rw [g1]
      refine ⟨new, o', k', rfl, g2, g3, g4.mono (by omega), p3, hop⟩

/-! ## Nodes -/

/-- what a node of this kind begins with -/
def header : Kind → Str
  | .decl => lit "<?"
  | .comment => lit "<!--"
  | .cdata => lit "<![CDATA["
  | .unknown => lit "<!"
  | .elem => lit "<"
  | .text => []

theorem identifyL_eq {c : Str} {o : Nat} {p : Str} {k : Nat} (h : At c o p k) :
    match identify p with
    | none => identifyL p k = none
    | some (.text, q) => ∃ w b l, q = p ∧ p = w ++ b :: l ∧ Spaces w ∧ isSpace b = false ∧ b ≠ 60 ∧
        identifyL p k = some (.text, lineAt c (o + w.length), p, k)
    | some (kd, q) => ∃ o1, o ≤ o1 ∧ identifyL p k = some (kd, lineAt c o1, q, lineAt c o1) ∧ c.drop o1 = header kd ++ q ∧
        At c (o1 + (header kd).length) q (lineAt c o1) := by
  unfold identify identifyL
  obtain ⟨w, e1, sw, q1⟩ := skipL_eq p k
  simp only [q1]
  have h1 := h
  rw [e1] at h1
  replace h1 := h1.add
  have hhd := @skipSpace_head p
  generalize skipSpace p = p1 at *
  by_cases hp : p1 = []
  · rw [if_pos hp, if_pos hp]
  · rw [if_neg hp, if_neg hp]
    have key : ∀ {kd : Kind} {r : Str}, p1 = header kd ++ r → (header kd).count 10 = 0 →
        o ≤ o + w.length ∧ c.drop (o + w.length) = header kd ++ r ∧ At c (o + w.length + (header kd).length) r (lineAt c (o + w.length)) := by
      intro kd r e hc
      subst e
      exact ⟨by omega, h1.rest, h1.here.add' hc⟩
    rw [h1.line]
    cases s1 : strip (lit "<?") p1 with
    | some r => obtain ⟨a, b, d⟩ := key (kd := .decl) (strip_some s1) (by decide); exact ⟨_, a, rfl, b, d⟩
    | none =>
    cases s2 : strip (lit "<!--") p1 with
    | some r => obtain ⟨a, b, d⟩ := key (kd := .comment) (strip_some s2) (by decide); exact ⟨_, a, rfl, b, d⟩
    | none =>
    cases s3 : strip (lit "<![CDATA[") p1 with
    | some r => obtain ⟨a, b, d⟩ := key (kd := .cdata) (strip_some s3) (by decide); exact ⟨_, a, rfl, b, d⟩
    | none =>
    cases s4 : strip (lit "<!") p1 with
    | some r => obtain ⟨a, b, d⟩ := key (kd := .unknown) (strip_some s4) (by decide); exact ⟨_, a, rfl, b, d⟩
    | none =>
    cases s5 : strip (lit "<") p1 with
    | some r => obtain ⟨a, b, d⟩ := key (kd := .elem) (strip_some s5) (by decide); exact ⟨_, a, rfl, b, d⟩
    | none =>
      rcases p1 with _ | ⟨b, l⟩
      · exact absurd rfl hp
      · refine ⟨w, b, l, rfl, e1, sw, hhd rfl, ?_, rfl⟩
        rintro rfl
        exact strip_none s5 ⟨l, rfl⟩

theorem nodes_append (a b : List LNode) : nodes (a ++ b) = nodes a ++ nodes b := by
  induction a with
  | nil => rw [List.nil_append, nodes, List.nil_append]
  | cons x a ih => rw [List.cons_append, nodes, nodes, ih, List.cons_append]

theorem items_append (a b : List LNode) : items (a ++ b) = items a ++ items b := by
  induction a with
  | nil => rw [List.nil_append, items, List.nil_append]
  | cons x a ih => rw [List.cons_append, items, items, ih, List.append_assoc]

theorem nodes_decl (a : List LNode) : (nodes a).all Node.isDecl = a.all LNode.isDecl := by
  induction a with
  | nil => rw [nodes]; rfl
  | cons x a ih =>
    rw [nodes, List.all_cons, List.all_cons, ih]
    congr 1
    cases x <;> simp [LNode.node, Node.isDecl, LNode.isDecl]

/-- what is true when the children of a node have been read -/
def Read (c : Str) (o : Nat) (cs : List LNode) (a : Ended) (b : EndedL) : Prop :=
  match a with
  | .atEnd ns => ∃ new, b = .atEnd (cs ++ new) ∧ ns = nodes (cs ++ new) ∧ Chain c o (items new) c.length
  | .byTag ns n r => ∃ new o' k', b = .byTag (cs ++ new) n r k' ∧ ns = nodes (cs ++ new) ∧ At c o' r k' ∧ Chain c o (items new) o'
  | .failed e => ∃ o' told, b = .failed e (lineAt c o') told ∧ Blames (c.drop o') e ∧ Tells c o' e told

/-- one more child and then the others -/
theorem Read.cons {c : Str} {o o' : Nat} {cs : List LNode} {x : LNode} {a : Ended} {b : EndedL} (h : Read c o' (cs ++ [x]) a b)
    (hx : Chain c o x.items o') : Read c o cs a b := by
  cases a with
  | atEnd ns =>
    obtain ⟨new, h1, h2, h3⟩ := h
    refine ⟨x :: new, by rw [h1]; simp, by rw [h2]; simp, ?_⟩
    rw [items]; exact hx.append h3
  | byTag ns n r =>
    obtain ⟨new, o2, k', h1, h2, h3, h4⟩ := h
    refine ⟨x :: new, o2, k', by rw [h1]; simp, by rw [h2]; simp, h3, ?_⟩
    rw [items]; exact hx.append h4
  | failed e => exact h

theorem nodesL_eq (c : Str) (f : Nat) {doc : Bool} {cs : List LNode} {o : Nat} {p : Str} {k : Nat} (h : At c o p k) :
    Read c o cs (parseNodes f doc (nodes cs) p) (nodesL f doc cs p k) := by
  induction f generalizing doc cs o p k with
  | zero => exact ⟨[], by simp [nodesL], by simp, h.le⟩
  | succ f ih =>
    have hid := identifyL_eq h
    rw [parseNodes, nodesL]
    have step : ∀ {x : LNode} {n : Node} {r : Str} {o' k' : Nat}, x.node = n → At c o' r k' → Chain c o x.items o' →
        Read c o cs (parseNodes f doc (nodes cs ++ [n]) r) (nodesL f doc (cs ++ [x]) r k') := by
      intro x n r o' k' hn ha hc
      have := ih (doc := doc) (cs := cs ++ [x]) ha
      rw [nodes_append, nodes, nodes, hn] at this
      exact this.cons hc
    cases hi : identify p with
    | none =>
      rw [hi] at hid
      simp only [hid]
      exact ⟨[], by simp, by simp, h.le⟩
    | some y =>
      obtain ⟨kd, q⟩ := y
      rw [hi] at hid
      have mark : ∀ {tag opens : Str} {o1 : Nat} {v r : Str}, tag ≠ [] → tag.count 10 = 0 → c.drop o1 = opens ++ q →
          At c (o1 + opens.length) q (lineAt c o1) → parseText tag q = some (v, r) →
          ∃ o2, o1 + opens.length < o2 ∧ At c o2 r (lineAt c o1 + v.count 10) ∧ Between opens tag (c.drop o1) (value false v) := by
        intro tag opens o1 v r ht h10 hd ha hp
        obtain ⟨e, ni⟩ := parseText_some ht hp
        subst e
        have hh := ha.add.add' h10
        have : 0 < tag.length := List.length_pos_iff.2 ht
        exact ⟨_, by omega, hh, v, r, by rw [hd]; simp, ni, rfl⟩
      cases kd with
      | comment =>
        obtain ⟨o1, g1, g2, g3, g4⟩ := hid
        simp only [g2, textL_eq]
        cases hp : parseText (lit "-->") q with
        | none => exact ⟨o1, none, rfl, ⟨q, g3, parseText_none hp (by decide)⟩, rfl⟩
        | some z =>
          obtain ⟨v, r⟩ := z
          obtain ⟨o2, m1, m2, m3⟩ := mark (by decide) (by decide) g3 g4 hp
          exact step (by rw [LNode.node]) m2 (by rw [LNode.items]; exact .one g1 rfl m3 (by omega))
      | decl =>
        obtain ⟨o1, g1, g2, g3, g4⟩ := hid
        simp only [g2, textL_eq]
        cases hp : parseText (lit "?>") q with
        | none => exact ⟨o1, none, rfl, ⟨q, g3⟩, .inl ⟨rfl, by rw [g3]; exact parseText_none hp (by decide)⟩⟩
        | some z =>
          obtain ⟨v, r⟩ := z
          obtain ⟨o2, m1, m2, m3⟩ := mark (by decide) (by decide) g3 g4 hp
          simp only [Option.map, nodes_decl]
          by_cases hw : (doc && cs.all LNode.isDecl) = true
          · rw [if_pos hw, if_pos hw]
            exact step (by rw [LNode.node]) m2 (by rw [LNode.items]; exact .one g1 rfl m3 (by omega))
          · rw [if_neg hw, if_neg hw]
            exact ⟨o1, _, rfl, ⟨q, g3⟩, .inr ⟨_, m3, rfl⟩⟩
      | cdata =>
        obtain ⟨o1, g1, g2, g3, g4⟩ := hid
        simp only [g2, textL_eq]
        cases hp : parseText (lit "]]>") q with
        | none => exact ⟨o1, none, rfl, ⟨q, g3, parseText_none hp (by decide)⟩, rfl⟩
        | some z =>
          obtain ⟨v, r⟩ := z
          obtain ⟨o2, m1, m2, m3⟩ := mark (by decide) (by decide) g3 g4 hp
          exact step (by rw [LNode.node]) m2 (by rw [LNode.items]; exact .one g1 rfl m3 (by omega))
      | unknown =>
        obtain ⟨o1, g1, g2, g3, g4⟩ := hid
        simp only [g2, textL_eq]
        cases hp : parseText (lit ">") q with
        | none => exact ⟨o1, none, rfl, ⟨q, g3, parseText_none hp (by decide)⟩, rfl⟩
        | some z =>
          obtain ⟨v, r⟩ := z
          obtain ⟨o2, m1, m2, m3⟩ := mark (by decide) (by decide) g3 g4 hp
          exact step (by rw [LNode.node]) m2 (by rw [LNode.items]; exact .one g1 rfl m3 (by omega))
      | text =>
        obtain ⟨w, b, l, rfl, e1, sw, nb, b60, g2⟩ := hid
        simp only [g2, textL_eq]
        have hrest := h.rest
        have hb : c.drop (o + w.length) = b :: l := by
          have := h; rw [e1] at this; exact this.add.rest
        cases hp : parseText (lit "<") q with
        | none =>
          refine ⟨o + w.length, none, rfl, ⟨⟨b, l, hb, nb⟩, ?_⟩, rfl⟩
          rw [hb]
          have := one_infix (parseText_none hp (by decide))
          rw [e1] at this
          exact fun hm => this (List.mem_append_right _ hm)
        | some z =>
          obtain ⟨v, r⟩ := z
          obtain ⟨e, ni⟩ := parseText_some (by decide) hp
          replace ni : (60 : Byte) ∉ v := one_infix ni
          replace e : q = v ++ 60 :: r := e
          simp only [Option.map]
          by_cases hr : r = []
          · rw [if_pos hr, if_pos hr]
            exact ⟨o + w.length, none, rfl, ⟨b, l, hb, nb⟩, rfl⟩
          · rw [if_neg hr, if_neg hr]
            obtain ⟨raw, ev⟩ : ∃ raw, v = w ++ b :: raw := by
              have e' := e.symm.trans e1
              rcases List.append_eq_append_iff.1 e' with ⟨t, t1, t2⟩ | ⟨t, t1, t2⟩
              · rcases t with _ | ⟨a, t⟩
                · simp only [List.nil_append] at t2
                  injection t2 with t2 _
                  exact absurd t2.symm b60
                · injection t2 with t2 _
                  subst t2
                  have := sw 60 (by rw [t1]; simp)
                  exact absurd this (by decide)
              · rcases t with _ | ⟨a, t⟩
                · simp only [List.nil_append] at t2
                  injection t2 with t2 _
                  exact absurd t2 b60
                · injection t2 with t2 _
                  subst t2
                  exact ⟨t, t1⟩
            subst ev
            have hl : l = raw ++ 60 :: r := by
              have e' := e.symm.trans e1
              rw [List.append_assoc] at e'
              have := List.append_cancel_left e'
              injection this with _ this
              exact this.symm
            have h2 : At c (o + (w ++ b :: raw).length) (60 :: r) (k + (w ++ b :: raw).count 10) := by
              have := h; rw [e] at this; exact this.add
            refine step (by rw [LNode.node]) h2 ?_
            rw [LNode.items]
            refine .one (o := o + w.length) (by omega) rfl ?_ (by simp)
            refine ⟨w, b, raw, r, ?_, sw, nb, by rw [hb, hl]; rfl, fun hm => ni (List.mem_append_right _ hm), rfl⟩
            refine ⟨c.take o, ?_⟩
            rw [List.take_add, hrest, e1, List.take_left]
      | elem =>
        obtain ⟨o1, g1, g2, g3, g4⟩ := hid
        simp only [g2]
        replace g3 : c.drop o1 = 60 :: q := g3
        have ht := tagL_eq g3 g4
        cases hp : parseTag q with
        | error e =>
          rw [hp] at ht
          obtain ⟨o', told, t1, t2⟩ := ht
          rw [t1]
          exact ⟨o', told, rfl, t2⟩
        | ok y =>
          obtain ⟨n, as', cl, r⟩ := y
          rw [hp] at ht
          obtain ⟨as, o', k', t1, rfl, t3, t4, t5⟩ := ht
          rw [t1]
          cases cl with
          | closing => exact ⟨[], o', k', by simp, by simp, t3, by have := t4.le; show o ≤ o'; omega⟩
          | closed =>
            refine step (by rw [LNode.node, nodes]) t3 ?_
            rw [LNode.items, items, List.append_nil]
            exact ⟨o1, g1, rfl, t5, t4⟩
          | opened =>
            simp only
            by_cases hr : r = []
            · rw [if_pos hr, if_pos hr]
              exact ⟨o1, _, rfl, ⟨q, g3⟩, n, t5, rfl⟩
            · rw [if_neg hr, if_neg hr]
              have hi := ih (doc := false) (cs := []) t3
              rw [nodes] at hi
              cases hk : parseNodes f false [] r with
              | failed e =>
                rw [hk] at hi
                obtain ⟨o2, told, i1, i2⟩ := hi
                rw [i1]
                exact ⟨o2, told, rfl, i2⟩
              | atEnd ns =>
                rw [hk] at hi
                obtain ⟨new, i1, -⟩ := hi
                rw [i1]
                exact ⟨o1, none, rfl, ⟨60, q, g3, by decide⟩, rfl⟩
              | byTag ns m r' =>
                rw [hk] at hi
                obtain ⟨new, o2, k2, i1, i2, i3, i4⟩ := hi
                rw [List.nil_append] at i1 i2
                rw [i1]
                simp only
                by_cases hm : m = n
                · rw [if_pos hm, if_pos hm]
                  refine step (by rw [LNode.node, i2]) i3 ?_
                  rw [LNode.items]
                  exact ⟨o1, g1, rfl, t5, t4.append i4⟩
                · rw [if_neg hm, if_neg hm]
                  exact ⟨o1, _, rfl, ⟨q, g3⟩, n, t5, rfl⟩

/-! ## Documents -/

theorem parseL_eq (content : Str) :
    match parse content with
    | .ok ns => ∃ ls, parseL content = .ok ls ∧ nodes ls = ns ∧ Chain (cstr content) 0 (items ls) (cstr content).length
    | .error e => ∃ n told, parseL content = .error (e, n, told) ∧ (e = .emptyDocument ∧ n = 0 ∧ told = none ∨
        ∃ o, n = lineAt (cstr content) o ∧ Blames ((cstr content).drop o) e ∧ Tells (cstr content) o e told) := by
  unfold parse parseL
  generalize cstr content = c
  have h : At c 0 c 1 := ⟨Nat.zero_le _, rfl, rfl⟩
  obtain ⟨w, e1, sw, q1⟩ := skipL_eq c 1
  simp only [q1]
  have h1 : At c 0 (w ++ skipSpace c) 1 := by rw [← e1]; exact h
  replace h1 := h1.add
  generalize skipSpace c = p1 at *
  obtain ⟨s, p, e2, hs2, hg⟩ : ∃ s p, p1 = s ++ p ∧ s.count 10 = 0 ∧ (strip [0xEF, 0xBB, 0xBF] p1).getD p1 = p := by
    cases hst : strip [0xEF, 0xBB, 0xBF] p1 with
    | none => exact ⟨[], p1, rfl, rfl, rfl⟩
    | some r => exact ⟨[0xEF, 0xBB, 0xBF], r, strip_some hst, by decide, rfl⟩
  rw [hg]
  clear hg q1
  rw [e2] at h1
  have h2 := h1.add' hs2
  by_cases hp : p = []
  · rw [if_pos hp, if_pos hp]
    exact ⟨0, none, rfl, .inl ⟨rfl, rfl, rfl⟩⟩
  · rw [if_neg hp, if_neg hp]
    have hr := nodesL_eq c p.length (doc := true) (cs := []) h2
    rw [nodes] at hr
    cases hn : parseNodes p.length true [] p with
    | atEnd ns =>
      rw [hn] at hr
      obtain ⟨new, g1, g2, g3⟩ := hr
      rw [g1]
      exact ⟨_, rfl, g2.symm, g3.mono (Nat.zero_le _)⟩
    | byTag ns m r =>
      rw [hn] at hr
      obtain ⟨new, o', k', g1, g2, g3, g4⟩ := hr
      rw [g1]
      have hh : Chain c o' [] c.length := g3.le
      have := (g4.mono (Nat.zero_le _)).append hh
      rw [List.append_nil] at this
      exact ⟨_, rfl, g2.symm, this⟩
    | failed e =>
      rw [hn] at hr
      obtain ⟨o', told, g1, g2⟩ := hr
      rw [g1]
      exact ⟨_, told, rfl, .inr ⟨o', rfl, g2⟩⟩

/-- a chain as a list of places -/
theorem Chain.places {c : Str} {lo hi : Nat} {xs : List (Nat × Item)} (h : Chain c lo xs hi) :
    ∃ ps : List (Nat × Item), xs = ps.map (fun x => (lineAt c x.1, x.2)) ∧ ps.Pairwise (fun x y => x.1 < y.1) ∧
      ∀ x ∈ ps, lo ≤ x.1 ∧ x.1 < hi ∧ Stands (c.take x.1) (c.drop x.1) x.2 := by
  induction xs generalizing lo with
  | nil => exact ⟨[], rfl, .nil, by simp⟩
  | cons x xs ih =>
    obtain ⟨o, h1, h2, h3, h4⟩ := h
    obtain ⟨ps, g1, g2, g3⟩ := ih h4
    refine ⟨(o, x.2) :: ps, ?_, .cons (fun y hy => (g3 y hy).1) g2, ?_⟩
    · rw [List.map_cons, ← g1, ← h2]
    · intro y hy
      rcases List.mem_cons.1 hy with rfl | hy
      · exact ⟨h1, h4.le, h3⟩
      · have := g3 y hy
        exact ⟨by omega, this.2⟩

theorem lineAt_mono (c : Str) {a b : Nat} (h : a ≤ b) : lineAt c a ≤ lineAt c b := by
  unfold lineAt
  have : (c.take a).count 10 ≤ (c.take b).count 10 := ((List.take_prefix_take_left (l := c) h).sublist).count_le _
  omega

theorem lineAt_le (c : Str) (a : Nat) : lineAt c a ≤ 1 + c.count 10 := by
  unfold lineAt
  have : (c.take a).count 10 ≤ c.count 10 := (List.take_sublist a c).count_le _
  omega

end Verif.Xml.Lines
