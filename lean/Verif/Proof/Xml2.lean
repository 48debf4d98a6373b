import Verif.Proof.Xml1
/-!
# A text that shows a tree is read as that tree
-/
namespace Verif.Xml
open Tec Spec

theorem identify_elem {w : Str} (hw : Blank w) {b : UInt8} (h1 : b ≠ 33) (h2 : b ≠ 63) (l : Str) :
    identify (w ++ 60 :: b :: l) = some (.elem, b :: l) := by
  unfold identify
  simp only
  rw [skipSpace_blank hw, skipSpace_cons (by decide), if_neg (by simp),
    show strip (lit "<?") (60 :: b :: l) = none from (strip_eq _ _ _).trans (strip_ne _ _ h2.symm)]
  simp only
  rw [show strip (lit "<!--") (60 :: b :: l) = none from (strip_eq _ _ _).trans (strip_ne _ _ h1.symm)]
  simp only
  rw [show strip (lit "<![CDATA[") (60 :: b :: l) = none from (strip_eq _ _ _).trans (strip_ne _ _ h1.symm)]
  simp only
  rw [show strip (lit "<!") (60 :: b :: l) = none from (strip_eq _ _ _).trans (strip_ne _ _ h1.symm)]
  simp only
  rw [show strip (lit "<") (60 :: b :: l) = some (b :: l) from strip_append [60] _]

theorem identify_comment {w : Str} (hw : Blank w) (l : Str) : identify (w ++ (lit "<!--" ++ l)) = some (.comment, l) := by
  unfold identify
  simp only
  rw [skipSpace_blank hw, show skipSpace (lit "<!--" ++ l) = lit "<!--" ++ l from skipSpace_cons (by decide) _, if_neg (by simp [lit]),
    show strip (lit "<?") (lit "<!--" ++ l) = none from (strip_eq _ _ _).trans (strip_ne _ _ (by decide))]
  simp only
  rw [strip_append]

theorem identify_decl (l : Str) : identify (lit "<?" ++ l) = some (.decl, l) := by
  unfold identify
  simp only
  rw [show skipSpace (lit "<?" ++ l) = lit "<?" ++ l from skipSpace_cons (by decide) _, if_neg (by simp [lit]), strip_append]

theorem identify_blank {w : Str} (hw : Blank w) : identify w = none := by
  unfold identify
  simp only
  have := skipSpace_blank hw []
  rw [List.append_nil] at this
  rw [this, skipSpace_nil, if_pos rfl]

theorem identify_visible {v : Str} (hp : ∀ b ∈ v, b ≠ 60) (hv : Visible v) (r : Str) : identify (v ++ r) = some (.text, v ++ r) := by
  obtain ⟨b, hb, h⟩ := hv
  have hb' : isSpace b = false := by
    rw [← Bool.not_eq_true, isSpace_iff]
    exact h
  have key : ∃ c q, skipSpace (v ++ r) = c :: q ∧ c ≠ 60 := by
    clear h
    induction v with
    | nil => simp at hb
    | cons a v ih =>
      cases ha : isSpace a with
      | false => exact ⟨a, v ++ r, by rw [List.cons_append, skipSpace_cons ha], (hp a (by simp))⟩
      | true =>
        have hne : b ∈ v := by
          rcases List.mem_cons.1 hb with rfl | hb
          · rw [ha] at hb'; cases hb'
          · exact hb
        obtain ⟨c, q, e, hc⟩ := ih (fun x hx => hp x (by simp [hx])) hne
        refine ⟨c, q, ?_, hc⟩
        rw [← e]
        unfold skipSpace
        rw [List.cons_append, List.dropWhile_cons, if_pos ha]
  obtain ⟨c, q, e, hc⟩ := key
  unfold identify
  simp only
  rw [e, if_neg (by simp)]
  have hs : ∀ pat : Str, strip (60 :: pat) (c :: q) = none := fun pat => strip_ne _ _ hc.symm
  rw [show strip (lit "<?") (c :: q) = none from hs _]
  simp only
  rw [show strip (lit "<!--") (c :: q) = none from hs _]
  simp only
  rw [show strip (lit "<![CDATA[") (c :: q) = none from hs _]
  simp only
  rw [show strip (lit "<!") (c :: q) = none from hs _]
  simp only
  rw [show strip (lit "<") (c :: q) = none from hs _]

theorem identify_text {v : Str} (hp : Plain v) (hv : Visible v) (r : Str) : identify (v ++ r) = some (.text, v ++ r) :=
  identify_visible (fun b hb => (hp b hb).2.2.2) hv r

/-- reading an end tag -/
theorem nodes_end {n : Str} (hn : IsName n) {w : Str} (hw : Blank w) (f : Nat) (doc : Bool) (cs : List Node) (r : Str) :
    parseNodes (f + 1) doc cs (w ++ 60 :: 47 :: (n ++ 62 :: r)) = .byTag cs n r := by
  rw [parseNodes, identify_elem hw (by decide) (by decide)]
  simp only
  rw [parseTag_end hn]

theorem nodes_blank {w : Str} (hw : Blank w) (f : Nat) (doc : Bool) (cs : List Node) : parseNodes f doc cs w = .atEnd cs := by
  cases f with
  | zero => rw [parseNodes]
  | succ f => rw [parseNodes, identify_blank hw]

/-- reading the tag of an element -/
theorem nodes_open {n : Str} {as : List (Str × Str)} (hn : IsName n) (ha : AttrsOk as) {w : Str} (hw : Blank w) (f : Nat) (doc : Bool)
    (cs ks : List Node) (r r' : Str) (hr : r ≠ []) (hin : parseNodes f false [] r = .byTag ks n r') :
    parseNodes (f + 1) doc cs (w ++ 60 :: (n ++ (attrsText as ++ 62 :: r))) = parseNodes f doc (cs ++ [.elem n as ks]) r' := by
  obtain ⟨b, l, e, hb⟩ := name_start hn
  have hi := identify_elem hw (nameStart_ne hb).2.1 (nameStart_ne hb).2.2.1 (l ++ (attrsText as ++ 62 :: r))
  rw [← List.cons_append, ← e] at hi
  rw [parseNodes, hi]
  simp only
  rw [(parseTag_ok hn ha r).1]
  simp only
  rw [if_neg hr, hin]
  simp only
  rw [if_pos trivial]

theorem nodes_sealed {n : Str} {as : List (Str × Str)} (hn : IsName n) (ha : AttrsOk as) {w : Str} (hw : Blank w) (f : Nat) (doc : Bool)
    (cs : List Node) (r : Str) :
    parseNodes (f + 1) doc cs (w ++ 60 :: (n ++ (attrsText as ++ 47 :: 62 :: r))) = parseNodes f doc (cs ++ [.elem n as []]) r := by
  obtain ⟨b, l, e, hb⟩ := name_start hn
  have hi := identify_elem hw (nameStart_ne hb).2.1 (nameStart_ne hb).2.2.1 (l ++ (attrsText as ++ 47 :: 62 :: r))
  rw [← List.cons_append, ← e] at hi
  rw [parseNodes, hi]
  simp only
  rw [(parseTag_ok hn ha r).2]

theorem nodes_text {v : Str} (hp : Plain v) (hv : Visible v) (f : Nat) (doc : Bool) (cs : List Node) (b : UInt8) (r : Str) :
    parseNodes (f + 1) doc cs (v ++ 60 :: b :: r) = parseNodes f doc (cs ++ [.text false v]) (60 :: b :: r) := by
  rw [parseNodes, identify_text hp hv]
  simp only
  rw [show parseText (lit "<") (v ++ 60 :: b :: r) = some (v, b :: r) from parseText_one (fun hh => (hp 60 hh).2.2.2 rfl) [] _]
  simp only
  rw [if_neg (by simp), value_plain true fun x hx => ⟨(hp x hx).1, (hp x hx).2.1, fun _ => (hp x hx).2.2.1⟩]

theorem nodes_comment {v : Str} (h : ∀ b ∈ v, b ≠ 0 ∧ b ≠ 13 ∧ b ≠ 45) {w : Str} (hw : Blank w) (f : Nat) (doc : Bool) (cs : List Node) (r : Str) :
    parseNodes (f + 1) doc cs (w ++ (lit "<!--" ++ (v ++ (lit "-->" ++ r)))) = parseNodes f doc (cs ++ [.comment v]) r := by
  rw [parseNodes, identify_comment hw]
  simp only
  rw [show parseText (lit "-->") (v ++ (lit "-->" ++ r)) = some (v, r) from parseText_one (fun hh => (h 45 hh).2.2 rfl) [45, 62] _]
  simp only
  rw [value_plain false fun x hx => ⟨(h x hx).1, (h x hx).2.1, fun hh => by cases hh⟩]

theorem all_length {l : List Node} {t : Str} (h : ShowsAll l t) : l.length ≤ t.length := by
  induction l generalizing t with
  | nil => simp
  | cons x l ih =>
    cases h with
    | @cons _ _ w s t hw hx hl =>
      have h1 := ih hl
      have h2 : 1 ≤ s.length := by cases hx <;> simp [lit] <;> omega
      simp only [List.length_cons, List.length_append]
      omega

theorem elem_form (n as t : Str) (r : Str) : lit "<" ++ n ++ as ++ lit ">" ++ t ++ r = 60 :: (n ++ (as ++ 62 :: (t ++ r))) := by
  simp [lit]

/-- what is proved about the text of one node -/
def ReadsNode (x : Node) (s : Str) : Prop := ∀ (f : Nat) (doc : Bool) (cs : List Node) (w r : Str), Blank w → (w ++ (s ++ r)).length ≤ f →
  parseNodes f doc cs (w ++ (s ++ r)) = parseNodes (f - 1) doc (cs ++ [x]) r

/-- what is proved about the text of several nodes -/
def ReadsAll (l : List Node) (t : Str) : Prop := ∀ (f : Nat) (doc : Bool) (cs : List Node) (r : Str), (t ++ r).length ≤ f →
  parseNodes f doc cs (t ++ r) = parseNodes (f - l.length) doc (cs ++ l) r

theorem shows_length {x : Node} {s : Str} (hx : Shows x s) : 1 ≤ s.length := by cases hx <;> simp [lit] <;> omega

theorem reads_node {n : Str} {as : List (Str × Str)} {ks : List Node} {t w' : Str} (hn : IsName n) (ha : AttrsOk as) (hk : ShowsAll ks t)
    (hw' : Blank w') (ih : ReadsAll ks t) :
    ReadsNode (.elem n as ks) (lit "<" ++ n ++ attrsText as ++ lit ">" ++ t ++ w' ++ lit "</" ++ n ++ lit ">") := by
  intro f doc cs w r hw hf
  obtain ⟨f, rfl⟩ : ∃ g, f = g + 1 := ⟨f - 1, by simp [lit] at hf; omega⟩
  simp only [List.append_assoc]
  refine nodes_open hn ha hw f doc cs ks (t ++ (w' ++ (lit "</" ++ (n ++ (lit ">" ++ r))))) r (by simp [lit]) ?_
  have hl := all_length hk
  simp only [List.append_assoc] at hf
  have hlen : (t ++ (w' ++ (lit "</" ++ (n ++ (lit ">" ++ r))))).length ≤ f := by
    simp only [List.length_append] at hf ⊢
    simp [lit] at hf ⊢; omega
  rw [ih f false [] _ hlen]
  obtain ⟨g, hg⟩ : ∃ g, f - ks.length = g + 1 := ⟨f - ks.length - 1, by simp [lit] at hlen; omega⟩
  rw [hg]
  exact nodes_end hn hw' g false ks r

theorem reads_cons {x : Node} {l : List Node} {w s t : Str} (hw : Blank w) (hx : Shows x s) (ih1 : ReadsNode x s) (ih2 : ReadsAll l t) :
    ReadsAll (x :: l) (w ++ s ++ t) := by
  intro f doc cs r hf
  simp only [List.append_assoc] at hf ⊢
  have h2 := shows_length hx
  rw [ih1 f doc cs w (t ++ r) hw hf, ih2 (f - 1) doc (cs ++ [x]) r (by simp at hf ⊢; omega)]
  simp only [List.append_assoc, List.singleton_append, List.length_cons]
  rw [show f - 1 - l.length = f - (l.length + 1) by omega]

theorem reads_leaf {n : Str} {as : List (Str × Str)} {v : Str} (hn : IsName n) (ha : AttrsOk as) (hp : Plain v) (hv : Visible v) :
    ReadsNode (.elem n as [.text false v]) (lit "<" ++ n ++ attrsText as ++ lit ">" ++ v ++ lit "</" ++ n ++ lit ">") := by
  intro f doc cs w r hw hf
  obtain ⟨f, rfl⟩ : ∃ g, f = g + 1 := ⟨f - 1, by simp [lit] at hf; omega⟩
  simp only [List.append_assoc]
  refine nodes_open hn ha hw f doc cs [.text false v] (v ++ (lit "</" ++ (n ++ (lit ">" ++ r)))) r (by simp [lit]) ?_
  obtain ⟨f, rfl⟩ : ∃ g, f = g + 2 := ⟨f - 2, by simp [lit] at hf; omega⟩
  exact (nodes_text hp hv (f + 1) false [] 47 (n ++ (lit ">" ++ r))).trans
    (nodes_end hn (w := []) (by intro b hb; cases hb) f false [.text false v] r)

theorem reads_sealed {n : Str} {as : List (Str × Str)} (hn : IsName n) (ha : AttrsOk as) :
    ReadsNode (.elem n as []) (lit "<" ++ n ++ attrsText as ++ lit "/>") := by
  intro f doc cs w r hw hf
  obtain ⟨f, rfl⟩ : ∃ g, f = g + 1 := ⟨f - 1, by simp [lit] at hf; omega⟩
  simp only [List.append_assoc]
  exact nodes_sealed hn ha hw f doc cs r

theorem reads_comment {v : Str} (hv : ∀ b ∈ v, b ≠ 0 ∧ b ≠ 13 ∧ b ≠ 45) : ReadsNode (.comment v) (lit "<!--" ++ v ++ lit "-->") := by
  intro f doc cs w r hw hf
  obtain ⟨f, rfl⟩ : ∃ g, f = g + 1 := ⟨f - 1, by simp [lit] at hf; omega⟩
  simp only [List.append_assoc]
  exact nodes_comment hv hw f doc cs r

theorem reads_nil : ReadsAll [] [] := by
  intro f doc cs r _
  simp

theorem reads_shows {x : Node} {s : Str} (h : Shows x s) : ReadsNode x s :=
  Shows.rec (motive_1 := fun x s _ => ReadsNode x s) (motive_2 := fun l t _ => ReadsAll l t)
    (fun hv => reads_comment hv) (fun hn ha => reads_sealed hn ha) (fun hn ha hp hv => reads_leaf hn ha hp hv)
    (fun hn ha hk hw ih => reads_node hn ha hk hw ih) reads_nil (fun hw hx _ ih1 ih2 => reads_cons hw hx ih1 ih2) h

theorem reads_all {l : List Node} {t : Str} (h : ShowsAll l t) : ReadsAll l t :=
  ShowsAll.rec (motive_1 := fun x s _ => ReadsNode x s) (motive_2 := fun l t _ => ReadsAll l t)
    (fun hv => reads_comment hv) (fun hn ha => reads_sealed hn ha) (fun hn ha hp hv => reads_leaf hn ha hp hv)
    (fun hn ha hk hw ih => reads_node hn ha hk hw ih) reads_nil (fun hw hx _ ih1 ih2 => reads_cons hw hx ih1 ih2) h

/-! ## No NUL in such a text -/

def NoNul (s : Str) : Prop := ∀ b ∈ s, b ≠ 0

theorem noNul_append {a b : Str} (h1 : NoNul a) (h2 : NoNul b) : NoNul (a ++ b) := by
  intro x hx
  rcases List.mem_append.1 hx with h | h
  · exact h1 x h
  · exact h2 x h

theorem name_noNul {n : Str} (h : IsName n) : NoNul n := by
  cases n with
  | nil => exact h.elim
  | cons a n =>
    intro b hb
    rcases List.mem_cons.1 hb with rfl | hb
    · rintro rfl; revert h; unfold IsName; intro h; exact absurd h.1 (by decide)
    · rintro rfl; exact absurd (h.2 0 hb) (by decide)

theorem attrs_noNul {as : List (Str × Str)} (h : AttrsOk as) : NoNul (attrsText as) := by
  intro b hb
  obtain ⟨a, ha, hb⟩ := List.mem_flatMap.1 hb
  obtain ⟨h1, h2⟩ := h.1 a ha
  refine noNul_append (noNul_append (noNul_append (noNul_append ?_ (name_noNul h1)) ?_) fun x hx => (h2 x hx).1) ?_ b hb <;>
  · unfold NoNul; decide

theorem blank_noNul {w : Str} (h : Blank w) : NoNul w := by
  rintro b hb rfl
  exact absurd (h 0 hb) (by decide)

theorem noNul_open {n : Str} {as : List (Str × Str)} (hn : IsName n) (ha : AttrsOk as) : NoNul (lit "<" ++ n ++ attrsText as) :=
  noNul_append (noNul_append (by unfold NoNul; decide) (name_noNul hn)) (attrs_noNul ha)

theorem noNul_elem {n : Str} {as : List (Str × Str)} {t : Str} (hn : IsName n) (ha : AttrsOk as) (ht : NoNul t) :
    NoNul (lit "<" ++ n ++ attrsText as ++ lit ">" ++ t ++ lit "</" ++ n ++ lit ">") :=
  noNul_append (noNul_append (noNul_append (noNul_append (noNul_append (noNul_open hn ha) (by unfold NoNul; decide)) ht)
    (by unfold NoNul; decide)) (name_noNul hn)) (by unfold NoNul; decide)

theorem all_noNul {l : List Node} {t : Str} (h : ShowsAll l t) : NoNul t := by
  refine ShowsAll.rec (motive_1 := fun _ s _ => NoNul s) (motive_2 := fun _ t _ => NoNul t) ?_ ?_ ?_ ?_ ?_ ?_ h
  · intro v hv
    exact noNul_append (noNul_append (by unfold NoNul; decide) fun b hb => (hv b hb).1) (by unfold NoNul; decide)
  · intro n as hn ha
    exact noNul_append (noNul_open hn ha) (by unfold NoNul; decide)
  · intro n as v hn ha hp _
    exact noNul_elem hn ha fun b hb => (hp b hb).1
  · intro n as cs t w hn ha _ hw ih
    have := noNul_elem hn ha (noNul_append ih (blank_noNul hw))
    simpa only [List.append_assoc] using this
  · intro b hb; cases hb
  · intro x l w s t hw _ _ h1 h2
    exact noNul_append (noNul_append (blank_noNul hw) h1) h2

/-- a document without a declaration -/
theorem parse_all {l : List Node} {t w : Str} (h : ShowsAll l t) (hl : l ≠ []) (hw : Blank w) : parse (t ++ w) = .ok l := by
  cases h with
  | nil => exact (hl rfl).elim
  | @cons x l w1 s t hw1 hx ht =>
    have hall : ShowsAll (x :: l) (w1 ++ s ++ t) := .cons hw1 hx ht
    have hall' : ShowsAll (x :: l) ([] ++ s ++ t) := .cons (by intro b hb; cases hb) hx ht
    obtain ⟨q, hq⟩ : ∃ q, s ++ t ++ w = 60 :: q := by
      cases hx <;> exact ⟨_, rfl⟩
    unfold parse
    simp only
    rw [cstr_plain (noNul_append (all_noNul hall) (blank_noNul hw)), show w1 ++ s ++ t ++ w = w1 ++ (s ++ t ++ w) by simp only [List.append_assoc],
      skipSpace_blank hw1, hq, skipSpace_cons (by decide), show strip [239, 187, 191] (60 :: q) = none from strip_ne _ _ (by decide), Option.getD_none,
      if_neg (by simp), ← hq]
    have := reads_all hall' (s ++ t ++ w).length true [] w (by simp)
    rw [List.nil_append] at this
    rw [this, nodes_blank hw]
    rfl

/-- a document with a declaration -/
theorem parse_decl {v : Str} (hv : ∀ b ∈ v, b ≠ 0 ∧ b ≠ 13 ∧ b ≠ 63) {l : List Node} {t w : Str} (h : ShowsAll l t) (hw : Blank w) :
    parse (lit "<?" ++ (v ++ (lit "?>" ++ (t ++ w)))) = .ok (.decl v :: l) := by
  unfold parse
  simp only
  have hn : NoNul (lit "<?" ++ (v ++ (lit "?>" ++ (t ++ w)))) := by
    refine noNul_append (by unfold NoNul; decide) (noNul_append (fun b hb => (hv b hb).1) (noNul_append (by unfold NoNul; decide) ?_))
    exact noNul_append (all_noNul h) (blank_noNul hw)
  obtain ⟨q, hq⟩ : ∃ q, lit "<?" ++ (v ++ (lit "?>" ++ (t ++ w))) = 60 :: q := ⟨_, rfl⟩
  obtain ⟨f, hf⟩ : ∃ f, (lit "<?" ++ (v ++ (lit "?>" ++ (t ++ w)))).length = f + 1 := ⟨_, rfl⟩
  rw [cstr_plain hn, hq, skipSpace_cons (by decide), show strip [239, 187, 191] (60 :: q) = none from strip_ne _ _ (by decide), Option.getD_none,
      if_neg (by simp), ← hq, hf, parseNodes, identify_decl]
  simp only
  rw [show parseText (lit "?>") (v ++ (lit "?>" ++ (t ++ w))) = some (v, t ++ w) from parseText_one (fun hh => (hv 63 hh).2.2 rfl) [62] _]
  simp only
  rw [if_pos (by rfl), value_plain false fun b hb => ⟨(hv b hb).1, (hv b hb).2.1, fun hh => by cases hh⟩,
    reads_all h f true _ w (by simp [lit] at hf ⊢; omega), nodes_blank hw]
  rfl

end Verif.Xml
