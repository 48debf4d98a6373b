import Verif.Proof.XmlExact2
import Verif.Proof.Json5
/-!
# Texts that are read as given nodes if and only if a condition holds
-/
namespace Verif.Xml
open Tec Spec

/-- the text is read as the nodes if and only if `P` -/
structure Exact (N : List Node) (t : Str) (P : Prop) : Prop where
  clean : NoNul t
  fwd : P → ∀ w, Blank w → ∃ w', Blank w' ∧ w'.length + N.length ≤ w.length + t.length ∧ ∀ (f : Nat) (doc : Bool) (cs : List Node) (r : Str),
    (w ++ (t ++ r)).length ≤ f → parseNodes f doc cs (w ++ (t ++ r)) = parseNodes (f - N.length) doc (cs ++ N) (w' ++ r)
  bwd : ∀ w, Blank w → ∀ (f : Nat) (doc : Bool) (cs : List Node) (r : Str) (L : List Node), (w ++ (t ++ r)).length ≤ f →
    (parseNodes f doc cs (w ++ (t ++ r))).kids = some L → cs ++ N <+: L → P

/-- the same for the content of an element -/
structure Inner (N : List Node) (t : Str) (P : Prop) : Prop where
  clean : NoNul t
  fwd : P → ∀ (f : Nat) (n r : Str), IsName n → (t ++ 60 :: 47 :: (n ++ 62 :: r)).length ≤ f →
    parseNodes f false [] (t ++ 60 :: 47 :: (n ++ 62 :: r)) = .byTag N n r
  bwd : ∀ (f : Nat) (r : Str), (t ++ 60 :: r).length ≤ f → (parseNodes f false [] (t ++ 60 :: r)).kids = some N → P

theorem Exact.iff {N : List Node} {t : Str} {P Q : Prop} (h : Exact N t P) (e : P ↔ Q) : Exact N t Q :=
  ⟨h.clean, fun q => h.fwd (e.2 q), fun w hw f doc cs r L a b c => e.1 (h.bwd w hw f doc cs r L a b c)⟩

theorem Exact.blank {w : Str} (hw : Blank w) : Exact [] w True := by
  refine ⟨blank_noNul hw, fun _ v hv => ⟨v ++ w, blank_append hv hw, by simp, fun f doc cs r _ => ?_⟩, fun _ _ _ _ _ _ _ _ _ _ => trivial⟩
  rw [List.append_assoc, List.append_nil]
  rfl

theorem Exact.append {N M : List Node} {s t : Str} {P Q : Prop} (h1 : Exact N s P) (h2 : Exact M t Q) : Exact (N ++ M) (s ++ t) (P ∧ Q) := by
  refine ⟨noNul_append h1.clean h2.clean, fun hpq w hw => ?_, fun w hw f doc cs r L hf hk hp => ?_⟩
  · obtain ⟨w1, b1, l1, e1⟩ := h1.fwd hpq.1 w hw
    obtain ⟨w2, b2, l2, e2⟩ := h2.fwd hpq.2 w1 b1
    refine ⟨w2, b2, by simp only [List.length_append] at *; omega, fun f doc cs r hf => ?_⟩
    rw [List.append_assoc] at hf ⊢
    rw [e1 f doc cs (t ++ r) hf, e2 _ _ _ _ (by simp only [List.length_append] at *; omega), List.append_assoc, List.length_append, Nat.sub_sub]
  · rw [List.append_assoc] at hf hk
    have p := h1.bwd w hw f doc cs (t ++ r) L hf hk (by
      rw [← List.append_assoc] at hp
      exact (List.prefix_append _ _).trans hp)
    refine ⟨p, ?_⟩
    obtain ⟨w1, b1, l1, e1⟩ := h1.fwd p w hw
    rw [e1 f doc cs (t ++ r) hf] at hk
    exact h2.bwd w1 b1 _ doc _ r L (by simp only [List.length_append] at *; omega) hk (by rw [List.append_assoc]; exact hp)

theorem Exact.map {α : Type} {g : α → Node} {h : α → Str} {P : α → Prop} (l : List α) (e : ∀ x ∈ l, Exact [g x] (h x) (P x)) :
    Exact (l.map g) (l.flatMap h) (∀ x ∈ l, P x) := by
  induction l with
  | nil => exact (Exact.blank blank_nil).iff (by simp)
  | cons a l ih =>
    rw [List.map_cons, List.flatMap_cons]
    exact ((e a (by simp)).append (ih fun x hx => e x (by simp [hx]))).iff (by simp)

/-- a text that shows a node is read as that one only -/
theorem Exact.known {x y : Node} {s : Str} (h : Shows y s) : Exact [x] s (y = x) := by
  have hl := shows_length h
  refine ⟨shows_noNul h, ?_, fun w hw f doc cs r L hf hk hp => ?_⟩
  · rintro rfl w hw
    exact ⟨[], blank_nil, by simp; omega, fun f doc cs r hf => reads_shows h f doc cs w r hw hf⟩
  · rw [reads_shows h f doc cs w r hw hf] at hk
    exact prefix_last (nodes_grow _ _ _ _ _ hk) hp

theorem Exact.inner {N : List Node} {t : Str} {P : Prop} (h : Exact N t P) : Inner N t P := by
  refine ⟨h.clean, fun p f n r hn hf => ?_, fun f r hf hk => ?_⟩
  · obtain ⟨w, hw, hl, e⟩ := h.fwd p [] blank_nil
    have := e f false [] (60 :: 47 :: (n ++ 62 :: r)) (by simpa using hf)
    rw [List.nil_append] at this
    rw [this]
    obtain ⟨g, hg⟩ : ∃ g, f - N.length = g + 1 := ⟨f - N.length - 1, by simp at hf hl; omega⟩
    rw [hg]
    exact nodes_end hn hw g false N r
  · exact h.bwd [] blank_nil f false [] (60 :: r) N hf hk (List.prefix_refl _)

theorem nodes_literal {v : Str} (hp : 60 ∉ v) (hl : Literal v) (hv : Visible v) (f : Nat) (doc : Bool) (cs : List Node) (b : UInt8) (r : Str) :
    parseNodes (f + 1) doc cs (v ++ 60 :: b :: r) = parseNodes f doc (cs ++ [.text false v]) (60 :: b :: r) := by
  rw [parseNodes, identify_visible (fun b hb e => hp (e ▸ hb)) hv]
  simp only
  rw [show parseText (lit "<") (v ++ 60 :: b :: r) = some (v, b :: r) from parseText_one hp [] _]
  simp only
  rw [if_neg (by simp), (value_literal v).2 hl]

theorem visible_or (v : Str) : Visible v ∨ Blank v := by
  by_cases h : Visible v
  · exact .inl h
  · exact .inr (not_visible h)

theorem blank_unseen {v : Str} (h : Blank v) : ¬ Visible v := by
  rintro ⟨b, hb, hh⟩
  exact hh (h b hb)

/-- a text of the log between two tags -/
theorem Inner.text (v : Str) : Inner (content v) (cstr v) (TextLoads v) := by
  refine ⟨cstr_noNul v, fun h f n r hn hf => ?_, fun f r hf hk => ?_⟩
  · have hc : cstr v = v := by
      rcases h with h | h
      · exact cstr_plain (blank_noNul h)
      · exact cstr_plain fun b hb => (h.2.clean b hb).1
    rw [hc] at hf ⊢
    obtain ⟨f, rfl⟩ : ∃ g, f = g + 2 := ⟨f - 2, by simp at hf; omega⟩
    rcases visible_or v with hv | hb
    · rcases h with h | h
      · exact (blank_unseen h hv).elim
      · unfold content
        rw [if_pos hv, nodes_literal h.1 h.2 hv]
        exact nodes_end hn blank_nil f false _ r
    · unfold content
      rw [if_neg (blank_unseen hb)]
      exact nodes_end hn hb _ false [] r
  · rcases visible_or v with hv | hb
    · unfold content at hk
      rw [if_pos hv] at hk
      obtain ⟨g, rfl, hfirst⟩ := first_node (x := .text false v) hk (List.prefix_refl _)
      have inv : ∀ x, FirstNode g (cstr v ++ 60 :: r) x → x = .text false v → ∃ q v' r', identify (cstr v ++ 60 :: r) = some (.text, q) ∧
          parseText (lit "<") q = some (v', r') ∧ value true v' = v := by
        intro x hx e
        cases hx with
        | text i t => cases e; exact ⟨_, _, _, i, t, rfl⟩
        | comment | decl | cdata | unknown | closed | opened => cases e
      obtain ⟨q, v', r', hi, ht, hval⟩ := inv _ hfirst rfl
      obtain ⟨rfl, -⟩ := identify_text_inv hi
      have hp : v' <+: v := (parseText_upto (c := 60) ht).trans (List.takeWhile_prefix _)
      obtain ⟨rfl, hlit⟩ := value_full hval hp.length_le hp
      exact .inr ⟨parseText_byte (c := 60) ht, hlit⟩
    · exact .inl hb

/-- an element: `s` is its tag behind `<`, `m` the name in its end tag -/
theorem Exact.elem {n m s t : Str} {as : List (Str × Str)} {N : List Node} {P Q : Prop} (hs : NoNul s) (hm : NoNul m)
    (good : Q → IsName n ∧ m = n ∧ (∃ b l, s = b :: l ∧ b ≠ 33 ∧ b ≠ 63) ∧ ∀ r, parseTag (s ++ r) = .ok (n, as, .opened, r))
    (back : ∀ r c r', parseTag (s ++ r) = .ok (n, as, c, r') → Q) (inner : Inner N t P) :
    Exact [.elem n as N] (60 :: (s ++ (t ++ 60 :: 47 :: (m ++ [62])))) (Q ∧ P) := by
  have assoc : ∀ (w r : Str), w ++ (60 :: (s ++ (t ++ 60 :: 47 :: (m ++ [62]))) ++ r) = w ++ 60 :: (s ++ (t ++ 60 :: 47 :: (m ++ 62 :: r))) := by
    intro w r; simp
  refine ⟨?_, ?_, ?_⟩
  · intro b hb
    simp only [List.mem_cons, List.mem_append, List.not_mem_nil, or_false] at hb
    rcases hb with rfl | hb | hb | rfl | rfl | hb | rfl
    · decide
    · exact hs b hb
    · exact inner.clean b hb
    · decide
    · decide
    · exact hm b hb
    · decide
  · rintro ⟨q, p⟩ w hw
    obtain ⟨hn, rfl, ⟨b, l, rfl, h33, h63⟩, htag⟩ := good q
    refine ⟨[], blank_nil, by simp; omega, fun f doc cs r hf => ?_⟩
    rw [assoc] at hf ⊢
    obtain ⟨f, rfl⟩ : ∃ g, f = g + 1 := ⟨f - 1, by simp at hf; omega⟩
    rw [parseNodes, show w ++ 60 :: (b :: l ++ (t ++ 60 :: 47 :: (m ++ 62 :: r))) = w ++ 60 :: b :: (l ++ (t ++ 60 :: 47 :: (m ++ 62 :: r))) from rfl,
      identify_elem hw h33 h63]
    simp only
    rw [← List.cons_append, htag]
    simp only
    rw [if_neg (by simp), inner.fwd p f m r hn (by simp at hf ⊢; omega)]
    simp only
    rw [if_pos trivial]
    rfl
  · intro w hw f doc cs r L hf hk hp
    rw [assoc] at hf hk
    obtain ⟨g, rfl, hfirst⟩ := first_node hk hp
    have inv : ∀ x, FirstNode g (w ++ 60 :: (s ++ (t ++ 60 :: 47 :: (m ++ 62 :: r)))) x → x = .elem n as N →
        (∃ r', parseTag (s ++ (t ++ 60 :: 47 :: (m ++ 62 :: r))) = .ok (n, as, .closed, r')) ∨
        ∃ r' r'', parseTag (s ++ (t ++ 60 :: 47 :: (m ++ 62 :: r))) = .ok (n, as, .opened, r') ∧ parseNodes g false [] r' = .byTag N n r'' := by
      intro x hx e
      cases hx with
      | closed i h =>
        cases e
        have := identify_elem_inv i
        rw [skip_tag hw] at this
        cases this
        exact .inl ⟨_, h⟩
      | opened i h k =>
        cases e
        have := identify_elem_inv i
        rw [skip_tag hw] at this
        cases this
        exact .inr ⟨_, _, h, k⟩
      | comment | decl | cdata | unknown | text => cases e
    rcases inv _ hfirst rfl with ⟨r', h⟩ | ⟨r', r'', h, k⟩
    · have q := back _ _ _ h
      rw [(good q).2.2.2] at h
      cases h
    · have q := back _ _ _ h
      rw [(good q).2.2.2] at h
      cases h
      refine ⟨q, inner.bwd g _ ?_ (by rw [k]; rfl)⟩
      simp at hf ⊢
      omega

/-! ## Kinds of elements -/

theorem tag_plain {n : Str} (hn : IsName n) (r : Str) : parseTag (n ++ [62] ++ r) = .ok (n, [], .opened, r) := by
  have := (parseTag_ok hn attrsOk_nil r).1
  rw [List.append_assoc]
  exact this

theorem name_head {n : Str} (hn : IsName n) (q : Str) : ∃ b l, n ++ q = b :: l ∧ b ≠ 33 ∧ b ≠ 63 := by
  obtain ⟨b, l, e, hb⟩ := name_start hn
  exact ⟨b, l ++ q, by rw [e]; rfl, (nameStart_ne hb).2.1, (nameStart_ne hb).2.2.1⟩

/-- `<n>`, content, `</n>`, the name is a text of the log -/
theorem Exact.named {n t : Str} {N : List Node} {P : Prop} (inner : Inner N t P) :
    Exact [.elem n [] N] (60 :: (cstr n ++ [62] ++ (t ++ 60 :: 47 :: (cstr n ++ [62])))) (IsName n ∧ P) := by
  refine Exact.elem (noNul_append (cstr_noNul n) (by unfold NoNul; decide)) (cstr_noNul n) (fun h => ?_) (fun r c r' h => parseTag_name h) inner
  have e := name_cstr h
  refine ⟨h, e, ?_, fun r => ?_⟩
  · rw [e]; exact name_head h _
  · rw [e]; exact tag_plain h r

/-- `<n>v</n>` -/
theorem Exact.field (n v : Str) :
    Exact [field n v] (60 :: (cstr n ++ [62] ++ (cstr v ++ 60 :: 47 :: (cstr n ++ [62])))) (IsName n ∧ TextLoads v) := Exact.named (Inner.text v)

/-- `<n k="v">`, content, `</n>` -/
theorem Exact.titled {n k v t : Str} {N : List Node} {P : Prop} (hn : IsName n) (hk : IsName k) (inner : Inner N t P) :
    Exact [.elem n [(k, v)] N] (60 :: (n ++ (32 :: (k ++ 61 :: 34 :: (cstr v ++ [34, 62]))) ++ (t ++ 60 :: 47 :: (n ++ [62])))) (AttrLoads v ∧ P) := by
  have form : ∀ r, n ++ (32 :: (k ++ 61 :: 34 :: (cstr v ++ [34, 62]))) ++ r = n ++ (32 :: (k ++ 61 :: 34 :: (cstr v ++ 34 :: 62 :: r))) := by
    intro r; simp
  refine Exact.elem ?_ (name_noNul hn) (fun h => ⟨hn, rfl, name_head hn _, fun r => ?_⟩) (fun r c r' h => ?_) inner
  · intro b hb
    simp only [List.mem_append, List.mem_cons, List.not_mem_nil, or_false] at hb
    rcases hb with hb | rfl | hb | rfl | rfl | hb | rfl | rfl
    · exact name_noNul hn b hb
    · decide
    · exact name_noNul hk b hb
    · decide
    · decide
    · exact cstr_noNul v b hb
    · decide
    · decide
  · rw [form]; exact (tag_attr hn hk r).1 h
  · rw [form] at h
    exact ((tag_attr hn hk r).2 _ _ _ _ h).2.2 rfl

/-! ## Numbers -/

theorem toI32_same {n : Nat} : toI32 n = (n : Int) ↔ n < 2147483648 := by
  constructor
  · intro h
    unfold toI32 at h
    split at h <;> omega
  · exact toI32_small

theorem dec_same {n : Nat} : dec (toI32 n) = dec (n : Int) ↔ n < 2147483648 := by
  rw [← toI32_same]
  exact ⟨Json.dec_inj, fun h => by rw [h]⟩

/-- a variable -/
theorem Exact.var (v : Str) (i : Nat) :
    Exact [.elem v [(lit "i", dec i)] []] (lit "<" ++ (cstr v ++ (lit " i=\"" ++ (dec (toI32 i) ++ lit "\"/>")))) (IsName v ∧ i < 2147483648) := by
  have shows : IsName v → Shows (.elem v [(lit "i", dec (toI32 i))] []) (lit "<" ++ (cstr v ++ (lit " i=\"" ++ (dec (toI32 i) ++ lit "\"/>")))) := by
    intro hn
    have := Shows.sealed hn (attr_name (k := lit "i") (v := dec (toI32 i)) (by decide) (printed_plain (dec_printed _)).2.1)
    rw [name_cstr hn]
    simp only [attrsText, List.flatMap_cons, List.flatMap_nil, List.append_nil, List.append_assoc] at this ⊢
    exact this
  have same : Node.elem v [(lit "i", dec (toI32 i))] [] = .elem v [(lit "i", dec i)] [] ↔ i < 2147483648 := by
    rw [← dec_same]
    constructor
    · intro h
      have := (Node.elem.inj h).2.1
      simpa using this
    · intro h; rw [h]
  refine ⟨?_, fun h => ((Exact.known (shows h.1)).iff same).fwd h.2, fun w hw f doc cs r L hf hk hp => ?_⟩
  · refine noNul_append (by unfold NoNul; decide) (noNul_append (cstr_noNul v) (noNul_append (by unfold NoNul; decide) (noNul_append ?_ (by unfold NoNul; decide))))
    intro b hb
    exact ((printed_plain (dec_printed _)).1 b hb).1
  · obtain ⟨g, -, hfirst⟩ := first_node hk hp
    have inv : ∀ p x, FirstNode g p x → x = .elem v [(lit "i", dec i)] [] → IsName v := by
      intro p x hx e
      cases hx with
      | closed i h => cases e; exact parseTag_name h
      | opened i h k => cases e; exact parseTag_name h
      | comment | decl | cdata | unknown | text => cases e
    have hn := inv _ _ hfirst rfl
    exact ⟨hn, ((Exact.known (shows hn)).iff same).bwd w hw f doc cs r L hf hk hp⟩

/-! ## Lines -/

theorem Exact.line (d : Nat) {ind s : Str} {N : List Node} {P : Prop} (hi : Blank ind) (h : Exact N s P) : Exact N (tline d (ind ++ s)) P := by
  unfold tline
  rw [cstr_plain (noNul_append (blank_noNul hi) h.clean)]
  have := ((Exact.blank (blank_append (blank_tabs d) hi)).append h).append (Exact.blank (w := lit "\n") (by decide))
  rw [List.nil_append, List.append_nil] at this
  simpa only [List.append_assoc, true_and, and_true] using this

/-- an element whose tags have lines of their own -/
theorem Exact.lines (d : Nat) {ind n s t : Str} {x : Node} {N : List Node} {P Q : Prop} (hi : Blank ind) (hs : NoNul s) (hn : NoNul n)
    (h : Exact N t P) (outer : ∀ u, Inner N u P → Exact [x] (60 :: (s ++ (u ++ 60 :: 47 :: (n ++ [62])))) (Q ∧ P)) :
    Exact [x] (tline d (ind ++ 60 :: s) ++ (t ++ tline d (ind ++ 60 :: 47 :: (n ++ [62])))) (Q ∧ P) := by
  have h1 : Exact N (lit "\n" ++ (t ++ (List.replicate d 9 ++ ind))) P := by
    have := (Exact.blank (w := lit "\n") (by decide)).append (h.append (Exact.blank (blank_append (blank_tabs d) hi)))
    rw [List.nil_append, List.append_nil] at this
    exact this.iff (by simp)
  have h2 := outer _ h1.inner
  have := ((Exact.blank (blank_append (blank_tabs d) hi)).append h2).append (Exact.blank (w := lit "\n") (by decide))
  rw [List.nil_append, List.append_nil] at this
  unfold tline
  rw [cstr_plain (s := ind ++ 60 :: s) (noNul_append (blank_noNul hi) (by
      intro b hb
      rcases List.mem_cons.1 hb with rfl | hb
      · decide
      · exact hs b hb)),
    cstr_plain (s := ind ++ 60 :: 47 :: (n ++ [62])) (noNul_append (blank_noNul hi) (by
      intro b hb
      simp only [List.mem_append, List.mem_cons, List.not_mem_nil, or_false] at hb
      rcases hb with rfl | rfl | hb | rfl
      · decide
      · decide
      · exact hn b hb
      · decide))]
  have := this.iff (Q := Q ∧ P) (by simp)
  simpa only [List.append_assoc, List.cons_append] using this

end Verif.Xml
