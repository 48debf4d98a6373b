import Verif.Proof.XmlTop2
import Verif.Props.XmlIndent
/-!
# C82: which documents are the same when they are saved with indentation and loaded again, also with texts outside of the elements
-/
namespace Verif.Props
open Spec Tec Xml

/-- C82: a document that was loaded from a file of at most INT_MAX bytes, printed with indentation, is loaded again as it was exactly if it stays when it is
printed compactly, no text inside of an element is directly before an element, no text outside of the elements is directly behind an element, and
those with a node before them that is no text are directly before a text in CDATA -/
theorem C82_exact_wide {c : Str} {l : List Node} (hc : c.length ≤ 2147483647) (h : loadFile (some c) = .ok l) (bom : Bool) :
    ∃ t, printed false bom l = .ok t ∧ (loadFile (some t) = .ok l ↔ StaysIndented bom l) := by
  have hd : LooseDoc l := good_loose (parse_good hc (loadFile_parse.1 h))
  refine ⟨_, printed_wide hd bom, ?_⟩
  rw [loadFile_parse]
  have start : ∀ v rest, l = .text false v :: rest → LooseAll l ∧ (HeadOk (wide l) ↔ (∀ b ∈ v.head?, ¬ White b) ∧ ¬ bomText true <+: v) := by
    rintro v rest rfl
    obtain ⟨ds, ns, e, h1, h2⟩ := hd
    have : ds = [] := by
      cases ds with
      | nil => rfl
      | cons x ds =>
        cases e
        obtain ⟨u, hu, -⟩ := h1 (.text false v) (by simp)
        cases hu
    subst this
    rw [List.nil_append] at e
    subst e
    refine ⟨h2, ?_⟩
    rw [wide_text h2]
    have hr := loose_rest h2
    rw [LooseAll, Loose] at h2
    exact headOk_text h2.1 hr
  have node : (∀ v rest, l ≠ .text false v :: rest) → l = [] ∧ wide l = [] ∨ ∃ q, wide l = 60 :: q := by
    intro hne
    refine wide_node hd fun x hx => ?_
    cases l with
    | nil => cases hx
    | cons y l =>
      cases hx
      cases x with
      | text b v => cases b with
        | false => exact absurd rfl (hne v l)
        | true => rfl
      | _ => rfl
  have nodeOk : (∀ v rest, l ≠ .text false v :: rest) → HeadOk (wide l) := by
    intro hne
    rcases node hne with ⟨-, e⟩ | ⟨q, e⟩
    · rw [e]; exact headOk_nil
    · rw [e]; exact headOk_lt _
  constructor
  · intro hm
    by_cases hok : bom = false → HeadOk (wide l)
    · obtain ⟨h1, h2, h3⟩ := (parse_top hd bom hok l).1 hm
      obtain ⟨k1, k2⟩ := leftTop_same.1 h1.symm
      obtain ⟨k2, k3⟩ := (topSame_iff _ _).1 k2
      refine ⟨⟨k1, ?_, ?_, ?_⟩, k2, fun a v b e => ?_⟩
      · rintro rfl
        exact h3 (by unfold wide; rw [acceptAll]; rfl)
      · rw [h1]; exact h2
      · intro hb v hv
        obtain ⟨rest, hl⟩ : ∃ rest, l = .text false v :: rest := by
          cases l with
          | nil => cases hv
          | cons x l => cases hv; exact ⟨l, rfl⟩
        exact (start v rest hl).2.1 (hok hb)
      · obtain ⟨⟨-, g1⟩, g2⟩ := k3 a v b e
        exact ⟨g1, g2.imp (·.2) id⟩
    · exfalso
      obtain ⟨hb, hno⟩ : bom = false ∧ ¬ HeadOk (wide l) := by
        by_cases hb : bom = false
        · exact ⟨hb, fun h => hok fun _ => h⟩
        · exact (hok fun h => (hb h).elim).elim
      subst hb
      obtain ⟨v, rest, hl⟩ : ∃ v rest, l = .text false v :: rest := by
        refine Classical.byContradiction fun hne => hno (nodeOk fun v rest e => hne ⟨v, rest, e⟩)
      have hall := (start v rest hl).1
      subst hl
      obtain ⟨v', hv', e⟩ := parse_topText _ v rfl hall _ hm hno
      unfold leftTop at e
      rw [topAll, settleAll] at e
      split at e
      · have e := congrArg List.length e
        have := settleAll_length (topAll true false rest)
        rw [topAll_length] at this
        simp at e
        omega
      · rw [settle] at e
        have e := (List.cons.inj e).1
        have e := congrArg List.length (Node.text.inj e).2
        have := newlines_length (nl false ++ v' ++ brk true rest)
        have hbrk : brk true rest = [] := brk_none.2 (.inl rfl)
        rw [hbrk] at this e
        simp [nl] at this e
        omega
  · rintro ⟨⟨h1, h2, h3, h4⟩, h5, h6⟩
    have hs : leftTop l = l := leftTop_same.2 ⟨h1, (topSame_iff _ _).2 ⟨h5, fun a v b e => by
      obtain ⟨g1, g2⟩ := h6 a v b e
      exact ⟨⟨fun _ => rfl, g1⟩, g2.imp (fun h => ⟨rfl, h⟩) id⟩⟩⟩
    refine (parse_top hd bom ?_ l).2 ⟨hs.symm, hs.symm ▸ h3, ?_⟩
    · intro hb
      by_cases hl : ∃ v rest, l = .text false v :: rest
      · obtain ⟨v, rest, hl⟩ := hl
        exact (start v rest hl).2.2 (h4 hb v (by rw [hl]; rfl))
      · exact nodeOk fun v rest e => hl ⟨v, rest, e⟩
    · intro e
      by_cases hl : ∃ v rest, l = .text false v :: rest
      · obtain ⟨v, rest, rfl⟩ := hl
        have hall := (start v rest rfl).1
        rw [wide_text hall] at e
        have e := (List.append_eq_nil_iff.1 e).1
        rw [LooseAll, Loose] at hall
        rw [TameAll, Tame] at h1
        obtain ⟨b, hb, -⟩ := shown_visible hall.1.1 h1.1.2
        rw [e] at hb
        cases hb
      · rcases node (fun v rest e => hl ⟨v, rest, e⟩) with ⟨g, -⟩ | ⟨q, g⟩
        · exact h2 g
        · rw [g] at e; cases e

/-- C82: what is loaded otherwise: if the document has a node, does not end with a text and does not, without a byte order mark, start with a text that
starts with white space or a byte order mark, then it is the document with the newlines and the spaces that were printed in its texts, without the texts of white space -/
theorem C82_wide {c : Str} {l : List Node} (hc : c.length ≤ 2147483647) (h : loadFile (some c) = .ok l) (bom : Bool) (few : l ≠ []) (last : LastNode l)
    (start : ∀ v, l.head? = some (.text false v) → v ≠ [] ∧ (bom = false → (∀ b ∈ v.head?, ¬ White b) ∧ ¬ bomText true <+: v)) :
    ∃ t, printed false bom l = .ok t ∧ loadFile (some t) = .ok (settleAll (topAll true false l)) := by
  have hd : LooseDoc l := good_loose (parse_good hc (loadFile_parse.1 h))
  refine ⟨_, printed_wide hd bom, ?_⟩
  rw [loadFile_parse]
  by_cases hl : ∃ v rest, l = .text false v :: rest
  · obtain ⟨v, rest, rfl⟩ := hl
    obtain ⟨hv, hs⟩ := start v rfl
    obtain ⟨ds, ns, e, h1, h2⟩ := hd
    have : ds = [] := by
      cases ds with
      | nil => rfl
      | cons x ds =>
        cases e
        obtain ⟨u, hu, -⟩ := h1 (.text false v) (by simp)
        cases hu
    subst this
    rw [List.nil_append] at e
    subst e
    have hr := loose_rest h2
    have h3 := h2
    rw [LooseAll, Loose] at h3
    have hd' : LooseDoc (.text false v :: rest) := ⟨[], _, rfl, (fun x hx => by cases hx), h2⟩
    refine (parse_top hd' bom ?_ _).2 ⟨rfl, last_settle (last_top last _ _), ?_⟩
    · intro hb
      rw [wide_text h2, headOk_text h3.1 hr]
      exact hs hb
    · rw [wide_text h2]
      cases v with
      | nil => exact (hv rfl).elim
      | cons b v =>
        rw [shown_cons]
        cases Printer.entityOf true b <;> simp [lit]
  · have hn : ∀ x ∈ l.head?, isText x = false := by
      intro x hx
      cases l with
      | nil => cases hx
      | cons y l =>
        cases hx
        cases x with
        | text b v => cases b with
          | false => exact absurd ⟨v, l, rfl⟩ hl
          | true => rfl
        | _ => rfl
    rcases wide_node hd hn with ⟨e, -⟩ | ⟨q, e⟩
    · exact (few e).elim
    · refine (parse_top hd bom (fun _ => by rw [e]; exact headOk_lt _) _).2 ⟨rfl, last_settle (last_top last _ _), by rw [e]; simp⟩

/-- texts outside of elements that stay: at the start, before CDATA -/
example : ∃ l, loadFile (some (lit "x<a/><!---->y<![CDATA[z]]>")) = .ok l ∧ StaysIndented false l ∧ ¬ ∀ x ∈ l, isText x = false := by
  refine ⟨[.text false (lit "x"), .elem (lit "a") [] [], .comment [], .text false (lit "y"), .text true (lit "z")], by rfl, ⟨⟨?_, by decide +kernel, by decide +kernel, ?_⟩, ?_, ?_⟩, by decide +kernel⟩
  · simp only [TameAll, Tame, List.not_mem_nil, false_implies, implies_true, true_and, and_true]
    decide +kernel
  · rintro - v ⟨⟩
    decide +kernel
  · intro x hx
    simp only [List.mem_cons, List.not_mem_nil, or_false] at hx
    rcases hx with rfl | rfl | rfl | rfl | rfl <;> simp [Apart, ApartAll]
  · have := (topSame_iff (l := [.text false (lit "x"), .elem (lit "a") [] [], .comment [], .text false (lit "y"), .text true (lit "z")]) true false).1
      (by simp [TopSame, Apart, ApartAll, brk, isText, isChars, isElem, nl])
    intro a v b e
    obtain ⟨⟨-, g1⟩, g2⟩ := this.2 a v b e
    exact ⟨g1, g2.imp (·.2) id⟩

/-- what becomes of texts outside of elements: behind an element, and before one -/
example : ∃ l, loadFile (some (lit "x<a/>y<!---->z<b/>")) = .ok l ∧ l ≠ [] ∧ LastNode l ∧
    settleAll (topAll true false l) = [.text false (lit "x"), .elem (lit "a") [] [], .text false (lit "\ny\n"), .comment [], .text false (lit "z\n"), .elem (lit "b") [] []] ∧
    printed false false l = .ok (lit "x<a/>\ny\n<!---->z\n<b/>\n") := by
  refine ⟨[.text false (lit "x"), .elem (lit "a") [] [], .text false (lit "y"), .comment [], .text false (lit "z"), .elem (lit "b") [] []], by rfl, by decide +kernel, by decide +kernel, by rfl,
    okIs_eq (by decide +kernel)⟩

end Verif.Props
