import Verif.Proof.XmlDoc5
import Verif.Props.XmlDoc
/-!
# C82: which documents are the same when they are saved and loaded again
-/
namespace Verif.Props
open Spec Tec Xml

theorem loadFile_parse {t : Str} {m : List Node} : loadFile (some t) = .ok m ↔ parse t = .ok m := by
  cases t with
  | nil => exact ⟨fun h => (by cases h), fun h => (by cases h)⟩
  | cons b t => exact Iff.rfl

/-- C82: a document that was loaded from a file of at most INT_MAX bytes, printed compactly, is loaded again as it was exactly if no text and no value of
an attribute has a carriage return, no text is nothing but white space, it has a node, it does not end with a text, and it does not, without a
byte order mark before it, start with a text that starts with white space or with a byte order mark -/
theorem C82_exact {c : Str} {l : List Node} (hc : c.length ≤ 2147483647) (h : loadFile (some c) = .ok l) (bom : Bool) :
    ∃ t, printed true bom l = .ok t ∧ (loadFile (some t) = .ok l ↔ Stays bom l) := by
  have hd : LooseDoc l := good_loose (parse_good hc (loadFile_parse.1 h))
  refine ⟨_, printed_compact bom l, ?_⟩
  rw [loadFile_parse]
  have start : ∀ v rest, l = .text false v :: rest → LooseAll l ∧ (HeadOk (ctextAll l) ↔ (∀ b ∈ v.head?, ¬ White b) ∧ ¬ bomText true <+: v) := by
    rintro v rest rfl
    obtain ⟨ds, ns, e, h1, h2⟩ := hd
    have : ds = [] := by
      cases ds with
      | nil => rfl
      | cons x ds =>
        cases e
        obtain ⟨u, hu, -⟩ := h1 (.text false v) (by simp)
        cases hu
    subst this
    rw [List.nil_append] at e
    subst e
    refine ⟨h2, ?_⟩
    rw [LooseAll, Loose] at h2
    rw [ctextAll, ctext_text h2.1]
    refine headOk_text h2.1 ?_
    cases rest with
    | nil => exact .inl (by rw [ctextAll])
    | cons y rest =>
      right
      have hy : isText y = false := by simpa [textsMeet, isText] using h2.2.1
      have h3 := h2.2.2
      rw [LooseAll] at h3
      obtain ⟨q, hq⟩ := ctext_start hy (.inl h3.1)
      exact ⟨q ++ ctextAll rest, by rw [ctextAll, hq]; rfl⟩
  have node : (∀ v rest, l ≠ .text false v :: rest) → HeadOk (ctextAll l) := by
    intro hne
    cases l with
    | nil => rw [ctextAll]; exact headOk_nil
    | cons x l =>
      have hx : isText x = false := by
        cases x with
        | text b v => cases b with
          | false => exact absurd rfl (hne v l)
          | true => rfl
        | _ => rfl
      obtain ⟨ds, ns, e, h1, h2⟩ := hd
      have hx' : Loose x ∨ x.isDecl = true := by
        cases ds with
        | nil =>
          rw [List.nil_append] at e
          rw [← e, LooseAll] at h2
          exact .inl h2.1
        | cons y ds =>
          cases e
          obtain ⟨u, rfl, -⟩ := h1 x (by simp)
          exact .inr rfl
      obtain ⟨q, hq⟩ := ctext_start hx hx'
      rw [ctextAll, hq]
      exact headOk_lt _
  constructor
  · intro hm
    by_cases hok : bom = false → HeadOk (ctextAll l)
    · obtain ⟨h1, h2, h3⟩ := (parse_loose hd bom hok l).1 hm
      refine ⟨?_, ?_, ?_, ?_⟩
      · rw [h1]; exact settleAll_tame l
      · rintro rfl; rw [ctextAll] at h3; exact h3 rfl
      · rw [h1]; exact h2
      · intro hb v hv
        obtain ⟨rest, hl⟩ : ∃ rest, l = .text false v :: rest := by
          cases l with
          | nil => cases hv
          | cons x l => cases hv; exact ⟨l, rfl⟩
        exact (start v rest hl).2.1 (hok hb)
    · exfalso
      obtain ⟨hb, hno⟩ : bom = false ∧ ¬ HeadOk (ctextAll l) := by
        by_cases hb : bom = false
        · exact ⟨hb, fun h => hok fun _ => h⟩
        · exact (hok fun h => (hb h).elim).elim
      subst hb
      obtain ⟨v, rest, hl⟩ : ∃ v rest, l = .text false v :: rest := by
        refine Classical.byContradiction fun hne => hno (node fun v rest e => hne ⟨v, rest, e⟩)
      have hall := (start v rest hl).1
      subst hl
      obtain ⟨v', hv', e⟩ := parse_text _ v rfl hall _ hm hno
      rw [settleAll] at e
      split at e
      · have := congrArg List.length e
        have := settleAll_length rest
        simp at *
        omega
      · rw [settle] at e
        have e := (List.cons.inj e).1
        have e := congrArg List.length (Node.text.inj e).2
        have := newlines_length v'
        omega
  · rintro ⟨h1, h2, h3, h4⟩
    have hs := settleAll_same l h1
    refine (parse_loose hd bom ?_ l).2 ⟨hs.symm, hs.symm ▸ h3, ?_⟩
    · intro hb
      by_cases hl : ∃ v rest, l = .text false v :: rest
      · obtain ⟨v, rest, hl⟩ := hl
        exact (start v rest hl).2.2 (h4 hb v (by rw [hl]; rfl))
      · exact node fun v rest e => hl ⟨v, rest, e⟩
    · intro e
      cases l with
      | nil => exact h2 rfl
      | cons x l =>
        rw [ctextAll] at e
        have e := (List.append_eq_nil_iff.1 e).1
        cases x with
        | text b v => cases b with
          | false =>
            have := (start v l rfl).1
            rw [LooseAll, Loose] at this
            rw [ctext_text this.1] at e
            rw [TameAll, Tame] at h1
            obtain ⟨b, hb, -⟩ := shown_visible this.1.1 h1.1.2
            rw [e] at hb
            cases hb
          | true => rw [ctext] at e; cases e
        | _ => rw [ctext] at e; simp [lit] at e

/-- C82: what is lost when a loaded document without texts outside of its elements is printed compactly and loaded: texts of white space, and the
difference between newlines and carriage returns in texts and values -/
theorem C82_again {c : Str} {l : List Node} (hc : c.length ≤ 2147483647) (h : loadFile (some c) = .ok l) (few : l ≠ []) (top : ∀ x ∈ l, isText x = false) (bom : Bool) :
    ∃ t, printed true bom l = .ok t ∧ loadFile (some t) = .ok (settleAll l) := by
  have hd : LooseDoc l := good_loose (parse_good hc (loadFile_parse.1 h))
  have hm := settleAll_texts top
  obtain ⟨x, l', rfl⟩ : ∃ x l', l = x :: l' := by
    cases l with
    | nil => exact (few rfl).elim
    | cons x l => exact ⟨x, l, rfl⟩
  obtain ⟨q, hq⟩ : ∃ q, ctext x = 60 :: q := by
    refine ctext_start (top x (by simp)) ?_
    obtain ⟨ds, ns, e, h1, h2⟩ := hd
    cases ds with
    | nil =>
      rw [List.nil_append] at e
      rw [← e, LooseAll] at h2
      exact .inl h2.1
    | cons y ds =>
      cases e
      obtain ⟨u, rfl, -⟩ := h1 x (by simp)
      exact .inr rfl
  have e : ctextAll (x :: l') = 60 :: (q ++ ctextAll l') := by rw [ctextAll, hq]; rfl
  refine ⟨_, printed_compact bom _, loadFile_parse.2 ((parse_loose hd bom (fun _ => e ▸ headOk_lt _) _).2 ⟨rfl, ?_, by rw [e]; simp⟩)⟩
  rw [hm]
  intro y hy
  obtain ⟨z, hz, rfl⟩ := List.mem_map.1 (List.mem_of_getLast? hy)
  exact (isText_settle z).trans (top z hz)

/-- C82: only once: what was loaded from a compact print can be printed and loaded again and again and stays as it is -/
theorem C82_once {c : Str} {l : List Node} (hc : c.length ≤ 2147483647) (h : loadFile (some c) = .ok l) (few : l ≠ []) (top : ∀ x ∈ l, isText x = false) (bom bom' : Bool) :
    ∃ t l' t', printed true bom l = .ok t ∧ loadFile (some t) = .ok l' ∧ printed true bom' l' = .ok t' ∧ loadFile (some t') = .ok l' := by
  obtain ⟨t, h1, h2⟩ := C82_again hc h few top bom
  obtain ⟨t', h3, h4⟩ := C81_compact (settle_printableDoc (good_loose (parse_good hc (loadFile_parse.1 h))) few top) bom'
  exact ⟨t, _, t', h1, h2, h3, h4⟩

/-- a document that stays: texts outside of its elements are possible -/
example : ∃ l, loadFile (some (lit "x<a y='1&#10;2'> z<b/></a>u<!---->")) = .ok l ∧ Stays false l ∧ ¬ ∀ x ∈ l, isText x = false := by
  refine ⟨[.text false (lit "x"), .elem (lit "a") [(lit "y", lit "1\n2")] [.text false (lit " z"), .elem (lit "b") [] []], .text false (lit "u"), .comment []], by rfl, ⟨?_, by decide +kernel,
    by decide +kernel, ?_⟩, by decide +kernel⟩
  · simp only [TameAll, Tame]
    exact ⟨by decide +kernel, ⟨by decide +kernel, by decide +kernel, ⟨by decide +kernel, trivial⟩, trivial⟩, by decide +kernel, trivial, trivial⟩
  · rintro - v ⟨⟩
    decide +kernel

/-- without the byte order mark the first text loses its space, with it it does not -/
example : ∃ l, loadFile (some (lit "&#32;x<a/>")) = .ok l ∧ ¬ Stays false l ∧ Stays true l ∧ printed true false l = .ok (lit " x<a/>") ∧
    loadFile (some (lit " x<a/>")) = .ok [.text false (lit "x"), .elem (lit "a") [] []] := by
  refine ⟨[.text false (lit " x"), .elem (lit "a") [] []], by rfl, fun h => absurd (h.start rfl _ rfl) (by decide +kernel), ⟨?_, by decide +kernel, by decide +kernel, fun h => nomatch h⟩,
    okIs_eq (by decide +kernel), by rfl⟩
  simp only [TameAll, Tame]
  exact ⟨by decide +kernel, ⟨by decide +kernel, trivial⟩, trivial⟩

/-- a document that does not stay, what is left of it, and that this stays -/
example : ∃ l, loadFile (some (lit "<a x='&#13;&#10;'>&#32;<b>&#13;c</b></a>")) = .ok l ∧ l ≠ [] ∧ (∀ x ∈ l, isText x = false) ∧ ¬ TameAll l ∧
    settleAll l = [.elem (lit "a") [(lit "x", lit "\n")] [.elem (lit "b") [] [.text false (lit "\nc")]]] := by
  refine ⟨[.elem (lit "a") [(lit "x", [13, 10])] [.text false (lit " "), .elem (lit "b") [] [.text false [13, 99]]]], by rfl, by decide +kernel, by decide +kernel, ?_, ?_⟩
  · simp only [TameAll, Tame]
    exact fun h => absurd (h.1.1 (lit "x", [13, 10]) (by decide +kernel)) (by decide +kernel)
  · simp [settleAll, settle, isBlank, newlines, lit, Blank, White]

end Verif.Props
