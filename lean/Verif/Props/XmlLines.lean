import Verif.Proof.XmlLines2
/-!
# C100: line numbers of nodes, attributes and errors
-/
namespace Verif.Props
open Tec Xml Xml.Lines

/-- A file that is read gives the same tree with and without line numbers.  All nodes and attributes, in their order, stand at places of
the text, each behind the one before, and the number kept for each is the number of the line of its place. -/
theorem C100_tree {content : Str} {ns : List Node} (h : parse content = .ok ns) :
    ∃ ls, parseL content = .ok ls ∧ nodes ls = ns ∧
      ∃ ps : List (Nat × Item), items ls = ps.map (fun x => (lineAt (cstr content) x.1, x.2)) ∧ ps.Pairwise (fun x y => x.1 < y.1) ∧
        ∀ x ∈ ps, x.1 < (cstr content).length ∧ Stands ((cstr content).take x.1) ((cstr content).drop x.1) x.2 := by
  have := parseL_eq content
  rw [h] at this
  obtain ⟨ls, h1, h2, h3⟩ := this
  obtain ⟨ps, g1, g2, g3⟩ := h3.places
  exact ⟨ls, h1, h2, ps, g1, g2, fun x hx => (g3 x hx).2⟩

/-- A file that is refused is refused with the same error, and the number of the error is the line of what it blames; an empty file has
the number 0.  What is said about the error names the element or the declaration that it blames. -/
theorem C100_error {content : Str} {e : Code} (h : parse content = .error e) :
    ∃ n told, parseL content = .error (e, n, told) ∧ (e = .emptyDocument ∧ n = 0 ∧ told = none ∨
      ∃ o, n = lineAt (cstr content) o ∧ Blames ((cstr content).drop o) e ∧ Tells (cstr content) o e told) := by
  have := parseL_eq content
  rw [h] at this
  exact this

/-- Line numbers never go back from one node or attribute to the next. -/
theorem C100_order {content : Str} {ls : List LNode} (h : parseL content = .ok ls) :
    (items ls).Pairwise (fun x y => x.1 ≤ y.1) := by
  have := parseL_eq content
  cases hp : parse content with
  | error e =>
    rw [hp] at this
    obtain ⟨n, told, h1, -⟩ := this
    rw [h1] at h; cases h
  | ok ns =>
    obtain ⟨ls', h1, -, ps, g1, g2, -⟩ := C100_tree hp
    rw [h] at h1
    injection h1 with h1
    subst h1
    rw [g1, List.pairwise_map]
    exact g2.imp fun hlt => lineAt_mono _ (Nat.le_of_lt hlt)

/-- No number is larger than one more than the number of line feeds of the file, so the code's `int` does not overflow for files with
fewer than 2^31-1 of them. -/
theorem C100_bound (content : Str) :
    match parseL content with
    | .ok ls => ∀ x ∈ items ls, 1 ≤ x.1 ∧ x.1 ≤ 1 + (cstr content).count 10
    | .error (_, n, _) => n ≤ 1 + (cstr content).count 10 := by
  have := parseL_eq content
  cases hp : parse content with
  | error e =>
    rw [hp] at this
    obtain ⟨n, told, h1, h2⟩ := this
    rw [h1]
    rcases h2 with ⟨-, rfl, -⟩ | ⟨o, rfl, -⟩
    · exact Nat.zero_le _
    · exact lineAt_le _ _
  | ok ns =>
    obtain ⟨ls, h1, -, ps, g1, -, -⟩ := C100_tree hp
    rw [h1]
    intro x hx
    rw [g1] at hx
    obtain ⟨y, -, rfl⟩ := List.mem_map.1 hx
    exact ⟨Nat.le_add_right _ _, lineAt_le _ _⟩

/-- a text with the numbers of its nodes and attributes: the element `b` begins on line 3, its second attribute on line 5, the text that
follows on line 7 (the line feed before it belongs to the text), the comment on line 8 -/
example : (parseL (lit "<?xml?>\n<a>\n<b x=\"1\n2\"\ny='3'/>\n\nt\n<!--c--></a>")).toOption.map items =
    some [(1, .decl (lit "xml")), (2, .elem (lit "a")), (3, .elem (lit "b")), (3, .attr (lit "x") (lit "1\n2")),
      (5, .attr (lit "y") (lit "3")), (7, .text (lit "\n\nt\n")), (8, .comment (lit "c"))] := by decide +kernel

/-- the closing tag that does not fit stands on line 4, the error names line 2 where the element begins -/
example : (match parseL (lit "<a>\n<b>\n\n</c></a>") with | .error x => some x | .ok _ => none) =
    some (.mismatchedElement, 2, some (lit "XMLElement name=b")) := by decide +kernel

/-- the second attribute of the same name, on line 2, is blamed -/
example : (match parseL (lit "<a x='1'\nx='2'/>") with | .error x => some x | .ok _ => none) =
    some (.parsingAttribute, 2, some (lit "XMLElement name=a")) := by decide +kernel

/-- the text ends in the tag of `b`; there is something in the tag of `b` that has no place there; a declaration that is not at the top -/
example : (match parseL (lit "<a>\n<b x='1'\n") with | .error x => some x | .ok _ => none) =
    some (.parsingElement, 2, some (lit "XMLElement name=b")) := by decide +kernel
example : (match parseL (lit "<a>\n<b x='1' !>\n") with | .error x => some x | .ok _ => none) =
    some (.parsingElement, 2, none) := by decide +kernel
example : (match parseL (lit "<a>\n\n<?b c?>\n") with | .error x => some x | .ok _ => none) =
    some (.parsingDeclaration, 3, some (lit "XMLDeclaration value=b c")) := by decide +kernel

end Verif.Props
