import Verif.Proof.XmlStack
/-!
# C114: how much stack the reader needs
-/
namespace Verif.Props
open Verif Tec Xml Stack

/-- C114: on a stack with room for `d` calls in each other, a file whose elements stand at most `d` deep in each other is read as with an
endless stack; whatever is read at all, is read so -/
theorem C114_partial {content : Str} {d : Nat} :
    (∀ x, parseS d content = some x → x = parse content) ∧
    ∀ ns, parse content = .ok ns → heightAll ns ≤ d → parseS d content = some (.ok ns) :=
  ⟨(parseS_fits d content).1, fun ns h => ((parseS_fits d content).2 ns h).1⟩

/-- C114: every file of at most `3 * (d + 1)` bytes, correct or not, is read on this stack -/
theorem C114_small {content : Str} {d : Nat} (h : content.length ≤ 3 * (d + 1)) : parseS d content = some (parse content) := by
  cases e : parseS d content with
  | some x => rw [(parseS_fits d content).1 x e]
  | none =>
    exfalso
    unfold parseS at e
    simp only at e
    have h1 := (skipSpace_length (cstr content)).trans (List.takeWhile_sublist _).length_le
    have h2 : ((strip [0xEF, 0xBB, 0xBF] (skipSpace (cstr content))).getD (skipSpace (cstr content))).length ≤ (skipSpace (cstr content)).length := by
      cases e : strip [0xEF, 0xBB, 0xBF] (skipSpace (cstr content)) with
      | none => simp
      | some q => have := strip_length e; simp at this ⊢; omega
    generalize (strip [0xEF, 0xBB, 0xBF] (skipSpace (cstr content))).getD (skipSpace (cstr content)) = p at *
    split at e
    · cases e
    · have := nodesS_small p.length (d := d) (doc := true) (cs := []) (p := p) (by omega)
      split at e
      · contradiction
      · cases e
      · cases e
      · cases e

/-- C114 is false of all deeper files: if elements with children stand more than `d` deep in each other, the stack is exhausted -/
theorem C114_deep {content : Str} {d : Nat} {ns : List Node} (h : parse content = .ok ns) (hd : d < innerAll ns) : parseS d content = none :=
  ((parseS_fits d content).2 ns h).2 hd

/-- C114 is false for every stack: one byte more than in C114_small, a file of `3 * (d + 1) + 1` bytes, exhausts it, whatever follows -/
theorem C114_false (d : Nat) : (tower (d + 1)).length = 3 * (d + 1) + 1 ∧ ∀ t, parseS d (tower (d + 1) ++ t) = none := by
  refine ⟨tower_length _, fun t => ?_⟩
  have hz : cstr (tower (d + 1) ++ t) = tower (d + 1) ++ cstr t := by
    unfold cstr
    rw [List.takeWhile_append_of_pos]
    intro b hb
    simpa using tower_noNul (d + 1) b (List.mem_append_left _ hb)
  unfold parseS
  simp only [hz]
  have h1 : skipSpace (tower (d + 1) ++ cstr t) = tower (d + 1) ++ cstr t := by rw [tower_succ]; rfl
  have h2 : (strip [0xEF, 0xBB, 0xBF] (tower (d + 1) ++ cstr t)) = none := by rw [tower_succ]; rfl
  rw [h1, h2]
  simp only [Option.getD_none]
  rw [if_neg (by simp [tower, lit]), nodesS_tower]
  rw [List.length_append, tower_length]
  omega

/-- C114 (printing): the text of a document is written as with an endless stack if its nodes stand at most `d` deep in each other; otherwise the stack is exhausted -/
theorem C114_print (d : Nat) (compact bom : Bool) (l : List Node) :
    printedS d compact bom l = if levelsAll l ≤ d then some (printed compact bom l) else none := by
  unfold printedS
  rw [acceptAllS_eq]
  by_cases h : levelsAll l ≤ d
  · rw [if_pos h, if_pos h]
    rfl
  · rw [if_neg h, if_neg h]

/-- an element with a text in it needs two calls -/
example : (printedS 1 true false [.elem (lit "a") [] [.text false (lit "x")]]).isSome = false ∧
    printedS 2 true false [.elem (lit "a") [] [.text false (lit "x")]] = some (.ok (lit "<a>x</a>")) := by decide +kernel

/-- two elements in each other: room for one call is enough for the first file, not for the second -/
example : (∃ ns, parse (lit "<a><b/></a>") = .ok ns ∧ heightAll ns = 2 ∧ innerAll ns = 1) ∧
    (parseS 1 (lit "<a><b/></a>")).isSome = true ∧ (parseS 1 (lit "<a><b></b></a>")).isSome = false ∧
    (parseS 2 (lit "<a><b></b></a>")).isSome = true ∧ (parseS 0 (lit "<a/><b/>")).isSome = true := by
  refine ⟨⟨[.elem (lit "a") [] [.elem (lit "b") [] []]], by rfl, by decide +kernel, by decide +kernel⟩, by decide +kernel⟩

/-- a correct file that needs more than room for two calls -/
example : (parse (closedTower 3)).toOption.isSome = true ∧ (parseS 2 (closedTower 3)).isSome = false ∧ (parseS 3 (closedTower 3)).isSome = true := by decide +kernel

end Verif.Props
