import Verif.Proof.Program
import Verif.Props.Lifecycle
/-!
# How a program leaves the contract
-/
namespace Verif
open Spec
variable {V S : Type} {mem : Nat → Nat → Bool}

theorem Spec.Occurs.step {chk : Bool} {aw aw' : AWorld V} {op : Op V} {ev : Ev V} (h : Occurs mem chk aw) (hs : astep mem chk aw op = some (ev, aw')) :
    Occurs mem chk aw' := by
  obtain ⟨ops, evs, h1⟩ := h
  exact ⟨ops ++ [op], evs ++ [ev], arun_append ops op h1 hs⟩

/-- the run stays among arrays that occur, and a fault is behind leaving the contract -/
def Blames (mem : Nat → Nat → Bool) {α : Type} : ARes V S α → Prop
  | .done _ w _ => Occurs mem true w
  | .throws _ w _ => Occurs mem true w
  | .uninit => True
  | .outside w why => Occurs mem true w ∧ Fault w why

theorem Blames.andThen {α β : Type} {m : AM V S α} {f : α → AM V S β} {aw : AWorld V} {s : S} (h : Blames mem (m aw s))
    (hf : ∀ a aw s, Occurs mem true aw → Blames mem (f a aw s)) : Blames mem (m.andThen f aw s) := by
  unfold AM.andThen
  cases hm : m aw s with
  | done a w s => rw [hm] at h; exact hf a w s h
  | throws e w s => rw [hm] at h; exact h
  | uninit => trivial
  | outside w why => rw [hm] at h; exact h

theorem Blames.through {α T : Type} {f : T → α → AM V S T} (hf : ∀ t a aw s, Occurs mem true aw → Blames mem (f t a aw s)) (l : List α) (t : T)
    {aw : AWorld V} (s : S) (h : Occurs mem true aw) : Blames mem (AM.through f t l aw s) := by
  induction l generalizing t aw s with
  | nil => exact h
  | cons a l ih => exact Blames.andThen (hf t a aw s h) fun t' aw' s' h' => ih t' s' h'

theorem Stmt.blames (hm : ∀ n sz, mem n sz = true) (p : Stmt V S) {aw : AWorld V} (h : Occurs mem true aw) (s : S) : Blames mem (p.aexec mem true aw s) := by
  induction p generalizing aw s with
  | skip => exact h
  | set f => exact h
  | throw e => exact h
  | call op k =>
    simp only [Stmt.aexec]
    cases ha : astep mem true aw (op s) with
    | none =>
      refine ⟨h, fun ht => ?_⟩
      obtain ⟨ops, evs, h1⟩ := h
      have := (Props.C06_safe ops (.inl hm) h1).2.2 (op s) ht
      rw [ha] at this; cases this
    | some q =>
      obtain ⟨ev, aw'⟩ := q
      have h' := h.step ha
      match ev with
      | .exn e => exact h'
      | .ret (.val none) => trivial
      | .ret (.val (some v)) => exact h'
      | .ret .unit => exact h'
      | .ret (.sizes l) => exact h'
  | ask x q k =>
    simp only [Stmt.aexec]
    cases hx : aw.arr x with
    | none => exact ⟨h, .inl hx⟩
    | some b =>
      obtain ⟨kd, a⟩ := b
      dsimp only
      cases he : (extents kd a)[(q s).dim]? with
      | none => exact h
      | some e =>
        dsimp only
        cases hq : answer e (q s) with
        | none => exact ⟨h, .inr ⟨kd, a, e, hx, he, hq⟩⟩
        | some i => exact h
  | range x ts k =>
    simp only [Stmt.aexec]
    cases hx : aw.arr x with
    | none => exact ⟨h, fun k a h => by rw [hx] at h; cases h⟩
    | some b =>
      obtain ⟨kd, a⟩ := b
      dsimp only
      split
      · exact h
      · rename_i hl; exact ⟨h, fun k a h => by rw [hx] at h; cases h; exact hl⟩
  | disp x fmt k =>
    simp only [Stmt.aexec]
    match hx : aw.arr x with
    | none => exact ⟨h, fun k a h => by rw [hx] at h; cases h⟩
    | some (kd, .empty) =>
      dsimp only
      split
      · exact h
      · rename_i hc; exact ⟨h, fun k a h => by rw [hx] at h; cases h; exact .inl ⟨rfl, hc⟩⟩
    | some (kd, .broken es z) => exact ⟨h, fun k a h => by rw [hx] at h; cases h; exact .inr ⟨es, z, rfl⟩⟩
    | some (kd, .ready es val) => exact h
  | seq p q ihp ihq => exact Blames.andThen (ihp h s) fun _ aw s h => ihq h s
  | ite c p q ihp ihq =>
    simp only [Stmt.aexec]
    split
    · exact ihp h s
    · exact ihq h s
  | rep n p ih => exact Blames.through (fun _ _ aw s h => ih h s) _ () s h
  | loop D ix p ih =>
    simp only [Stmt.aexec]
    split
    · exact Blames.through (fun _ _ aw s h => ih h _) _ () s h
    · rename_i ok; exact ⟨h, ok⟩
  | reduce D ans red ix p out ih =>
    simp only [Stmt.aexec]
    split
    · refine Blames.andThen (Blames.through (fun t a aw s h => ?_) _ _ s h) ?_
      · refine Blames.andThen (ih h _) ?_
        intro _ _ _ h; exact h
      · intro _ _ _ h; exact h
    · rename_i ok; exact ⟨h, ok⟩
  | attempt p k q ihp ihq =>
    simp only [Stmt.aexec]
    have := ihp h s
    cases ha : p.aexec mem true aw s with
    | done a aw' s' => rw [ha] at this; exact this
    | throws e aw' s' => rw [ha] at this; exact ihq this _
    | uninit => trivial
    | outside w why => rw [ha] at this; exact this

/-! ## Points of a loop -/

theorem mem_gridPts {R : List (Int × Int)} {xs : List Int} :
    xs ∈ gridPts R ↔ List.Forall₂ (fun (r : Int × Int) x => r.1 ≤ x ∧ x < r.1 + r.2) R xs := by
  induction R generalizing xs with
  | nil => simp [gridPts]
  | cons r R ih =>
    rw [gridPts_cons]
    simp only [List.mem_flatMap, List.mem_map, mem_ints]
    cases xs with
    | nil => simp
    | cons x xs =>
      simp only [List.cons.injEq, List.forall₂_cons]
      constructor
      · rintro ⟨y, hy, ys, hys, rfl, rfl⟩; exact ⟨⟨hy.1, by omega⟩, ih.1 hys⟩
      · rintro ⟨h1, h2⟩; exact ⟨x, ⟨h1.1, by omega⟩, xs, ih.2 h2, rfl, rfl⟩

theorem sorted_gridPts (R : List (Int × Int)) : (gridPts R).Pairwise (List.Lex intLt) := by
  induction R with
  | nil => simp [gridPts]
  | cons r R ih =>
    rw [gridPts_cons]
    rw [List.pairwise_flatMap]
    refine ⟨fun x _ => ?_, ?_⟩
    · rw [List.pairwise_map]; exact ih.imp fun h => .cons h
    · refine (ints_sorted r.1 r.2.toNat).imp fun {a b} hab p hp q hq => ?_
      simp only [List.mem_map] at hp hq
      obtain ⟨x, -, rfl⟩ := hp
      obtain ⟨y, -, rfl⟩ := hq
      exact .rel hab

end Verif
