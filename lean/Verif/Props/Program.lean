import Verif.Proof.ProgramContract
/-!
# C94: programs of any form
-/
namespace Verif.Props
open Spec
variable {V S : Type} {mem : Nat → Nat → Bool} {chk : Bool} {w : World V} {aw : AWorld V}

/-- C94: whatever calls, questions, loops, reductions, branches and `try` blocks a program is made of, what it does to its arrays and its variables is what
happens on the abstract machine: it ends normally or with an exception exactly as there, with the same variables and the arrays that the machine shows. -/
theorem C94 (R : Reach mem chk w aw) (p : Stmt V S) (s : S) :
    (∀ aw' s', p.aexec mem chk aw s = .done () aw' s' → ∃ w', p.exec chk (w, s) = .ok () (w', s') ∧ Reach mem chk w' aw') ∧
    (∀ e aw' s', p.aexec mem chk aw s = .throws e aw' s' → ∃ w', p.exec chk (w, s) = .err e (w', s') ∧ Reach mem chk w' aw') ∧
    (p.aexec mem chk aw s = .uninit → p.exec chk (w, s) = .ub .uninit) := by
  have h := p.sim (mem := mem) (chk := chk) R s
  refine ⟨fun aw' s' e => ?_, fun e aw' s' h1 => ?_, fun e => ?_⟩
  · rw [e] at h; exact h
  · rw [h1] at h; exact h
  · rw [e] at h; exact h

/-- C94 (defined): a program that does not leave the contract has undefined behaviour only if it uses a number that was never assigned. -/
theorem C94_defined (R : Reach mem chk w aw) (p : Stmt V S) (s : S) (hc : ∀ aw' why, p.aexec mem chk aw s ≠ .outside aw' why) (u : UB) :
    p.exec chk (w, s) = .ub u ↔ u = .uninit ∧ p.aexec mem chk aw s = .uninit := by
  have h := C94 R p s
  cases ha : p.aexec mem chk aw s with
  | done a aw' s' => obtain ⟨w', h1, -⟩ := h.1 aw' s' ha; simp [h1]
  | throws e aw' s' => obtain ⟨w', h1, -⟩ := h.2.1 e aw' s' ha; simp [h1]
  | uninit => rw [h.2.2 ha]; simp [eq_comm]
  | outside aw' why => exact (hc aw' why ha).elim

/-- C94 (faults): in a checked build with enough memory only a fault of the program leads outside the contract; element accesses, `alloc`, `realloc`, `clear`
and questions with any arguments never do. -/
theorem C94_faults (hm : ∀ n sz, mem n sz = true) (R : Reach mem true w aw) (p : Stmt V S) (s : S) {aw' : AWorld V} {why : Why V}
    (h : p.aexec mem true aw s = .outside aw' why) : Fault aw' why := by
  obtain ⟨ops, evs, h1, -⟩ := R
  have := p.blames hm ⟨ops, evs, h1⟩ s
  rw [h] at this; exact this.2

/-- C94 (whole): a program that begins without arrays shows what it shows on the abstract machine. -/
theorem C94_whole (p : Stmt V S) (s : S) {r : Res S Unit} (h : (p.aexec mem chk AWorld.init s).seen = some r) :
    (p.exec chk (World.init mem, s)).seen = r := by
  have h1 := C94 (Reach.init (V := V) (mem := mem) (chk := chk)) p s
  cases ha : p.aexec mem chk AWorld.init s with
  | done a aw' s' => obtain ⟨w', h2, -⟩ := h1.1 aw' s' ha; rw [ha] at h; cases h; rw [h2]; rfl
  | throws e aw' s' => obtain ⟨w', h2, -⟩ := h1.2.1 e aw' s' ha; rw [ha] at h; cases h; rw [h2]; rfl
  | uninit => rw [ha] at h; cases h; rw [h1.2.2 ha]; rfl
  | outside aw' why => rw [ha] at h; cases h

/-- C94 (points): the points a loop goes through are exactly those of the box, each once and in lexicographic order. -/
theorem C94_points (R : List (Int × Int)) :
    Enumerates (gridPts R) (fun xs => List.Forall₂ (fun (r : Int × Int) x => r.1 ≤ x ∧ x < r.1 + r.2) R xs) (List.Lex intLt) :=
  ⟨fun _ => mem_gridPts, sorted_gridPts R⟩

/-! ## Examples -/

/-- variables of the examples: an index, ranges, a number, exceptions caught and text -/
structure Vars where
  i : Int := 0
  R : List (Int × Int) := []
  sum : Int := 0
  last : Int := 0
  caught : List Err := []
  out : List String := []
  deriving DecidableEq

/-- One array of the points -1 … 3 is filled with squares by a loop and summed up over its interior; the program looks one point too far, catches the
exception, mirrors the index 3 at the end of the interior and prints. -/
def squares : Stmt Int Vars :=
  .seq (.call (fun _ => .makeSized 0 ⟨1, [.center]⟩ (fun _ => .null) [⟨1, 3, 1⟩]) fun _ s => s) <|
  .seq (.range 0 [.ALL] fun R s => { s with R }) <|
  .seq (.loop (fun s => { R := s.R }) (fun _ xs s => { s with i := xs.headD 0 }) (.call (fun s => .write 0 0 [s.i] [.C] (s.i * s.i)) fun _ s => s)) <|
  .seq (.range 0 [.IN] fun R s => { s with R }) <|
  .seq (.reduce (fun s => { R := s.R }) ⟨Vars.sum, fun v s => { s with sum := v }⟩ (· + ·) (fun _ xs s => { s with i := xs.headD 0 })
    (.call (fun s => .read 0 0 [s.i] [.C]) fun r s => match r with | .val (some v) => { s with last := v } | _ => s) Vars.last) <|
  .seq (.attempt (.call (fun _ => .read 0 0 [4] [.C]) fun _ s => s) (fun e s => { s with caught := s.caught ++ [e] }) .skip) <|
  .seq (.ask 0 (fun _ => .mirror 0 .P 3) fun i s => { s with i }) <|
  .disp 0 (fun v => match v with | some v => toString v | none => "?") fun t s => { s with out := t }

/-- what `squares` shows -/
def squaresShow : Res Vars Unit :=
  .ok () { i := 1, R := [(0, 3)], sum := 5, last := 4, caught := [.rangeCenter 0 4 (-1) 3],
           out := ["1", ", ", "\n", "0", ", ", "\n", "1", ", ", "\n", "4", ", ", "\n", "9", ", ", "\n"] }

example : (squares.exec true (World.init fun _ _ => true, {})).seen = squaresShow := C94_whole _ _ (by decide +kernel)

/-- a program that forgets to fill its array -/
def forgets : Stmt Int Vars :=
  .seq (.call (fun _ => .makeSized 0 ⟨1, [.center]⟩ (fun _ => .null) [⟨1, 3, 1⟩]) fun _ s => s) <|
  .call (fun s => .read 0 0 [s.i] [.C]) fun _ s => s

example : (forgets.exec true (World.init fun _ _ => true, {})).seen = .ub .uninit := C94_whole _ _ (by decide +kernel)

/-- a column of a 2D array: the loop over the second dimension alone -/
example : loopPts { ax := [1], R := [(0, 2), (-1, 3)] } = [(0, [-1]), (0, [0]), (0, [1])] ∧ LoopOk { ax := [1], R := [(0, 2), (-1, 3)] } := by decide

/-- two components of two dimensions, the second one first -/
example : loopPts { N := some (1, 3), ax := [2, 0], R := [(5, 1), (0, 7), (8, 2)] } = [(1, [8, 5]), (1, [9, 5]), (2, [8, 5]), (2, [9, 5])] := by decide

/-- the range of an inverted loop is a fault -/
example : Fault (AWorld.init : AWorld Int) (.loop { R := [(0, -1)] }) := by unfold Fault; decide

end Verif.Props
