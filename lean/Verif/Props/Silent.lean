import Verif.Proof.Silent
import Verif.Props.Program
/-!
# C96: a program with and without checks
-/
namespace Verif.Props
open Spec
variable {V S : Type} {mem : Nat → Nat → Bool} {w w' : World V} {aw : AWorld V}

/-- C96: if a program compiled without checks keeps the contract, compiling it with checks changes nothing: it ends in the same way with the same
variables. -/
theorem C96 (R : Reach mem false w aw) (R' : Reach mem true w' aw) (p : Stmt V S) (s : S) (h : (p.aexec mem false aw s).Inside) :
    p.aexec mem true aw s = p.aexec mem false aw s ∧ (p.exec true (w', s)).seen = (p.exec false (w, s)).seen := by
  have h1 := Stmt.kept (mem := mem) p aw s h
  refine ⟨h1, ?_⟩
  have h2 := C94 R p s
  have h3 := C94 R' p s
  rw [h1] at h3
  cases ha : p.aexec mem false aw s with
  | done a aw' s' => obtain ⟨v, h4, -⟩ := h2.1 aw' s' ha; obtain ⟨v', h5, -⟩ := h3.1 aw' s' ha; rw [h4, h5]; rfl
  | throws e aw' s' => obtain ⟨v, h4, -⟩ := h2.2.1 e aw' s' ha; obtain ⟨v', h5, -⟩ := h3.2.1 e aw' s' ha; rw [h4, h5]; rfl
  | uninit => rw [h2.2.2 ha, h3.2.2 ha]
  | outside aw' why => rw [ha] at h; exact h.elim

/-- C96 (silent): if a program compiled with checks ends and no check failed on the way, caught or not, the program compiled without checks ends in the same
way with the same variables. -/
theorem C96_silent (R : Reach mem false w aw) (R' : Reach mem true w' aw) (p : Stmt V S) (s : S) (h : (p.watched.aexec mem true aw (s, false)).Silent) :
    p.aexec mem false aw s = p.aexec mem true aw s ∧ (p.exec false (w, s)).seen = (p.exec true (w', s)).seen := by
  have h1 := Stmt.quiet (mem := mem) p aw (s, false)
  have h2 := Stmt.drop_watched (mem := mem) (chk := true) p aw (s, false)
  have h3 : (p.aexec mem false aw s).Inside := by
    cases ha : p.watched.aexec mem true aw (s, false) with
    | done a aw' s' => rw [ha] at h h1; rw [(h1 h).2]; trivial
    | throws e aw' s' => rw [ha] at h h1; rw [(h1 h.1).2 h.2]; trivial
    | uninit => rw [ha] at h; exact h.elim
    | outside aw' why => rw [ha] at h; exact h.elim
  have h4 := C96 R R' p s h3
  exact ⟨h4.1.symm, h4.2.symm⟩

/-- C96 (watched): the flag of the watched program is nothing but an observer. -/
theorem C96_watched (chk b : Bool) (p : Stmt V S) (s : S) : (p.watched.aexec mem chk aw (s, b)).drop = p.aexec mem chk aw s :=
  Stmt.drop_watched p aw (s, b)

/-- C96 (exactly): a program that does not throw such exceptions itself, and whose checked run does not use a number that was never assigned, keeps the
contract when compiled without checks exactly if it ends with checks and no check fails. -/
theorem C96_iff (p : Stmt V S) (hp : p.Honest) (s : S) (hu : p.aexec mem true aw s ≠ .uninit) :
    (p.aexec mem false aw s).Inside ↔ (p.watched.aexec mem true aw (s, false)).Silent := by
  refine ⟨fun h => ?_, fun h => ?_⟩
  · obtain ⟨h1, h2⟩ := Stmt.calm (mem := mem) p hp aw s false h
    rw [h1]
    cases ha : p.aexec mem false aw s with
    | done a aw' s' => rfl
    | throws e aw' s' => exact ⟨rfl, h2 _ _ _ ha⟩
    | uninit => rw [Stmt.kept (mem := mem) p aw s h, ha] at hu; exact (hu rfl).elim
    | outside aw' why => rw [ha] at h; exact h.elim
  · have h1 := Stmt.quiet (mem := mem) p aw (s, false)
    cases ha : p.watched.aexec mem true aw (s, false) with
    | done a aw' s' => rw [ha] at h h1; rw [(h1 h).2]; trivial
    | throws e aw' s' => rw [ha] at h h1; rw [(h1 h.1).2 h.2]; trivial
    | uninit => rw [ha] at h; exact h.elim
    | outside aw' why => rw [ha] at h; exact h.elim

/-! ## Examples -/

/-- the array of squares without the access outside -/
def quietSquares : Stmt Int Vars :=
  .seq (.call (fun _ => .makeSized 0 ⟨1, [.center]⟩ (fun _ => .null) [⟨1, 3, 1⟩]) fun _ s => s) <|
  .seq (.range 0 [.ALL] fun R s => { s with R }) <|
  .seq (.loop (fun s => { R := s.R }) (fun _ xs s => { s with i := xs.headD 0 }) (.call (fun s => .write 0 0 [s.i] [.C] (s.i * s.i)) fun _ s => s)) <|
  .seq (.attempt (.call (fun _ => .alloc 0 [⟨0, 7, 0⟩]) fun _ s => s) (fun e s => { s with caught := s.caught ++ [e] }) .skip) <|
  .disp 0 (fun v => match v with | some v => toString v | none => "?") fun t s => { s with out := t }

instance {α : Type} (r : ARes V (S × Bool) α) : Decidable r.Silent := by cases r <;> unfold ARes.Silent <;> infer_instance

/-- no check fails (the exception of `alloc` on an array that is not empty is not the exception of a check) -/
example : (quietSquares.watched.aexec (fun _ _ => true) true AWorld.init ({}, false)).Silent := by decide +kernel

example : (quietSquares.exec false (World.init fun _ _ => true, {})).seen = (quietSquares.exec true (World.init fun _ _ => true, {})).seen :=
  (C96_silent Reach.init Reach.init _ _ (by decide +kernel)).2

/-- in `squares` a check fails and is caught: not silent -/
example : ¬ (squares.watched.aexec (fun _ _ => true) true AWorld.init ({}, false)).Silent := by decide +kernel

/-- so without checks it leaves the contract -/
example : ¬ (squares.aexec (fun _ _ => true) false AWorld.init {}).Inside :=
  fun h => absurd ((C96_iff squares (by simp [squares, Stmt.Honest]) {} fun h1 => by
    have : (squares.aexec (fun _ _ => true) true AWorld.init {}).seen ≠ some (.ub .uninit) := by decide +kernel
    rw [h1] at this; exact this rfl).1 h) (by decide +kernel)

end Verif.Props
