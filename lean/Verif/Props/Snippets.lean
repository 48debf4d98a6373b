import Verif.Model.Snippets
import Verif.Spec.Snippets
import Verif.Proof.TecText
import Verif.Proof.Loops
/-!
# `exec_except` and `exec_time`: C48
-/
namespace Verif.Props
open Spec Tec Sp

/-- the streams with one text appended to one of them -/
def written (f : Nat → Str) (o : Nat) (t : Str) : Nat → Str := Function.update f o (f o ++ t)

/-- the mark in front of every line -/
def stamp (now : Str) (r : Nat) : Str := lit "[" ++ now ++ lit "|" ++ pad10 r ++ lit "]: "

theorem put_run {σ : Type} (o : Nat) (t : Str) (s : Prog σ) : put o t s = .ok () (s.1, written s.2 o t) := by
  unfold put written
  show Res.ok _ _ = Res.ok _ _
  refine congrArg (fun f => Res.ok () (s.1, f)) ?_
  funext k
  unfold Function.update
  by_cases h : k = o
  · subst h; simp
  · simp [h]

theorem written_twice (f : Nat → Str) (o : Nat) (t u : Str) : written (written f o t) o u = written f o (t ++ u) := by
  unfold written
  simp

/-- C48: the expression runs once, in the state of the call. If it returns, one line `no exception` goes to `out`.
If it throws a `std::exception`, one line `with exception` goes to `out` and one line with the message to `except_out`
(the effects of the expression up to the throw stay).  Other exceptions and undefined behaviour pass through.
The two streams may be the same. -/
theorem C48_except {σ : Type} (std : Catch) (now : Str) (r : Nat) (exp : M (Prog σ) Unit) (out eout : Nat) (s : Prog σ) :
    (∀ s', exp s = .ok () s' → exec_except std now r exp out eout s = .ok () (s'.1, written s'.2 out (stamp now r ++ lit "no exception\n"))) ∧
    (∀ e w s', exp s = .err e s' → std e = some w → exec_except std now r exp out eout s =
      .ok () (s'.1, written (written s'.2 out (stamp now r ++ lit "with exception\n")) eout (stamp now r ++ cstr w ++ lit "\n"))) ∧
    (∀ e s', exp s = .err e s' → std e = none → exec_except std now r exp out eout s = .err e s') ∧
    (∀ u, exp s = .ub u → exec_except std now r exp out eout s = .ub u) := by
  refine ⟨fun s' h => ?_, fun e w s' h he => ?_, fun e s' h he => ?_, fun u h => ?_⟩
  · unfold exec_except
    dsimp only
    rw [M.bind_ok h, M.bind_ok (put_run ..), M.bind_ok (put_run ..), put_run]
    show Res.ok _ _ = Res.ok _ _
    rw [written_twice, written_twice, show lit "no exception\n" = lit "no exception" ++ lit "\n" from rfl, ← List.append_assoc]
    rfl
  · unfold exec_except
    dsimp only
    rw [M.bind_err h]
    dsimp only
    rw [he]
    dsimp only
    rw [M.bind_ok (put_run ..), M.bind_ok (put_run ..), M.bind_ok (put_run ..), M.bind_ok (put_run ..), M.bind_ok (put_run ..), put_run]
    show Res.ok _ _ = Res.ok _ _
    rw [written_twice, written_twice, written_twice, written_twice, show lit "with exception\n" = lit "with exception" ++ lit "\n" from rfl, ← List.append_assoc]
    rfl
  · unfold exec_except
    dsimp only
    rw [M.bind_err h]
    dsimp only
    rw [he]
  · unfold exec_except
    dsimp only
    rw [M.bind_ub h]

/-- no `std::exception` escapes -/
theorem C48_no_escape {σ : Type} (std : Catch) (now : Str) (r : Nat) (exp : M (Prog σ) Unit) (out eout : Nat) (s s' : Prog σ) (e : Err)
    (h : exec_except std now r exp out eout s = .err e s') : std e = none := by
  obtain ⟨h1, h2, h3, h4⟩ := C48_except std now r exp out eout s
  cases hx : exp s with
  | ok a t => rw [h1 t hx] at h; cases h
  | err e' t =>
    cases hs : std e' with
    | some w => rw [h2 e' w t hx hs] at h; cases h
    | none => rw [h3 e' t hx hs] at h; cases h; exact hs
  | ub u => rw [h4 u hx] at h; cases h

/-- the number drawn from `std::rand()` is padded to ten digits -/
theorem C48_pad (r : Nat) (h : r ≤ 2147483647) : (pad10 r).length = 10 := by
  have := decNat_length (k := 10) (n := r) (by decide) (by omega)
  unfold pad10
  rw [List.length_append, List.length_replicate]
  omega

theorem runs_fold {σ D : Type} (exp : M σ Unit) (g : D → Nat → D) (l : List Nat) : ∀ (s : σ) (t : D) (s' : σ), Runs exp l.length s s' →
    foldAll (fun t i => do exp; pure (g t i)) t l s = .ok (l.foldl g t) s' := by
  induction l with
  | nil => intro s t s' h; cases h; rfl
  | cons a l ih =>
    intro s t s' h
    cases h with
    | more h1 h2 =>
      rw [foldAll_cons, M.bind_ok (m := do exp; pure (g t a)) (M.bind_ok h1)]
      exact ih _ _ _ h2

theorem runs_stop {σ D : Type} (exp : M σ Unit) (g : D → Nat → D) (l : List Nat) : ∀ (k : Nat) (s : σ) (t : D) (s1 : σ), k < l.length → Runs exp k s s1 →
    (∀ e s', exp s1 = .err e s' → foldAll (fun t i => do exp; pure (g t i)) t l s = .err e s') ∧
    (∀ u, exp s1 = .ub u → foldAll (fun t i => do exp; pure (g t i)) t l s = .ub u) := by
  induction l with
  | nil => intro k s t s1 hk; cases hk
  | cons a l ih =>
    intro k s t s1 hk h
    cases h with
    | none =>
      refine ⟨fun e s' he => ?_, fun u hu => ?_⟩
      · rw [foldAll_cons]; exact M.bind_err (M.bind_err he)
      · rw [foldAll_cons]; exact M.bind_ub (M.bind_ub hu)
    | more h1 h2 =>
      rw [foldAll_cons, M.bind_ok (m := do exp; pure (g t a)) (M.bind_ok h1)]
      exact ih _ _ _ _ (by simpa using hk) h2

theorem nats_length (b k : Nat) : (nats b k).length = k := by
  induction k generalizing b with
  | zero => rfl
  | succ k ih => rw [nats, List.length_cons, ih]

theorem nats_range (k : Nat) : nats 0 k = List.range k := by
  have h : ∀ k b, nats b k = List.range' b k := by
    intro k
    induction k with
    | zero => intro b; rfl
    | succ k ih => intro b; rw [nats, ih]; rfl
  rw [h, List.range_eq_range']

/-- C48: `exec_time` runs the expression exactly `N` times if no run throws, and returns the sum of the measured times
divided by `N`; if run number `k` throws (or is undefined), so does `exec_time`, after `k` runs. -/
theorem C48_time {σ D : Type} (o : DOps D) (dt : Nat → D) (N : Nat) (hN : N < 4294967296) (exp : M σ Unit) (s : σ) :
    (∀ s', Runs exp N s s' → exec_time o dt N exp s =
      .ok (o.div ((List.range N).foldl (fun t i => o.add t (dt i)) o.zero) (o.ofU N)) s') ∧
    (∀ k s1 e s', k < N → Runs exp k s s1 → exp s1 = .err e s' → exec_time o dt N exp s = .err e s') ∧
    (∀ k s1 u, k < N → Runs exp k s s1 → exp s1 = .ub u → exec_time o dt N exp s = .ub u) := by
  have e : exec_time o dt N exp = (foldAll (fun t i => do exp; pure (o.add t (dt i))) o.zero (nats 0 N) >>= fun t => pure (o.div t (o.ofU N))) := by
    unfold exec_time
    rw [forUAcc_eq 0 N (by omega) hN, Nat.sub_zero]
  have hl := nats_length 0 N
  rw [e]
  refine ⟨fun s' h => ?_, fun k s1 e' s' hk h he => ?_, fun k s1 u hk h hu => ?_⟩
  · rw [M.bind_ok (runs_fold exp (fun t i => o.add t (dt i)) (nats 0 N) s o.zero s' (by rwa [hl])), nats_range]
    rfl
  · exact M.bind_err ((runs_stop exp (fun t i => o.add t (dt i)) (nats 0 N) k s o.zero s1 (by omega) h).1 _ _ he)
  · exact M.bind_ub ((runs_stop exp (fun t i => o.add t (dt i)) (nats 0 N) k s o.zero s1 (by omega) h).2 _ hu)

/-- one of the three cases always applies -/
theorem C48_time_cases {σ : Type} (exp : M σ Unit) (N : Nat) : ∀ s, (∃ s', Runs exp N s s') ∨
    ∃ k s1, k < N ∧ Runs exp k s s1 ∧ ((∃ e s', exp s1 = .err e s') ∨ ∃ u, exp s1 = .ub u) := by
  induction N with
  | zero => intro s; exact .inl ⟨s, .none s⟩
  | succ N ih =>
    intro s
    cases h : exp s with
    | ok a s1 =>
      rcases ih s1 with ⟨s', hs⟩ | ⟨k, s2, hk, hr, hx⟩
      · exact .inl ⟨s', .more h hs⟩
      · exact .inr ⟨k + 1, s2, by omega, .more h hr, hx⟩
    | err e s1 => exact .inr ⟨0, s, by omega, .none s, .inl ⟨e, s1, h⟩⟩
    | ub u => exact .inr ⟨0, s, by omega, .none s, .inr ⟨u, h⟩⟩

/-- an expression that counts its runs and throws in the third -/
def thirdThrows : M (Prog Nat) Unit := fun s => if s.1 = 2 then .err (.runtime "third") (3, s.2) else .ok () (s.1 + 1, s.2)

def stdAll : Catch := fun e => match e with
  | .runtime m => some (lit m)
  | _ => none

def natOps : DOps Nat := ⟨0, (· + ·), (· / ·), id⟩

/-- concrete runs: a message, both lines in one stream, and a count that stops at the throw -/
example : (match exec_except stdAll (lit "20260101T000000") 42 thirdThrows 0 0 (2, fun _ => lit "x") with
      | .ok _ s => some (s.1, s.2 0) | _ => none) =
    some (3, lit "x[20260101T000000|0000000042]: with exception\n[20260101T000000|0000000042]: third\n") ∧
    (match exec_time natOps (fun _ => 6) 2 thirdThrows (0, fun _ => []) with | .ok t s => some (t, s.1) | _ => none) = some (6, 2) ∧
    (match exec_time natOps (fun _ => 6) 5 thirdThrows (0, fun _ => []) with | .err e s => some (e, s.1) | _ => none) = some (.runtime "third", 3) := by
  refine ⟨?_, ?_, ?_⟩ <;> decide +kernel

end Verif.Props
