import Verif.Proof.Loops
/-!
# Statements that throw nothing; inverted loops
-/
namespace Verif

/-- the statement throws nothing -/
def Quiet {σ α : Type} (m : M σ α) : Prop := ∀ s e s', m s ≠ .err e s'

section
variable {σ α β : Type}

theorem Quiet.pure (a : α) : Quiet (pure a : M σ α) := fun _ _ _ h => by cases h

theorem Quiet.bind {m : M σ α} {f : α → M σ β} (h : Quiet m) (h' : ∀ a, Quiet (f a)) : Quiet (m >>= f) := by
  intro s e s' he
  rw [M.bind_run] at he
  cases hm : m s with
  | ok a t => rw [hm] at he; exact h' a t e s' he
  | err e1 t => exact h s e1 t hm
  | ub u => rw [hm] at he; cases he

theorem Quiet.i32 (x : Int) : Quiet (liftM (i32 x) : M σ Int) := by
  intro s e s' h
  unfold Verif.i32 at h
  split at h <;> exact nomatch h

theorem Quiet.loopI {body : Int → M σ Unit} (h : ∀ i, Quiet (body i)) (k : Nat) (i : Int) : Quiet (loopI body k i) := by
  induction k generalizing i with
  | zero => exact Quiet.pure ()
  | succ k ih => exact (h i).bind fun _ => ih _

theorem Quiet.undef (u : UB) : Quiet (M.undef u : M σ α) := fun _ _ _ h => nomatch h

theorem Quiet.forI {body : Int → M σ Unit} (h : ∀ i, Quiet (body i)) (b e : Int) : Quiet (forI b e body) := by
  unfold Verif.forI
  split
  · exact Quiet.loopI h _ _
  · exact (Quiet.loopI h _ _).bind fun _ => Quiet.undef _

theorem Quiet.loopU {body : Nat → M σ Unit} (h : ∀ i, Quiet (body i)) (k i : Nat) : Quiet (loopU body k i) := by
  induction k generalizing i with
  | zero => exact Quiet.pure ()
  | succ k ih => exact (h i).bind fun _ => ih _

theorem Quiet.forU {body : Nat → M σ Unit} (h : ∀ i, Quiet (body i)) (b e : Nat) : Quiet (forU b e body) := Quiet.loopU h _ _

theorem i32_bad' {x : Int} (h : ¬ InI32 x) : i32 x = .ub .overflow := if_neg h

/-- an inverted loop with a quiet body is undefined -/
theorem forI_ub {b e : Int} (h : e < b) {body : Int → M σ Unit} (q : ∀ i, Quiet (body i)) (s : σ) : ∃ u, forI b e body s = .ub u := by
  unfold forI
  rw [if_neg (by omega), M.bind_run]
  cases hm : loopI body (INT_MAX - b + 1).toNat b s with
  | ok a t => exact ⟨_, rfl⟩
  | err e t => exact (Quiet.loopI q _ _ _ _ _ hm).elim
  | ub u => exact ⟨u, rfl⟩

/-- the first pass of a loop decides -/
theorem forI_first {b e : Int} (h : b < e) {body : Int → M σ Unit} {s : σ} (hb : ∃ u, body b s = .ub u) : ∃ u, forI b e body s = .ub u := by
  obtain ⟨u, hu⟩ := hb
  obtain ⟨n, hn⟩ : ∃ n, (e - b).toNat = n + 1 := ⟨(e - b).toNat - 1, by omega⟩
  refine ⟨u, ?_⟩
  unfold forI
  rw [if_pos (by omega), hn]
  show (body b >>= fun _ => loopI body n (b + 1)) s = _
  rw [M.bind_run, hu]

theorem forI_still {b e : Int} (h : b ≤ e) {body : Int → M σ Unit} {s : σ} (hb : ∀ i, body i s = .ok () s) : forI b e body s = .ok () s := by
  unfold forI
  rw [if_pos h]
  generalize (e - b).toNat = n
  clear h
  induction n generalizing b with
  | zero => rfl
  | succ n ih => exact (M.bind_ok (hb b)).trans ih

theorem forI_zero (b : Int) (body : Int → M σ Unit) (s : σ) : forI b (b + 0) body s = .ok () s := by
  unfold forI
  rw [if_pos (by omega)]
  have : (b + 0 - b).toNat = 0 := by omega
  rw [this]; rfl

theorem forI_none {b e : Int} (h : e = b) (body : Int → M σ Unit) (s : σ) : forI b e body s = .ok () s := by
  have := forI_zero b body s
  rw [Int.add_zero] at this
  rw [h]; exact this

end

end Verif
