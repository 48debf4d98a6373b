import Verif.Model.SizeTests
import Verif.Spec.SizeTests
import Verif.Props.Snippets
/-!
# Lemmas: from the statements of a program to the two files
-/
namespace Verif.SizeTest
open Spec Tec Props

variable {σ : Type}

/-- message of an exception as it is printed -/
def shown (e : Err) : Option Str := (stdCatch e).map cstr

/-- what the statements say one after the other -/
def trace : List (Line σ) → σ → Out (List Said)
  | [], _ => .ok []
  | .plain a :: l, v => match a v with
    | .ok t v' => (trace l v').bind fun T => .ok (.text t :: T)
    | .err e _ => .err e
    | .ub u => .ub u
  | .tries a :: l, v => match a v with
    | .ok t v' => (trace l v').bind fun T => .ok (.fine t :: T)
    | .err e v' => if shown e = some (lit e.what) then (trace l v').bind fun T => .ok (.caught e.what :: T) else .err e
    | .ub u => .ub u

theorem written_other (f : Nat → Str) (o k : Nat) (t : Str) (h : k ≠ o) : written f o t k = f k := by
  unfold written
  exact Function.update_of_ne h _ _

theorem written_same (f : Nat → Str) (o : Nat) (t : Str) : written f o t o = f o ++ t := by
  unfold written
  exact Function.update_self _ _ _

theorem mark_eq (now : Str) (r : Nat) : stamp now r = mark now r := rfl

theorem run_ok (now : Nat → Str) (r : Nat → Nat) (l : List (Line σ)) : ∀ (k : Nat) (v : σ) (o : Nat → Str) (T : List Said), trace l v = .ok T →
    ∃ v' o', run now r k l (v, o) = .ok () (v', o') ∧ o' 0 = o 0 ++ outFile now r k T ∧ o' 1 = o 1 ++ errFile now r k T ∧ ∀ i, 1 < i → o' i = o i := by
  induction l with
  | nil =>
    intro k v o T h
    cases h
    exact ⟨v, o, rfl, (List.append_nil _).symm, (List.append_nil _).symm, fun _ _ => rfl⟩
  | cons a l ih =>
    intro k v o T h
    cases a with
    | plain a =>
      cases e : a v with
      | ok t v1 =>
        simp only [trace, e] at h
        cases h' : trace l v1 with
        | ok T' =>
          rw [h'] at h
          cases h
          obtain ⟨v2, o2, h1, h2, h3, h4⟩ := ih k v1 (written o 0 (lit t)) T' h'
          have hs : say a (v, o) = .ok () (v1, written o 0 (lit t)) := by
            simp only [say, e]
            exact put_run ..
          refine ⟨v2, o2, ?_, ?_, ?_, fun i hi => ?_⟩
          · show (say a >>= fun _ => run now r k l) (v, o) = _
            rw [M.bind_ok hs]
            exact h1
          · rw [h2, written_same, List.append_assoc]; rfl
          · rw [h3, written_other _ _ _ _ (by decide)]; rfl
          · rw [h4 i hi, written_other _ _ _ _ (by omega)]
        | err _ => rw [h'] at h; cases h
        | ub _ => rw [h'] at h; cases h
      | err _ _ => simp only [trace, e] at h; cases h
      | ub _ => simp only [trace, e] at h; cases h
    | tries a =>
      cases e : a v with
      | ok t v1 =>
        simp only [trace, e] at h
        cases h' : trace l v1 with
        | ok T' =>
          rw [h'] at h
          cases h
          have hs : say a (v, o) = .ok () (v1, written o 0 (lit t)) := by
            simp only [say, e]
            exact put_run ..
          have hx := (C48_except stdCatch (now k) (r k) (say a) 0 1 (v, o)).1 _ hs
          rw [written_twice] at hx
          obtain ⟨v2, o2, h1, h2, h3, h4⟩ := ih (k + 1) v1 (written o 0 (lit t ++ (stamp (now k) (r k) ++ lit "no exception\n"))) T' h'
          refine ⟨v2, o2, ?_, ?_, ?_, fun i hi => ?_⟩
          · show (Sp.exec_except stdCatch (now k) (r k) (say a) 0 1 >>= fun _ => run now r (k + 1) l) (v, o) = _
            rw [M.bind_ok hx]
            exact h1
          · rw [h2, written_same, mark_eq]
            simp only [outFile, List.append_assoc]
          · rw [h3, written_other _ _ _ _ (by decide)]; rfl
          · rw [h4 i hi, written_other _ _ _ _ (by omega)]
        | err _ => rw [h'] at h; cases h
        | ub _ => rw [h'] at h; cases h
      | err x v1 =>
        simp only [trace, e] at h
        by_cases hw : shown x = some (lit x.what)
        · rw [if_pos hw] at h
          cases h' : trace l v1 with
          | ok T' =>
            rw [h'] at h
            cases h
            unfold shown at hw
            obtain ⟨w, hw1, hw2⟩ := Option.map_eq_some_iff.1 hw
            have hs : say a (v, o) = .err x (v1, o) := by simp only [say, e]
            have hx := (C48_except stdCatch (now k) (r k) (say a) 0 1 (v, o)).2.1 x w _ hs hw1
            rw [hw2] at hx
            obtain ⟨v2, o2, h1, h2, h3, h4⟩ := ih (k + 1) v1 _ T' h'
            refine ⟨v2, o2, ?_, ?_, ?_, fun i hi => ?_⟩
            · show (Sp.exec_except stdCatch (now k) (r k) (say a) 0 1 >>= fun _ => run now r (k + 1) l) (v, o) = _
              rw [M.bind_ok hx]
              exact h1
            · rw [h2, written_other _ _ _ _ (by decide), written_same, mark_eq]
              simp only [outFile, List.append_assoc]
            · rw [h3, written_same, written_other _ _ _ _ (by decide), mark_eq]
              simp only [errFile, List.append_assoc]
            · rw [h4 i hi, written_other _ _ _ _ (by omega), written_other _ _ _ _ (by omega)]
          | err _ => rw [h'] at h; cases h
          | ub _ => rw [h'] at h; cases h
        · rw [if_neg hw] at h; cases h
      | ub _ => simp only [trace, e] at h; cases h

theorem run_ub (now : Nat → Str) (r : Nat → Nat) (l : List (Line σ)) : ∀ (k : Nat) (v : σ) (o : Nat → Str) (u : UB), trace l v = .ub u →
    run now r k l (v, o) = .ub u := by
  induction l with
  | nil => intro k v o u h; cases h
  | cons a l ih =>
    intro k v o u h
    cases a with
    | plain a =>
      show (say a >>= fun _ => run now r k l) (v, o) = _
      cases e : a v with
      | ok t v1 =>
        simp only [trace, e] at h
        cases h' : trace l v1 with
        | ok T' => rw [h'] at h; cases h
        | err _ => rw [h'] at h; cases h
        | ub u' =>
          rw [h'] at h
          cases h
          have hs : say a (v, o) = .ok () (v1, written o 0 (lit t)) := by
            simp only [say, e]
            exact put_run ..
          rw [M.bind_ok hs]
          exact ih _ _ _ _ h'
      | err _ _ => simp only [trace, e] at h; cases h
      | ub u' =>
        simp only [trace, e] at h
        cases h
        exact M.bind_ub (by simp only [say, e])
    | tries a =>
      show (Sp.exec_except stdCatch (now k) (r k) (say a) 0 1 >>= fun _ => run now r (k + 1) l) (v, o) = _
      cases e : a v with
      | ok t v1 =>
        simp only [trace, e] at h
        cases h' : trace l v1 with
        | ok T' => rw [h'] at h; cases h
        | err _ => rw [h'] at h; cases h
        | ub u' =>
          rw [h'] at h
          cases h
          have hs : say a (v, o) = .ok () (v1, written o 0 (lit t)) := by
            simp only [say, e]
            exact put_run ..
          rw [M.bind_ok ((C48_except stdCatch (now k) (r k) (say a) 0 1 (v, o)).1 _ hs)]
          exact ih _ _ _ _ h'
      | err x v1 =>
        simp only [trace, e] at h
        by_cases hw : shown x = some (lit x.what)
        · rw [if_pos hw] at h
          cases h' : trace l v1 with
          | ok T' => rw [h'] at h; cases h
          | err _ => rw [h'] at h; cases h
          | ub u' =>
            rw [h'] at h
            cases h
            unfold shown at hw
            obtain ⟨w, hw1, hw2⟩ := Option.map_eq_some_iff.1 hw
            have hs : say a (v, o) = .err x (v1, o) := by simp only [say, e]
            rw [M.bind_ok ((C48_except stdCatch (now k) (r k) (say a) 0 1 (v, o)).2.1 x w _ hs hw1)]
            exact ih _ _ _ _ h'
        · rw [if_neg hw] at h; cases h
      | ub u' =>
        simp only [trace, e] at h
        cases h
        refine M.bind_ub ((C48_except stdCatch (now k) (r k) (say a) 0 1 (v, o)).2.2.2 _ ?_)
        simp only [say, e]

end Verif.SizeTest
