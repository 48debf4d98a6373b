import Mathlib.Algebra.Order.Ring.Abs
import Mathlib.Algebra.BigOperators.Group.Finset.Basic
import Mathlib.Order.Bounds.Basic
import Mathlib.Algebra.Order.BigOperators.Ring.Finset
import Mathlib.Data.Int.Interval
import Verif.Proof.Loops
/-!
# Reductions with the predefined reducers
-/
namespace Verif
open Spec
open scoped BigOperators

variable {σ T : Type}

theorem foldAll_pure {α : Type} (l : List α) (R : T → T → T) (f : σ → α → T) (t : T) (s : σ) :
    foldAll (fun t p => do let x ← reads f p; computes R x t) t l s
      = .ok (l.foldl (fun t p => R (f s p) t) t) s := by
  induction l generalizing t with
  | nil => rfl
  | cons p l ih =>
    have h1 : (do let x ← reads f p; computes R x t : M σ T) s = .ok (R (f s p) t) s := rfl
    rw [foldAll_cons, M.bind_ok h1, ih]; rfl

theorem reduceSpec_pure {α : Type} (l : List α) (ans : Ref σ T) (R : T → T → T) (f : σ → α → T) (s : σ) :
    reduceSpec l ans (computes R) (reads f) s
      = .ok () (ans.set (R (l.foldl (fun t p => R (f s p) t) (ans.get s)) (ans.get s)) s) := by
  unfold reduceSpec
  have h1 : ans.read s = .ok (ans.get s) s := rfl
  rw [M.bind_ok h1, M.bind_ok (foldAll_pure l R f _ s)]
  rfl

theorem Enumerates.nodup {α : Type} {l : List α} {P : α → Prop} {lt : α → α → Prop} (h : Enumerates l P lt)
    (irr : ∀ p, ¬ lt p p) : l.Nodup := by
  refine List.nodup_iff_pairwise_ne.2 (List.Pairwise.imp ?_ h.2)
  intro a b hab e
  subst e; exact irr a hab

theorem irr_int : ∀ p : Int, ¬ intLt p p := fun p h => by unfold intLt at h; omega
theorem irr_nat : ∀ p : Nat, ¬ natLt p p := fun p h => by unfold natLt at h; omega
theorem irr_lex {α β : Type} {lt : α → α → Prop} {lt' : β → β → Prop} (h : ∀ p, ¬ lt p p) (h' : ∀ p, ¬ lt' p p) :
    ∀ p, ¬ lexLt lt lt' p p := by
  rintro p (h1 | ⟨-, h1⟩)
  · exact h _ h1
  · exact h' _ h1
theorem irr_II : ∀ p, ¬ ltII p p := irr_lex irr_int irr_int
theorem irr_III : ∀ p, ¬ ltIII p p := irr_lex irr_int irr_II

theorem enum_sum {α : Type} [AddCommMonoid T] {l : List α} {P : α → Prop} {lt : α → α → Prop} (h : Enumerates l P lt)
    (irr : ∀ p, ¬ lt p p) (S : Finset α) (hS : ∀ p, p ∈ S ↔ P p) (g : α → T) : (l.map g).sum = ∑ p ∈ S, g p := by
  classical
  rw [← List.sum_toFinset g (Enumerates.nodup h irr)]
  congr 1; ext p; rw [List.mem_toFinset, h.1, hS]

theorem enum_prod {α : Type} [CommMonoid T] {l : List α} {P : α → Prop} {lt : α → α → Prop} (h : Enumerates l P lt)
    (irr : ∀ p, ¬ lt p p) (S : Finset α) (hS : ∀ p, p ∈ S ↔ P p) (g : α → T) : (l.map g).prod = ∏ p ∈ S, g p := by
  classical
  rw [← List.prod_toFinset g (Enumerates.nodup h irr)]
  congr 1; ext p; rw [List.mem_toFinset, h.1, hS]

theorem foldl_add {α : Type} [AddCommMonoid T] (l : List α) (g : α → T) (t : T) :
    l.foldl (fun t p => t + g p) t = t + (l.map g).sum := by
  induction l generalizing t with
  | nil => simp
  | cons a l ih => simp [ih, add_assoc]

theorem foldl_mul {α : Type} [CommMonoid T] (l : List α) (g : α → T) (t : T) :
    l.foldl (fun t p => t * g p) t = t * (l.map g).prod := by
  induction l generalizing t with
  | nil => simp
  | cons a l ih => simp [ih, mul_assoc]

section Ring
variable [CommRing T] [LinearOrder T] [IsStrictOrderedRing T]

theorem ite_abs (x : T) : (if 0 ≤ x then x else -x) = |x| := by
  split
  · rename_i h; rw [abs_of_nonneg h]
  · rename_i h; rw [abs_of_neg (not_le.1 h)]

theorem red_sum {α : Type} {l : List α} {P : α → Prop} {lt : α → α → Prop} (h : Enumerates l P lt)
    (irr : ∀ p, ¬ lt p p) (S : Finset α) (hS : ∀ p, p ∈ S ↔ P p) (ans : Ref σ T) (f : σ → α → T) (s : σ) :
    reduceSpec l ans (computes PD_RF_SUM) (reads f) s = .ok () (ans.set (ans.get s + (ans.get s + ∑ p ∈ S, f s p)) s) ∧
    reduceSpec l ans (computes PD_RF_SUM_ABS) (reads f) s = .ok () (ans.set (ans.get s + abs (ans.get s + ∑ p ∈ S, |f s p|)) s) ∧
    reduceSpec l ans (computes PD_RF_PRO) (reads f) s = .ok () (ans.set (ans.get s * (ans.get s * ∏ p ∈ S, f s p)) s) ∧
    reduceSpec l ans (computes PD_RF_PRO_ABS) (reads f) s = .ok () (ans.set (ans.get s * abs (ans.get s * ∏ p ∈ S, |f s p|)) s) := by
  simp only [reduceSpec_pure, PD_RF_SUM, PD_RF_SUM_ABS, PD_RF_PRO, PD_RF_PRO_ABS, ite_abs, foldl_add, foldl_mul,
    enum_sum h irr S hS, enum_prod h irr S hS, and_self]
end Ring

section Order
variable [LinearOrder T]

theorem rf_max (x xx : T) : PD_RF_MAX x xx = max xx x := by
  unfold PD_RF_MAX; split
  · rename_i h; rw [max_eq_right h.le]
  · rename_i h; rw [max_eq_left (not_lt.1 h)]
theorem rf_min (x xx : T) : PD_RF_MIN x xx = min xx x := by
  unfold PD_RF_MIN; split
  · rename_i h; rw [min_eq_right h.le]
  · rename_i h; rw [min_eq_left (not_lt.1 h)]

theorem foldl_max {α : Type} (l : List α) (g : α → T) (t : T) :
    IsGreatest {v | v = t ∨ ∃ p ∈ l, v = g p} (l.foldl (fun t p => max t (g p)) t) := by
  induction l generalizing t with
  | nil => refine ⟨.inl rfl, ?_⟩; rintro v (rfl | ⟨p, hp, -⟩)
           · exact le_rfl
           · cases hp
  | cons a l ih =>
    obtain ⟨h1, h2⟩ := ih (max t (g a))
    refine ⟨?_, ?_⟩
    · rcases h1 with h | ⟨p, hp, h⟩
      · rcases max_choice t (g a) with e | e
        · left; rw [List.foldl_cons, h, e]
        · right; exact ⟨a, by simp, by rw [List.foldl_cons, h, e]⟩
      · right; exact ⟨p, by simp [hp], h⟩
    · rintro v (rfl | ⟨p, hp, rfl⟩)
      · exact le_trans (le_max_left _ _) (h2 (.inl rfl))
      · rcases List.mem_cons.1 hp with rfl | hp
        · exact le_trans (le_max_right _ _) (h2 (.inl rfl))
        · exact h2 (.inr ⟨p, hp, rfl⟩)

theorem foldl_min {α : Type} (l : List α) (g : α → T) (t : T) :
    IsLeast {v | v = t ∨ ∃ p ∈ l, v = g p} (l.foldl (fun t p => min t (g p)) t) := by
  induction l generalizing t with
  | nil => refine ⟨.inl rfl, ?_⟩; rintro v (rfl | ⟨p, hp, -⟩)
           · exact le_rfl
           · cases hp
  | cons a l ih =>
    obtain ⟨h1, h2⟩ := ih (min t (g a))
    refine ⟨?_, ?_⟩
    · rcases h1 with h | ⟨p, hp, h⟩
      · rcases min_choice t (g a) with e | e
        · left; rw [List.foldl_cons, h, e]
        · right; exact ⟨a, by simp, by rw [List.foldl_cons, h, e]⟩
      · right; exact ⟨p, by simp [hp], h⟩
    · rintro v (rfl | ⟨p, hp, rfl⟩)
      · exact le_trans (h2 (.inl rfl)) (min_le_left _ _)
      · rcases List.mem_cons.1 hp with rfl | hp
        · exact le_trans (h2 (.inl rfl)) (min_le_right _ _)
        · exact h2 (.inr ⟨p, hp, rfl⟩)
end Order

section OrdRing
variable [CommRing T] [LinearOrder T] [IsStrictOrderedRing T]

theorem rf_max_abs (x xx : T) : PD_RF_MAX_ABS x xx = max xx |x| := by
  have := rf_max |x| xx
  simp only [PD_RF_MAX] at this
  simp only [PD_RF_MAX_ABS, ite_abs, this]
theorem rf_min_abs (x xx : T) : PD_RF_MIN_ABS x xx = min xx |x| := by
  have := rf_min |x| xx
  simp only [PD_RF_MIN] at this
  simp only [PD_RF_MIN_ABS, ite_abs, this]

theorem red_max {α : Type} {l : List α} {P : α → Prop} {lt : α → α → Prop} (h : Enumerates l P lt)
    (ans : Ref σ T) (f : σ → α → T) (s : σ) :
    (∃ v, IsGreatest {v | v = ans.get s ∨ ∃ p, P p ∧ v = f s p} v ∧
      reduceSpec l ans (computes PD_RF_MAX) (reads f) s = .ok () (ans.set v s)) ∧
    (∃ v, IsLeast {v | v = ans.get s ∨ ∃ p, P p ∧ v = f s p} v ∧
      reduceSpec l ans (computes PD_RF_MIN) (reads f) s = .ok () (ans.set v s)) ∧
    (0 ≤ ans.get s ∨ (∃ p, P p) → ∃ v, IsGreatest {v | v = ans.get s ∨ ∃ p, P p ∧ v = |f s p|} v ∧
      reduceSpec l ans (computes PD_RF_MAX_ABS) (reads f) s = .ok () (ans.set v s)) ∧
    (∃ v, IsLeast {v | v = ans.get s ∨ ∃ p, P p ∧ v = |f s p|} v ∧
      reduceSpec l ans (computes PD_RF_MIN_ABS) (reads f) s = .ok () (ans.set v s)) := by
  simp only [reduceSpec_pure, rf_max, rf_min, rf_max_abs, rf_min_abs]
  simp only [← h.1]
  have m1 := foldl_max l (fun p => f s p) (ans.get s)
  have m2 := foldl_min l (fun p => f s p) (ans.get s)
  have m3 := foldl_max l (fun p => |f s p|) (ans.get s)
  have m4 := foldl_min l (fun p => |f s p|) (ans.get s)
  refine ⟨⟨_, m1, ?_⟩, ⟨_, m2, ?_⟩, fun hh => ⟨_, m3, ?_⟩, ⟨_, m4, ?_⟩⟩
  · rw [max_eq_right (m1.2 (.inl rfl))]
  · rw [min_eq_right (m2.2 (.inl rfl))]
  · have hp : 0 ≤ l.foldl (fun t p => max t |f s p|) (ans.get s) := by
      rcases hh with hh | ⟨p, hp⟩
      · exact le_trans hh (m3.2 (.inl rfl))
      · exact le_trans (abs_nonneg (f s p)) (m3.2 (.inr ⟨p, hp, rfl⟩))
    rw [abs_of_nonneg hp, max_eq_right (m3.2 (.inl rfl))]
  · by_cases ha : 0 ≤ ans.get s
    · have hp : 0 ≤ l.foldl (fun t p => min t |f s p|) (ans.get s) := by
        rcases m4.1 with h | ⟨p, -, h⟩
        · rw [h]; exact ha
        · rw [h]; exact abs_nonneg _
      rw [abs_of_nonneg hp, min_eq_right (m4.2 (.inl rfl))]
    · have e : l.foldl (fun t p => min t |f s p|) (ans.get s) = ans.get s := by
        apply le_antisymm (m4.2 (.inl rfl))
        rcases m4.1 with h | ⟨p, -, h⟩
        · rw [h]
        · rw [h]; exact le_trans (not_le.1 ha).le (abs_nonneg _)
      rw [e, min_eq_left (le_abs_self _)]
end OrdRing

end Verif
