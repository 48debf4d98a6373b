import Verif.Proof.Reduce
/-!
# Reductions over a range without points
-/
namespace Verif
open Spec

variable {σ T : Type} [CommRing T] [LinearOrder T] [IsStrictOrderedRing T]

theorem red_max_abs_none {α : Type} {l : List α} {P : α → Prop} {lt : α → α → Prop} (h : Enumerates l P lt) (hn : ¬∃ p, P p)
    (ans : Ref σ T) (f : σ → α → T) (s : σ) :
    reduceSpec l ans (computes PD_RF_MAX_ABS) (reads f) s = .ok () (ans.set |ans.get s| s) := by
  obtain rfl : l = [] := by
    cases l with
    | nil => rfl
    | cons a l => exact absurd ⟨a, (h.1 a).1 (by simp)⟩ hn
  simp only [reduceSpec_pure, rf_max_abs, List.foldl_nil]
  rw [max_eq_right (le_abs_self _)]

end Verif
