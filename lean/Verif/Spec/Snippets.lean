import Verif.Base
/-!
# Specification: running a statement a number of times
-/
namespace Verif.Spec

/-- `Runs m k s s'`: `k` runs of `m`, each of which returns, lead from `s` to `s'` -/
inductive Runs {σ : Type} (m : M σ Unit) : Nat → σ → σ → Prop
  | none (s : σ) : Runs m 0 s s
  | more {k : Nat} {s s1 s' : σ} : m s = .ok () s1 → Runs m k s1 s' → Runs m (k + 1) s s'

end Verif.Spec
