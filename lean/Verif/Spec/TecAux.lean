import Verif.Model.Tec.Basic
/-!
# Specification of auxiliary data
-/
namespace Verif.Tec

/-- the map is ordered: what every `std::map` satisfies -/
def AuxMap.Ordered (m : AuxMap) : Prop := m.Pairwise fun a b => strLt a.1 b.1 = true

/-- the value of the first addition of a name -/
def firstValue : List (Str × Str) → Str → Option Str
  | [], _ => none
  | e :: l, n => if e.1 = n then some e.2 else firstValue l n

/-- the answers to a history of additions: whether the name is new, given the names `old` already present -/
def newNames (old : Str → Prop) [DecidablePred old] : List (Str × Str) → List Bool
  | [] => []
  | e :: l => decide (¬ old e.1) :: newNames (fun n => old n ∨ n = e.1) l

/-- a history of additions, with the answers -/
def addAll {σ : Type} (add : Str → Str → M σ Bool) : List (Str × Str) → M σ (List Bool)
  | [] => pure []
  | e :: l => do
    let b ← add e.1 e.2
    let r ← addAll add l
    pure (b :: r)

end Verif.Tec
