import Verif.Spec.Machine
/-!
# Which histories lose memory
-/
namespace Verif.Spec
variable {V : Type}

/-- the sizing constructor of an array of kind `k`, called when `next` requests were made
before, gets some of its memory but not all -/
structure FailsHalf (mem : Nat → Nat → Bool) (next : Nat) (k : Kind) (es : List Ext) : Prop where
  comps : k.N ≠ 0
  sizes : sizeErrs 0 es = none
  pts : points (mkShape es k.locs) ≠ 0
  some_ : granted mem next (requests k.N (mkShape es k.locs)) ≠ 0
  not_all : granted mem next (requests k.N (mkShape es k.locs)) ≠ (requests k.N (mkShape es k.locs)).length

/-- somewhere in the history a sizing constructor fails half way -/
def HalfWay (mem : Nat → Nat → Bool) (chk : Bool) (aw : AWorld V) (ops : List (Op V)) : Prop :=
  ∃ before x k j es after evs aw1, ops = before ++ Op.makeSized x k j es :: after ∧
    arun mem chk before aw = some (evs, aw1) ∧ FailsHalf mem aw1.next k es

end Verif.Spec
