import Verif.Spec.Machine
/-!
# Where an access without checks ends

The numbers of an array lie one behind the other.  The same number has an address under indices of its own and, without
the checks, under others: an index past the end of a row goes on in the next row.  The walk below keeps the number of the
row the indices read so far lead to; each index moves inside the rows of the next level, counted over the whole array.
-/
namespace Verif.Spec

/-- from row `r` of `m` rows on, one index per dimension; none: the next index leaves the array -/
def walk : Nat → Nat → Shape → List Int → Option Nat
  | _, r, [], [] => some r
  | m, r, d :: sh, y :: ys =>
    if 0 ≤ ((r * d.width : Nat) : Int) + (y + d.ext.n) ∧ ((r * d.width : Nat) : Int) + (y + d.ext.n) < ((m * d.width : Nat) : Int) then
      walk (m * d.width) (((r * d.width : Nat) : Int) + (y + d.ext.n)).toNat sh ys
    else none
  | _, _, _, _ => none

/-- the place in the storage that `x(n, xs, fs)` without checks names, if there is one -/
def seat (k : Kind) (es : List Ext) (n : Nat) (ys : List Int) : Option Nat :=
  if n < k.N ∧ ∀ y ∈ ys, InI32 y then walk k.N n (mkShape es k.locs) ys else none

end Verif.Spec
