import Mathlib.Order.Lattice
import Verif.Model.Tec.Basic
/-!
# Specification of minimum and maximum
-/
namespace Verif.Tec

/-- the minimum and maximum of `v 0, ..., v (N - 1)` with respect to a key -/
structure IsMinMax {T κ : Type} [LinearOrder κ] (key : T → κ) (v : Nat → T) (N : Nat) (mm : T × T) : Prop where
  min_mem : ∃ i < N, v i = mm.1
  max_mem : ∃ i < N, v i = mm.2
  bound : ∀ i < N, key mm.1 ≤ key (v i) ∧ key (v i) ≤ key mm.2

/-- the `i`-th number of `w` bytes in a list of bytes -/
def elem (w : Nat) (l : Str) (i : Nat) : Nat := leVal ((l.drop (i * w)).take w)

/-! ## IEEE-754 values as integers

The magnitude of a binary floating point pattern with `p` fraction bits, in units of the smallest
positive number.  The pattern is exponent * 2^p + fraction. -/

def mag (p n : Nat) : Nat := if n / 2 ^ p = 0 then n % 2 ^ p else (2 ^ p + n % 2 ^ p) * 2 ^ (n / 2 ^ p - 1)

/-- value of a `w` bit pattern, in units of the smallest positive number of the format -/
def scaled (w p n : Nat) : Int := if n < 2 ^ (w - 1) then mag p n else -(mag p (n - 2 ^ (w - 1)) : Int)

/-- neither NaN nor infinite: the exponent is not all ones -/
def finite (w p n : Nat) : Prop := n % 2 ^ (w - 1) < (2 ^ (w - 1 - p) - 1) * 2 ^ p

end Verif.Tec
