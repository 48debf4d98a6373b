import Verif.Spec.Machine
/-!
# What becomes of a request for sizes that are no sizes

The size arguments of `alloc` and `realloc` are `unsigned`, the sizes are kept as `int`.
-/
namespace Verif.Spec

/-- the `int` with the bits of an `unsigned` number -/
def asInt (u : Nat) : Int := if u < 2147483648 then u else (u : Int) - 4294967296

/-- what becomes of a request -/
inductive SizeVerdict
  /-- it is refused because dimension `d` has no interior but virtual points -/
  | refused (d : Nat)
  /-- it is not refused -/
  | passed
  /-- the numbers of virtual points cannot be added -/
  | undefined
  deriving DecidableEq, Repr

/-- the dimensions are looked at one after the other; only those without interior matter -/
def sizeVerdict (d : Nat) : List Ext → SizeVerdict
  | [] => .passed
  | e :: es =>
    if e.i ≠ 0 then sizeVerdict (d + 1) es
    else if asInt e.n + asInt e.p < -2147483648 ∨ 2147483647 < asInt e.n + asInt e.p then .undefined
    else if asInt e.n + asInt e.p ≠ 0 then .refused d
    else sizeVerdict (d + 1) es

/-- the arguments are `unsigned` numbers -/
def Unsigned (es : List Ext) : Prop := ∀ e ∈ es, e.n < 4294967296 ∧ e.i < 4294967296 ∧ e.p < 4294967296

instance (es : List Ext) : Decidable (Unsigned es) := inferInstanceAs (Decidable (∀ e ∈ es, _))

end Verif.Spec
