import Verif.Spec.Index
/-!
# Specification vocabulary: arrays

What a user means by an array of some shape, by its elements and by a legal access —
without pointers, tables or machine integers.
-/
namespace Verif.Spec

/-- one dimension of an array: its extent and its location -/
structure Dim where
  ext : Ext
  loc : Loc
  deriving DecidableEq, Repr

/-- number of points stored in the dimension; a half-located dimension has one more -/
def Dim.width (d : Dim) : Nat := d.ext.n + d.ext.i + d.ext.p + d.loc.toNat

/-- `x` is a stored point of the dimension -/
def Dim.Has (d : Dim) (x : Int) : Prop := -(d.ext.n : Int) ≤ x ∧ x < d.ext.i + d.ext.p + d.loc.toNat

instance (d : Dim) (x : Int) : Decidable (d.Has x) := inferInstanceAs (Decidable (_ ∧ _))

/-- the shape of one component: its dimensions, first index first -/
abbrev Shape := List Dim

/-- number of points of one component -/
def points : Shape → Nat
  | [] => 1
  | d :: sh => d.width * points sh

/-- `xs` is (the index tuple of) a stored point -/
def HasPt : Shape → List Int → Prop
  | [], [] => True
  | d :: sh, x :: xs => d.Has x ∧ HasPt sh xs
  | _, _ => False

/-- row-major position of a point inside its component, last index fastest -/
def offset : Shape → List Int → Nat
  | d :: sh, x :: xs => (x + d.ext.n).toNat * points sh + offset sh xs
  | _, _ => 0

/-- The shape is inside machine range: the points of every dimension fit `int`, all
elements together fit `unsigned`. -/
def ShapeFits (N : Nat) (sh : Shape) : Prop :=
  (∀ d ∈ sh, d.ext.n + d.ext.i + d.ext.p + 1 < 2147483648) ∧ N * points sh < 4294967296

/-- the dimensions with the given extents and locations -/
def mkShape : List Ext → List Loc → Shape
  | e :: es, l :: ls => ⟨e, l⟩ :: mkShape es ls
  | _, _ => []

/-- a flag fits a location: center takes `C`, half takes `N` or `P` -/
def flagFits : Loc → FL → Bool
  | .center, .C => true
  | .half, .N => true
  | .half, .P => true
  | _, _ => false

/-- the error of a flag that does not fit in dimension `d` -/
def flagErr (d : Nat) : Loc → Err
  | .center => .flagCenter d
  | .half => .flagHalf d

/-- the error of an index outside the stored points of dimension `d` -/
def rangeErr (d : Nat) (x : Int) (off : Int) (m : Dim) : Err :=
  match m.loc with
  | .center => .rangeCenter d x (-(m.ext.n : Int)) ((m.ext.i : Int) + m.ext.p - 1)
  | .half => .rangeHalf d x off (-(m.ext.n : Int)) ((m.ext.i : Int) + m.ext.p - 1) ((m.ext.i : Int) + m.ext.p)

/-- first dimension whose flag does not fit -/
def flagErrs (d : Nat) : Shape → List FL → Option Err
  | m :: sh, f :: fs => if flagFits m.loc f then flagErrs (d + 1) sh fs else some (flagErr d m.loc)
  | _, _ => none

/-- the stored point addressed by index and flag: the P-face is the next point -/
def point : List Int → List FL → List Int
  | x :: xs, f :: fs => (x + f.offset) :: point xs fs
  | _, _ => []

/-- first dimension whose addressed point is not stored -/
def rangeErrs (d : Nat) : Shape → List Int → List FL → Option Err
  | m :: sh, x :: xs, f :: fs =>
    if m.Has (x + f.offset) then rangeErrs (d + 1) sh xs fs else some (rangeErr d x f.offset m)
  | _, _, _ => none

/-- Why access to component `n`, indices `xs`, flags `fs` of an allocated array is
illegal: the component number, then the flags, then the indices, first dimension first. -/
def accessErr (N : Nat) (sh : Shape) (n : Nat) (xs : List Int) (fs : List FL) : Option Err :=
  if N ≤ n then some (.nRange n N)
  else match flagErrs 0 sh fs with
    | some e => some e
    | none => rangeErrs 0 sh xs fs

/-- the first dimension with virtual points but no interior -/
def sizeErrs (d : Nat) : List Ext → Option Err
  | e :: es => if e.i = 0 ∧ e.n + e.p ≠ 0 then some (.sizeIn d) else sizeErrs (d + 1) es
  | [] => none

end Verif.Spec
