import Verif.Base
/-!
# Specification of zone selections

A zone of a Tecplot file selects, in each of three dimensions, the indices
`b, b + k, b + 2k, ...` below `e`.  The first dimension varies fastest.
-/
namespace Verif.Spec

/-- the integers from `b` up to and without `e` -/
def upto (b e : Int) : List Int := (List.range (e - b).toNat).map fun t : Nat => b + t

/-- the selected indices of one dimension -/
def picks (b e k : Int) : List Int := (upto b e).filter fun s => (s - b) % k = 0

/-- the settings of one dimension: number of points, stride, points left out at the head
and at the tail -/
structure DimSel where
  max : Int
  skip : Int
  head : Int
  tail : Int
  deriving DecidableEq, Repr

def DimSel.picks (d : DimSel) : List Int := Spec.picks d.head (d.max - d.tail) d.skip

/-- numbers a program can set: `int` values, positive stride, nothing negative left out -/
structure DimSel.Sane (d : DimSel) : Prop where
  max : InI32 d.max
  skip : InI32 d.skip
  pos : 0 < d.skip
  head : 0 ≤ d.head
  tail : 0 ≤ d.tail
  sum : InI32 (d.head + d.tail)

/-- the selection is accepted -/
def DimSel.Accepted (d : DimSel) : Prop := d.head + d.tail < d.max

/-- number of selected indices -/
def DimSel.count (d : DimSel) : Int := d.picks.length

/-- how many of three numbers differ from 1 -/
def nonUnit (f : Nat → Int) : Int := (([0, 1, 2].filter fun i => f i ≠ 1).length : Nat)

/-- the selected index triples in the order of the file -/
def selection (x y z : DimSel) : List (Int × Int × Int) :=
  z.picks.flatMap fun k => y.picks.flatMap fun j => x.picks.map fun i => (i, j, k)

/-- position of an index triple in the user's array (first index fastest) -/
def place (x y : DimSel) (p : Int × Int × Int) : Int := p.1 + x.max * (p.2.1 + y.max * p.2.2)

/-- the `n`-th item of `size` bytes -/
def item {α : Type} (size : Nat) (l : List α) (n : Int) : List α := (l.drop (size * n.toNat)).take size

/-- the bytes of the selected points of a variable stored as `data` -/
def selectedBytes {α : Type} (x y z : DimSel) (size : Nat) (data : List α) : List α :=
  (selection x y z).flatMap fun p => item size data (place x y p)

/-- bytes of a whole variable with elements of `size` bytes -/
def wholeBytes (x y z : DimSel) (size : Nat) : Nat := (x.max * y.max * z.max).toNat * size

end Verif.Spec
