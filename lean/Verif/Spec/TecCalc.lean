import Verif.Spec.Tec
/-!
# Specification vocabulary: the numbers `make_buf` has to compute
-/
namespace Verif.Tec
open Spec

/-- the zone is copied row by row: no dimension has a stride -/
def ByRows (x y z : DimSel) : Prop := x.skip = 1 ∧ y.skip = 1 ∧ z.skip = 1

/-- the zone is written as it is: no stride, nothing left out at the ends -/
def AllTaken (x y z : DimSel) : Prop :=
  ByRows x y z ∧ (x.head = 0 ∧ x.tail = 0) ∧ (y.head = 0 ∧ y.tail = 0) ∧ (z.head = 0 ∧ z.tail = 0)

/-- All numbers of type `int` needed to copy the selected points fit.  `firsts` are the first indices whose place in the
array is computed: all selected ones, or only the first one when whole rows are copied. -/
structure PlacesFit (x y z : DimSel) (firsts : List Int) : Prop where
  /-- the number of selected points -/
  points : x.count * y.count * z.count ≤ 2147483647
  /-- before the division by the stride, the place of a row … -/
  rows : ∀ j ∈ y.picks, x.count * (j - y.head) ≤ 2147483647
  /-- … and of a plane in the buffer -/
  planes : ∀ k ∈ z.picks, x.count * y.count * (k - z.head) ≤ 2147483647
  /-- the number of points of a plane of the array -/
  plane : x.max * y.max ≤ 2147483647
  /-- the places in the array -/
  places : ∀ i ∈ firsts, ∀ j ∈ y.picks, ∀ k ∈ z.picks, i + x.max * j + x.max * y.max * k ≤ 2147483647

/-- the loop variable of a dimension does not leave `int` after the last selected index -/
def StepFits (d : DimSel) : Prop := ∀ s ∈ d.picks, s + d.skip ≤ 2147483647

/-- the selected points can be copied -/
def Copyable (x y z : DimSel) : Prop :=
  StepFits y ∧ StepFits z ∧
    ((ByRows x y z ∧ PlacesFit x y z [x.head]) ∨ (¬ByRows x y z ∧ StepFits x ∧ PlacesFit x y z x.picks))

end Verif.Tec
