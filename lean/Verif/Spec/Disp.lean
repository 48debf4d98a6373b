import Verif.Spec.Array
/-!
# Specification vocabulary: the text printed by `disp_data`
-/
namespace Verif.Spec

/-- a printed item: an element (component and point) or fixed text -/
inductive Item
  | el (n : Nat) (ys : List Int)
  | txt (s : String)
  deriving DecidableEq, Repr

/-- the text of an item; `val` are the values of the array, `fmt` prints a value -/
def Item.text {V : Type} (val : Nat → List Int → Option V) (fmt : Option V → String) : Item → String
  | .el n ys => fmt (val n ys)
  | .txt s => s

/-- the stored indices of a dimension, in increasing order -/
def cells (d : Dim) : List Int := (List.range d.width).map fun (t : Nat) => (t : Int) - d.ext.n

/-- The page of an array with `N` components.  1D: a line per point, all components in
it.  2D: a heading per component, a line per first index, an empty line after each
component.  3D: a heading per component and one per first index, a line per second index,
an empty line after each component. -/
def page (N : Nat) : Shape → List Item
  | [d0] => (cells d0).flatMap fun i =>
      ((List.range N).flatMap fun n => [Item.el n [i], .txt ", "]) ++ [Item.txt "\n"]
  | [d0, d1] => (List.range N).flatMap fun n => [Item.txt "N = ", .txt (toString n), .txt "\n"] ++
      ((cells d0).flatMap fun i => ((cells d1).flatMap fun j => [Item.el n [i, j], .txt ", "]) ++ [Item.txt "\n"]) ++ [Item.txt "\n"]
  | [d0, d1, d2] => (List.range N).flatMap fun n => [Item.txt "N = ", .txt (toString n), .txt "\n"] ++
      ((cells d0).flatMap fun i => [Item.txt "i = ", .txt (toString i), .txt "\n"] ++
        ((cells d1).flatMap fun j => ((cells d2).flatMap fun k => [Item.el n [i, j, k], .txt ", "]) ++ [Item.txt "\n"])) ++ [Item.txt "\n"]
  | _ => []

/-- the elements on a page, in the order of printing -/
def elements (l : List Item) : List (Nat × List Int) :=
  l.filterMap fun
    | .el n ys => some (n, ys)
    | .txt _ => none

end Verif.Spec
