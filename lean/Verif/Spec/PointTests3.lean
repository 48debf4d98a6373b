import Verif.Model.PointTests3
import Verif.Spec.Program
/-!
# Specification: what Test_D3_PointData_C and Test_D3_PointData_H print
-/
namespace Verif.PointTest3

/-- memory without limit -/
def ample : Nat → Nat → Bool := fun _ _ => true

/-- the text written and the exceptions caught by a program that ends normally -/
def shows : Res Vars Unit → Option (List String × List Err)
  | .ok _ s => some (s.out.map String.join, s.caught)
  | _ => none

/-- the same, in pieces -/
def pieces : Res Vars Unit → Option (List (List String) × List Err)
  | .ok _ s => some (s.out, s.caught)
  | _ => none

/-- the stored indices with their text -/
def I3 : List (Int × String) := [(-1, "-1"), (0, "0"), (1, "1"), (2, "2")]
def J3 : List Int := [-1, 0, 1, 2, 3, 4, 5, 6]
def K3 : List Int := [-1, 0, 1, 2, 3, 4, 5, 6, 7, 8, 9]

/-- a component of 4 × 8 × 11 numbers -/
def sheet (txt : Option Num → String) (n : String) (f : Int → Int → Int → Num) : List String :=
  ["N = ", n, "\n"] ++
  (I3.flatMap fun i => ["i = ", i.2, "\n"] ++ J3.flatMap fun j => (K3.flatMap fun k => [txt (some (f i.1 j k)), ", "]) ++ ["\n"]) ++ ["\n"]

/-- an index below, in or above the interior of `m` points -/
def zone (m i : Int) : Int := if i < 0 then 1 else if i < m then 2 else 3

/-- the first values of `x1`: the indices as digits in the interior, the zones as digits outside -/
def a0 (i j k : Int) : Int :=
  if zone 2 i = 2 ∧ zone 5 j = 2 ∧ zone 7 k = 2 then i * 100 + j * 10 + k else zone 2 i * 100 + zone 5 j * 10 + zone 7 k

/-- the mirror image at the end of the interior -/
def image (m i : Int) : Int := if i < 0 then -i else if i < m then i else 2 * (m - 1) - i

/-- next to a face of the interior, and not at an edge or a corner -/
def atFace (i j k : Int) : Prop :=
  (zone 2 i ≠ 2 ∧ zone 5 j = 2 ∧ zone 7 k = 2) ∨ (zone 2 i = 2 ∧ zone 5 j ≠ 2 ∧ zone 7 k = 2) ∨ (zone 2 i = 2 ∧ zone 5 j = 2 ∧ zone 7 k ≠ 2)

instance (i j k : Int) : Decidable (atFace i j k) := inferInstanceAs (Decidable (_ ∨ _))

/-- `-z` of an integer `z` in floating point -/
def minus (z : Int) : Num := if z = 0 then .negZero else .int (-z)

/-- then the images with the opposite sign next to the faces -/
def a1 (i j k : Int) : Num := if atFace i j k then minus (a0 (image 2 i) (image 5 j) (image 7 k)) else .int (a0 i j k)
/-- then the plane `i = 0` is the plane `i = 1` -/
def a2 (i j k : Int) : Num := if i = 0 then a1 1 j k else a1 i j k
/-- then in the plane `i = 0` the line `k = 0` is the line `k = 1` -/
def a3 (i j k : Int) : Num := if i = 0 ∧ k = 0 then a1 1 j 1 else a2 i j k

/-- the values of component `n` of `x2` -/
def b0 (n i j k : Int) : Num := .int (n * 1000 + i * 100 + j * 10 + k)
def b1 (n i j k : Int) : Num := if i = 0 then b0 n 1 j k else b0 n i j k
def b2 (n i j k : Int) : Num := if i = 0 ∧ k = 0 then b0 n 1 j 1 else b1 n i j k
/-- the copy of the two rows above the interior to the first two of it -/
def b3 (n i j k : Int) : Num := if zone 2 i = 2 ∧ (j = 0 ∨ j = 1) ∧ zone 7 k = 2 then b2 n i (j + 5) k else b2 n i j k

def both (txt : Option Num → String) (f : Int → Int → Int → Int → Num) : List String := sheet txt "0" (f 0) ++ sheet txt "1" (f 1)

def num (txt : Option Num → String) (z : Int) : String := txt (some (.int z))

/-- output of Test_D3_PointData_C.cpp without the constant array -/
def d3cPieces (txt : Option Num → String) : List (List String) :=
  [["N = ", "0", "\n", "\n"],
   sheet txt "0" fun i j k => .int (a0 i j k),
   sheet txt "0" a1,
   [num txt (-10)], [num txt (-10)], [num txt (-10)], [num txt (-10)],
   both txt b0,
   ["max = ", num txt 146], ["max_abs = ", num txt 1146],
   sheet txt "0" a2,
   ["min = ", num txt (-145)],
   both txt b1,
   ["min_abs = ", num txt 89],
   sheet txt "0" a3,
   ["max = ", num txt 141],
   both txt b2,
   ["max = ", num txt 1161],
   both txt b2,
   both txt b3]

def d3cCaught : List Err :=
  [.noData, .sizeIn 2, .notEmpty, .isEmpty, .isEmpty, .notEmpty, .rangeCenter 1 (-2) (-1) 6, .rangeCenter 1 7 (-1) 6, .rangeCenter 2 (-2) (-1) 9,
   .rangeCenter 2 13 (-1) 9, .rangeCenter 0 3 (-1) 2, .nRange 1 1]

/-! ## Test_D3_PointData_H.cpp -/

/-- the stored indices of the array `x`, one more in a dimension at half points -/
def I4 (x : Nat) : List (Int × String) := if x / 4 % 2 = 1 then I3 ++ [(3, "3")] else I3
def J4 (x : Nat) : List Int := if x / 2 % 2 = 1 then J3 ++ [7] else J3
def K4 (x : Nat) : List Int := if x % 2 = 1 then [-1, 0, 1, 2, 3, 4, 5, 6] else [-1, 0, 1, 2, 3, 4, 5]

/-- a component of the array `x` -/
def sheet4 (txt : Option Num → String) (x : Nat) (n : String) (f : Int → Int → Int → Num) : List String :=
  ["N = ", n, "\n"] ++
  ((I4 x).flatMap fun i => ["i = ", i.2, "\n"] ++ (J4 x).flatMap fun j => ((K4 x).flatMap fun k => [txt (some (f i.1 j k)), ", "]) ++ ["\n"]) ++ ["\n"]

def both4 (txt : Option Num → String) (x : Nat) (f : Int → Int → Int → Int → Num) : List String := sheet4 txt x "0" (f 0) ++ sheet4 txt x "1" (f 1)

/-- the values of the array `x`: the indices as digits, and marks at the last half points -/
def c0 (x : Nat) (n i j k : Int) : Num :=
  match x with
  | 1 => if k = 6 then .int 0 else b0 n i j k
  | 2 => if j = 7 then .int 0 else b0 n i j k
  | 3 => if j = 7 ∧ k = 6 then .int 3 else if j = 7 then .int 1 else if k = 6 then .int 2 else b0 n i j k
  | 4 => if i = 3 then .int 0 else b0 n i j k
  | 5 => if i = 3 ∧ k = 6 then .int 3 else if i = 3 then .int 1 else if k = 6 then .int 2 else b0 n i j k
  | 6 => if i = 3 ∧ j = 7 then .int 3 else if i = 3 then .int 2 else if j = 7 then .int 1 else b0 n i j k
  | 7 => if i = 3 ∧ j = 7 ∧ k = 6 then .int 4 else if k = 6 then .int 3 else if j = 7 then .int 2 else if i = 3 then .int 1 else b0 n i j k
  | _ => b0 n i j k

/-- the copy of the three rows of half points above the interior of `x2` to the first three of it -/
def c1 (n i j k : Int) : Num := if zone 2 i = 2 ∧ (j = 0 ∨ j = 1 ∨ j = 2) ∧ zone 4 k = 2 then c0 2 n i (j + 5) k else c0 2 n i j k

/-- output of Test_D3_PointData_H.cpp without the constant array -/
def d3hPieces (txt : Option Num → String) : List (List String) :=
  [["x0:"], both4 txt 0 (c0 0), ["x1:"], both4 txt 1 (c0 1), ["x2:"], both4 txt 2 (c0 2), ["x3:"], both4 txt 3 (c0 3),
   ["x4:"], both4 txt 4 (c0 4), ["x5:"], both4 txt 5 (c0 5), ["x6:"], both4 txt 6 (c0 6), ["x7:"], both4 txt 7 (c0 7),
   [num txt 111], [num txt (-89)], [num txt 91], [num txt 109],
   [num txt (-100)], [num txt 1], [num txt (-10)], [num txt 2], [num txt (-1)], [num txt 3],
   both4 txt 2 (c0 2), both4 txt 2 c1]

def d3hCaught : List Err :=
  [.sizeIn 2, .notEmpty, .isEmpty, .isEmpty,
   .rangeHalf 0 3 1 (-1) 2 3, .rangeHalf 1 7 1 (-1) 6 7, .rangeHalf 2 6 1 (-1) 5 6, .nRange 2 2, .flagHalf 0, .flagHalf 1, .flagHalf 2,
   .rangeHalf 0 (-2) 0 (-1) 2 3, .rangeHalf 0 3 1 (-1) 2 3, .rangeHalf 1 (-2) 0 (-1) 6 7, .rangeHalf 1 7 1 (-1) 6 7, .rangeHalf 2 (-2) 0 (-1) 5 6,
   .rangeHalf 2 6 1 (-1) 5 6, .copyOverlap]

end Verif.PointTest3
