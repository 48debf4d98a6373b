import Verif.Base
/-!
# Exception texts

`Err.what` is the string given to `std::runtime_error` at each `throw` site.
-/
namespace Verif

/-- `ijk_str[d]` — PointData_1D.hpp:91 (array of three strings) -/
def ijkStr : Nat → String
  | 0 => "i"
  | 1 => "j"
  | _ => "k"

/-- `flag_str[offset]` — PointData_1D.hpp:99 -/
def flagStr (o : Int) : String := if o = 0 then "N" else "P"

/-- the texts — PointData_1D.hpp:29, 77, 95, 100-101, 224, 310, 322, 326, 336, 347, 383,
404, 427, 485 and PointData_0D.hpp:24, 67 -/
def Err.what : Err → String
  | .badAlloc => "std::bad_alloc"
  | .dim d D =>
    (if D = 0 then "out of DIM range: " else "DIM is out of range: ")
      ++ toString d ++ " range:[0," ++ toString ((D : Int) - 1) ++ "]"
  | .overlapNotFound => "overlap not found"
  | .rangeCenter d ii b l =>
    ijkStr d ++ " is out of range: " ++ toString ii ++ " range:[" ++ toString b ++ ","
      ++ toString l ++ "]"
  | .rangeHalf d ii o b l e =>
    ijkStr d ++ " is out of range: " ++ toString ii ++ "(" ++ flagStr o ++ ")"
      ++ " range:[" ++ toString (b - 1) ++ "(P)," ++ toString b ++ "," ++ toString l ++ ","
      ++ toString e ++ "(N)]"
  | .nRange n N =>
    "N is out of range: " ++ toString n ++ " range:[0," ++ toString (toI32 N - 1) ++ "]"
  | .nRange0 n N =>
    "out of N range: " ++ toString n ++ " range:[0," ++ toString (toI32 N - 1) ++ "]"
  | .flagCenter d => "dim[" ++ toString d ++ "]: flag must be [C] when location is [center]"
  | .flagHalf d => "dim[" ++ toString d ++ "]: flag must be [N] or [P] when location is [half]"
  | .noData => "data do not exist"
  | .nZero => "N is not allowed to be zero"
  | .sizeIn d =>
    "dim[" ++ toString d ++ "]: size_in can not be zero when size_n or size_p is non-zero"
  | .notEmpty => "allocating memory do not allowed when data is not empty"
  | .isEmpty => "clearing data do not allowed when data is empty"
  | .noMemory => "no more memory for allocating"
  | .copyOverlap => "copy and write zone overlap"
  | .runtime m => m
  | .text m => String.ofList (m.map fun b => Char.ofNat b.toNat)
  | .user m => m

end Verif
