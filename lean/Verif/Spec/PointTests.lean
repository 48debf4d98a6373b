import Verif.Model.PointTests
import Verif.Spec.Program
/-!
# Specification: what the test programs of the point arrays print
-/
namespace Verif.PointTest

/-- memory without limit -/
def ample : Nat → Nat → Bool := fun _ _ => true
/-- memory that refuses a million elements or more at once -/
def scarce : Nat → Nat → Bool := fun _ sz => decide (sz < 1000000)

/-- the text written and the exceptions caught by a program that ends normally -/
def shows : Res Vars Unit → Option (List String × List Err)
  | .ok _ s => some (s.out.map String.join, s.caught)
  | _ => none

/-- the same, in pieces -/
def pieces : Res Vars Unit → Option (List (List String) × List Err)
  | .ok _ s => some (s.out, s.caught)
  | _ => none

/-- lines of numbers -/
def lines (l : List (List String)) : List String := l.flatMap fun r => (r.flatMap fun v => [v, ", "]) ++ ["\n"]

/-- the pages of the components, one after the other -/
def sheet (c : List (List (List String))) : List String := c.zipIdx.flatMap fun x => ["N = ", toString x.2, "\n"] ++ lines x.1 ++ ["\n"]

/-- output of Test_D1_PointData_C.cpp without the constant array -/
def d1cPieces : List (List String) :=
  [["805306368"],
   lines [["-7"], ["-6"], ["0"], ["1"], ["2"], ["3"], ["4"], ["5"], ["6"], ["7"], ["8"], ["9"], ["16"], ["17"], ["18"]],
   lines [["-2"], ["-1"], ["0"], ["1"], ["2"], ["3"], ["4"], ["5"], ["6"], ["7"], ["8"], ["9"], ["-8"], ["-7"], ["-6"]],
   ["-1"],
   ["-1"],
   ["-1"],
   lines [["-2", "-4"], ["-1", "-2"], ["0", "0"], ["1", "2"], ["2", "4"], ["3", "6"], ["4", "8"], ["5", "10"], ["6", "12"], ["7", "14"], ["8", "16"], ["9", "18"], ["10", "20"], ["11", "22"], ["12", "24"]],
   lines [["-4", "-6"], ["-2", "-3"], ["0", "0"], ["2", "3"], ["4", "6"], ["6", "9"], ["8", "12"], ["10", "15"], ["12", "18"], ["14", "21"], ["16", "24"], ["18", "27"], ["2", "12"], ["4", "15"], ["6", "18"]],
   ["45"],
   ["27"],
   lines [["-4", "-6"], ["-2", "-3"], ["0", "0"], ["2", "3"], ["4", "6"], ["6", "9"], ["8", "12"], ["10", "15"], ["12", "18"], ["14", "21"], ["-2", "-4"], ["-1", "-2"], ["0", "0"], ["1", "2"], ["2", "4"]],
   lines [["8", "16"], ["9", "18"], ["10", "20"], ["11", "22"], ["12", "24"], ["6", "9"], ["8", "12"], ["10", "15"], ["12", "18"], ["14", "21"], ["-2", "-4"], ["-1", "-2"], ["0", "0"], ["1", "2"], ["2", "4"]],
   lines [["8", "16"], ["9", "18"], ["-2", "-4"], ["-1", "-2"], ["12", "24"], ["6", "9"], ["8", "12"], ["10", "15"], ["12", "18"], ["14", "21"], ["-2", "-4"], ["-1", "-2"], ["0", "0"], ["1", "2"], ["2", "4"]],
   lines [["8", "16"], ["9", "18"], ["-2", "-4"], ["-1", "-2"], ["12", "24"], ["6", "9"], ["8", "12"], ["10", "15"], ["12", "18"], ["10", "20"], ["11", "22"], ["12", "24"], ["0", "0"], ["1", "2"], ["2", "4"]],
   lines [["0", "0"], ["1", "2"], ["-2", "-4"], ["-1", "-2"], ["12", "24"], ["6", "9"], ["8", "12"], ["10", "15"], ["12", "18"], ["10", "20"], ["11", "22"], ["12", "24"], ["0", "0"], ["1", "2"], ["2", "4"]],
   lines [["0", "0"], ["1", "2"], ["-2", "-4"], ["-1", "-2"], ["12", "24"], ["6", "9"], ["8", "12"], ["10", "15"], ["12", "18"], ["10", "20"], ["11", "22"], ["12", "24"], ["0", "0"], ["1", "2"], ["2", "4"]],
   lines [["0", "0"], ["1", "2"], ["-2", "-4"], ["-1", "-2"], ["12", "24"], ["6", "9"], ["8", "12"], ["10", "15"], ["12", "18"], ["10", "20"], ["11", "22"], ["12", "24"], ["0", "0"], ["1", "2"], ["2", "4"]]]

def d1cOut : List String := d1cPieces.map String.join

/-- what it catches; `e` is the exception of the first `alloc` that fits no longer -/
def d1cCaught (e : Err) : List Err :=
  [.noData, .sizeIn 0, e, .notEmpty, .isEmpty, .isEmpty, .notEmpty, .rangeCenter 0 (-5) (-2) 12, .rangeCenter 0 13 (-2) 12, .nRange 1 1, .copyOverlap,
   .copyOverlap]

/-- output of Test_D1_PointData_H.cpp without the constant array -/
def d1hPieces : List (List String) :=
  [["805306368"],
   lines [["-102"], ["-101"], ["0"], ["1"], ["2"], ["3"], ["4"], ["5"], ["6"], ["7"], ["8"], ["9"], ["210"], ["211"], ["212"], ["213"]],
   ["-101"],
   ["-102"],
   ["213"],
   lines [["-203/2", "-203/2"], ["-101/2", "-101/2"], ["1/2", "1/2"], ["3/2", "3/2"], ["5/2", "5/2"], ["7/2", "7/2"], ["9/2", "9/2"], ["11/2", "11/2"], ["13/2", "13/2"], ["15/2", "15/2"], ["17/2", "17/2"], ["219/2", "219/2"], ["421/2", "421/2"], ["423/2", "423/2"], ["425/2", "425/2"], ["-5", "-5"]],
   lines [["-405/2", "-405/2"], ["-101/2", "-101/2"], ["3/2", "3/2"], ["7/2", "7/2"], ["11/2", "11/2"], ["15/2", "15/2"], ["19/2", "19/2"], ["23/2", "23/2"], ["27/2", "27/2"], ["31/2", "31/2"], ["35/2", "35/2"], ["639/2", "639/2"], ["843/2", "843/2"], ["847/2", "847/2"], ["851/2", "851/2"], ["100", "100"]],
   ["1653/2"],
   ["851/2"],
   lines [["-405/2", "-405/2"], ["-101/2", "-101/2"], ["3/2", "3/2"], ["7/2", "7/2"], ["11/2", "11/2"], ["15/2", "15/2"], ["19/2", "19/2"], ["23/2", "23/2"], ["27/2", "27/2"], ["31/2", "31/2"], ["-203/2", "-203/2"], ["-101/2", "-101/2"], ["1/2", "1/2"], ["3/2", "3/2"], ["5/2", "5/2"], ["7/2", "7/2"]],
   lines [["17/2", "17/2"], ["219/2", "219/2"], ["421/2", "421/2"], ["423/2", "423/2"], ["425/2", "425/2"], ["-5", "-5"], ["19/2", "19/2"], ["23/2", "23/2"], ["27/2", "27/2"], ["31/2", "31/2"], ["-203/2", "-203/2"], ["-101/2", "-101/2"], ["1/2", "1/2"], ["3/2", "3/2"], ["5/2", "5/2"], ["7/2", "7/2"]],
   lines [["17/2", "17/2"], ["219/2", "219/2"], ["-203/2", "-203/2"], ["-101/2", "-101/2"], ["1/2", "1/2"], ["-5", "-5"], ["19/2", "19/2"], ["23/2", "23/2"], ["27/2", "27/2"], ["31/2", "31/2"], ["-203/2", "-203/2"], ["-101/2", "-101/2"], ["1/2", "1/2"], ["3/2", "3/2"], ["5/2", "5/2"], ["7/2", "7/2"]],
   lines [["17/2", "17/2"], ["219/2", "219/2"], ["-203/2", "-203/2"], ["-101/2", "-101/2"], ["1/2", "1/2"], ["-5", "-5"], ["19/2", "19/2"], ["23/2", "23/2"], ["27/2", "27/2"], ["421/2", "421/2"], ["423/2", "423/2"], ["425/2", "425/2"], ["-5", "-5"], ["3/2", "3/2"], ["5/2", "5/2"], ["7/2", "7/2"]]]

def d1hOut : List String := d1hPieces.map String.join

def d1hCaught : List Err :=
  [.notEmpty, .notEmpty, .notEmpty, .notEmpty, .isEmpty, .isEmpty, .notEmpty, .rangeHalf 0 (-5) 1 (-2) 12 13, .rangeHalf 0 14 0 (-2) 12 13, .nRange 1 1,
   .flagHalf 0, .rangeHalf 0 (-3) 0 (-2) 12 13, .rangeHalf 0 13 1 (-2) 12 13]

/-- output of Test_D2_PointData_C.cpp without line 41 and the constant array -/
def d2cPieces : List (List String) :=
  [sheet [[]],
   ["654982513"],
   sheet [[["1", "100", "101", "102", "103", "104", "105", "106", "107", "108", "109", "2", "2", "2"],
       ["300", "0", "1", "2", "3", "4", "5", "6", "7", "8", "9", "400", "400", "400"],
       ["301", "1", "2", "3", "4", "5", "6", "7", "8", "9", "10", "401", "401", "401"],
       ["302", "2", "3", "4", "5", "6", "7", "8", "9", "10", "11", "402", "402", "402"],
       ["303", "3", "4", "5", "6", "7", "8", "9", "10", "11", "12", "403", "403", "403"],
       ["304", "4", "5", "6", "7", "8", "9", "10", "11", "12", "13", "404", "404", "404"],
       ["3", "200", "201", "202", "203", "204", "205", "206", "207", "208", "209", "4", "4", "4"],
       ["3", "200", "201", "202", "203", "204", "205", "206", "207", "208", "209", "4", "4", "4"]]],
   sheet [[["1", "-1", "-2", "-3", "-4", "-5", "-6", "-7", "-8", "-9", "-10", "2", "2", "2"],
       ["-1", "0", "1", "2", "3", "4", "5", "6", "7", "8", "9", "-8", "-7", "-6"],
       ["-2", "1", "2", "3", "4", "5", "6", "7", "8", "9", "10", "-9", "-8", "-7"],
       ["-3", "2", "3", "4", "5", "6", "7", "8", "9", "10", "11", "-10", "-9", "-8"],
       ["-4", "3", "4", "5", "6", "7", "8", "9", "10", "11", "12", "-11", "-10", "-9"],
       ["-5", "4", "5", "6", "7", "8", "9", "10", "11", "12", "13", "-12", "-11", "-10"],
       ["3", "-3", "-4", "-5", "-6", "-7", "-8", "-9", "-10", "-11", "-12", "4", "4", "4"],
       ["3", "-2", "-3", "-4", "-5", "-6", "-7", "-8", "-9", "-10", "-11", "4", "4", "4"]]],
   ["-1"],
   ["-1"],
   sheet [[["6", "4", "3", "2", "1", "0", "-1", "-2", "-3", "-4", "-5", "7", "7", "7"],
       ["4", "5", "6", "7", "8", "9", "10", "11", "12", "13", "14", "-3", "-2", "-1"],
       ["3", "6", "7", "8", "9", "10", "11", "12", "13", "14", "15", "-4", "-3", "-2"],
       ["2", "7", "8", "9", "10", "11", "12", "13", "14", "15", "16", "-5", "-4", "-3"],
       ["1", "8", "9", "10", "11", "12", "13", "14", "15", "16", "17", "-6", "-5", "-4"],
       ["0", "9", "10", "11", "12", "13", "14", "15", "16", "17", "18", "-7", "-6", "-5"],
       ["8", "2", "1", "0", "-1", "-2", "-3", "-4", "-5", "-6", "-7", "9", "9", "9"],
       ["8", "3", "2", "1", "0", "-1", "-2", "-3", "-4", "-5", "-6", "9", "9", "9"]],
      [["7", "3", "1", "-1", "-3", "-5", "-7", "-9", "-11", "-13", "-15", "9", "9", "9"],
       ["3", "5", "7", "9", "11", "13", "15", "17", "19", "21", "23", "-11", "-9", "-7"],
       ["1", "7", "9", "11", "13", "15", "17", "19", "21", "23", "25", "-13", "-11", "-9"],
       ["-1", "9", "11", "13", "15", "17", "19", "21", "23", "25", "27", "-15", "-13", "-11"],
       ["-3", "11", "13", "15", "17", "19", "21", "23", "25", "27", "29", "-17", "-15", "-13"],
       ["-5", "13", "15", "17", "19", "21", "23", "25", "27", "29", "31", "-19", "-17", "-15"],
       ["11", "-1", "-3", "-5", "-7", "-9", "-11", "-13", "-15", "-17", "-19", "13", "13", "13"],
       ["11", "1", "-1", "-3", "-5", "-7", "-9", "-11", "-13", "-15", "-17", "13", "13", "13"]]],
   sheet [[["1", "1", "1", "1", "1", "1", "1", "1", "1", "1", "1", "1", "1", "1"],
       ["3", "0", "1", "2", "3", "4", "5", "6", "7", "8", "9", "-8", "-7", "4"],
       ["3", "1", "2", "3", "4", "5", "6", "7", "8", "9", "10", "-9", "-8", "4"],
       ["3", "2", "3", "4", "5", "6", "7", "8", "9", "10", "11", "-10", "-9", "4"],
       ["3", "3", "4", "5", "6", "7", "8", "9", "10", "11", "12", "-11", "-10", "4"],
       ["3", "4", "5", "6", "7", "8", "9", "10", "11", "12", "13", "-12", "-11", "4"],
       ["3", "-3", "-4", "-5", "-6", "-7", "-8", "-9", "-10", "-11", "-12", "4", "4", "4"],
       ["2", "2", "2", "2", "2", "2", "2", "2", "2", "2", "2", "2", "2", "2"]]],
   sheet [[["9", "10", "11", "12", "13", "14", "15", "16", "17", "18", "19", "20", "21", "22"],
       ["30", "5", "6", "7", "8", "9", "10", "11", "12", "13", "14", "-3", "-2", "40"],
       ["31", "6", "7", "8", "9", "10", "11", "12", "13", "14", "15", "-4", "-3", "41"],
       ["32", "7", "8", "9", "10", "11", "12", "13", "14", "15", "16", "-5", "-4", "42"],
       ["33", "8", "9", "10", "11", "12", "13", "14", "15", "16", "17", "-6", "-5", "43"],
       ["34", "9", "10", "11", "12", "13", "14", "15", "16", "17", "18", "-7", "-6", "44"],
       ["8", "2", "1", "0", "-1", "-2", "-3", "-4", "-5", "-6", "-7", "9", "9", "9"],
       ["19", "20", "21", "22", "23", "24", "25", "26", "27", "28", "29", "30", "31", "32"]],
      [["10", "11", "12", "13", "14", "15", "16", "17", "18", "19", "20", "21", "22", "23"],
       ["31", "5", "7", "9", "11", "13", "15", "17", "19", "21", "23", "-11", "-9", "41"],
       ["32", "7", "9", "11", "13", "15", "17", "19", "21", "23", "25", "-13", "-11", "42"],
       ["33", "9", "11", "13", "15", "17", "19", "21", "23", "25", "27", "-15", "-13", "43"],
       ["34", "11", "13", "15", "17", "19", "21", "23", "25", "27", "29", "-17", "-15", "44"],
       ["35", "13", "15", "17", "19", "21", "23", "25", "27", "29", "31", "-19", "-17", "45"],
       ["11", "-1", "-3", "-5", "-7", "-9", "-11", "-13", "-15", "-17", "-19", "13", "13", "13"],
       ["20", "21", "22", "23", "24", "25", "26", "27", "28", "29", "30", "31", "32", "33"]]],
   ["min ", "-10"],
   ["max ", "31"],
   ["sum_1 ", "55"],
   ["sum_2 ", "535"],
   sheet [[["9", "10", "11", "12", "13", "14", "15", "16", "17", "18", "19", "20", "21", "22"],
       ["30", "5", "6", "7", "8", "9", "10", "11", "12", "13", "14", "-3", "-2", "40"],
       ["31", "6", "7", "8", "9", "10", "11", "12", "13", "14", "15", "-4", "-3", "41"],
       ["32", "7", "8", "9", "10", "11", "12", "13", "14", "15", "16", "-5", "-4", "42"],
       ["33", "8", "9", "10", "11", "12", "13", "14", "15", "16", "17", "-6", "-5", "43"],
       ["34", "9", "10", "11", "12", "13", "14", "15", "16", "17", "18", "-7", "-6", "44"],
       ["8", "2", "1", "0", "-1", "-2", "-3", "-4", "-5", "-6", "-7", "9", "9", "9"],
       ["19", "20", "21", "22", "23", "24", "25", "26", "27", "28", "29", "30", "31", "32"]],
      [["10", "11", "12", "13", "14", "15", "16", "17", "18", "19", "20", "21", "22", "23"],
       ["31", "5", "7", "9", "11", "13", "15", "17", "19", "21", "23", "-11", "-9", "41"],
       ["32", "7", "9", "11", "13", "15", "17", "19", "21", "23", "25", "-13", "-11", "42"],
       ["33", "9", "11", "13", "15", "17", "19", "21", "23", "25", "27", "-15", "-13", "43"],
       ["34", "11", "13", "15", "17", "19", "21", "23", "25", "27", "29", "-17", "-15", "44"],
       ["35", "13", "15", "17", "19", "21", "23", "25", "27", "29", "31", "-19", "-17", "45"],
       ["11", "-1", "-3", "-5", "-7", "-9", "-11", "-13", "-15", "-17", "-19", "13", "13", "13"],
       ["20", "21", "22", "23", "24", "25", "26", "27", "28", "29", "30", "31", "32", "33"]]],
   sheet [[["9", "10", "11", "12", "13", "14", "15", "16", "17", "18", "19", "20", "21", "22"],
       ["30", "5", "6", "7", "8", "9", "10", "11", "12", "13", "14", "-3", "-2", "40"],
       ["31", "6", "7", "8", "9", "10", "11", "12", "13", "14", "15", "-4", "-3", "41"],
       ["32", "7", "8", "9", "10", "11", "12", "13", "14", "15", "16", "-5", "-4", "42"],
       ["33", "8", "9", "10", "11", "12", "13", "14", "15", "16", "17", "-6", "-5", "43"],
       ["34", "9", "10", "11", "12", "13", "14", "15", "16", "17", "18", "-7", "-6", "44"],
       ["8", "2", "1", "0", "-1", "-2", "-3", "-4", "-5", "-6", "-7", "9", "9", "9"],
       ["19", "20", "21", "22", "23", "24", "25", "26", "27", "28", "29", "30", "31", "32"]],
      [["10", "11", "12", "13", "14", "15", "16", "17", "18", "19", "20", "21", "22", "23"],
       ["31", "5", "7", "9", "11", "13", "15", "17", "19", "21", "23", "-11", "-9", "41"],
       ["32", "7", "9", "11", "13", "15", "17", "19", "21", "23", "25", "-13", "-11", "42"],
       ["33", "9", "11", "13", "15", "17", "19", "21", "23", "25", "27", "-15", "-13", "43"],
       ["34", "11", "13", "15", "17", "19", "21", "23", "25", "27", "29", "-17", "-15", "44"],
       ["35", "13", "15", "17", "19", "21", "23", "25", "27", "29", "31", "-19", "-17", "45"],
       ["11", "-1", "-3", "-5", "-7", "-9", "-11", "-13", "-15", "-17", "-19", "13", "13", "13"],
       ["20", "21", "22", "23", "24", "25", "26", "27", "28", "29", "30", "31", "32", "33"]]]]

def d2cOut : List String := d2cPieces.map String.join

def d2cCaught : List Err :=
  [.noData, .sizeIn 1, .notEmpty, .isEmpty, .isEmpty, .notEmpty, .rangeCenter 0 (-2) (-1) 6, .rangeCenter 0 7 (-1) 6, .rangeCenter 1 (-2) (-1) 12,
   .rangeCenter 1 13 (-1) 12, .rangeCenter 0 7 (-1) 6, .flagCenter 0, .flagCenter 1, .copyOverlap]

end Verif.PointTest
