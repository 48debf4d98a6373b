import Verif.Model.PointTests2
import Verif.Spec.PointTests
/-!
# Specification: what Test_D2_PointData_H prints
-/
namespace Verif.PointTest

/-- output of Test_D2_PointData_H.cpp without line 39 and the constant array; `?` is the far corner of `x3`, which is never assigned -/
def d2hPieces : List (List String) :=
  [["654982513"],
   sheet [[["1", "100", "101", "102", "103", "104", "105", "106", "107", "108", "109", "2", "2", "2", "11"],
       ["300", "0", "1", "2", "3", "4", "5", "6", "7", "8", "9", "400", "400", "400", "11"],
       ["301", "1", "2", "3", "4", "5", "6", "7", "8", "9", "10", "401", "401", "401", "11"],
       ["302", "2", "3", "4", "5", "6", "7", "8", "9", "10", "11", "402", "402", "402", "11"],
       ["303", "3", "4", "5", "6", "7", "8", "9", "10", "11", "12", "403", "403", "403", "11"],
       ["304", "4", "5", "6", "7", "8", "9", "10", "11", "12", "13", "404", "404", "404", "11"],
       ["3", "200", "201", "202", "203", "204", "205", "206", "207", "208", "209", "4", "4", "4", "11"],
       ["3", "200", "201", "202", "203", "204", "205", "206", "207", "208", "209", "4", "4", "4", "11"]]],
   sheet [[["1", "100", "101", "102", "103", "104", "105", "106", "107", "108", "109", "2", "2", "2"],
       ["300", "0", "1", "2", "3", "4", "5", "6", "7", "8", "9", "400", "400", "400"],
       ["301", "1", "2", "3", "4", "5", "6", "7", "8", "9", "10", "401", "401", "401"],
       ["302", "2", "3", "4", "5", "6", "7", "8", "9", "10", "11", "402", "402", "402"],
       ["303", "3", "4", "5", "6", "7", "8", "9", "10", "11", "12", "403", "403", "403"],
       ["304", "4", "5", "6", "7", "8", "9", "10", "11", "12", "13", "404", "404", "404"],
       ["3", "200", "201", "202", "203", "204", "205", "206", "207", "208", "209", "4", "4", "4"],
       ["3", "200", "201", "202", "203", "204", "205", "206", "207", "208", "209", "4", "4", "4"],
       ["11", "11", "11", "11", "11", "11", "11", "11", "11", "11", "11", "11", "11", "11"]]],
   sheet [[["1", "100", "101", "102", "103", "104", "105", "106", "107", "108", "109", "2", "2", "2", "11"],
       ["300", "0", "1", "2", "3", "4", "5", "6", "7", "8", "9", "400", "400", "400", "11"],
       ["301", "1", "2", "3", "4", "5", "6", "7", "8", "9", "10", "401", "401", "401", "11"],
       ["302", "2", "3", "4", "5", "6", "7", "8", "9", "10", "11", "402", "402", "402", "11"],
       ["303", "3", "4", "5", "6", "7", "8", "9", "10", "11", "12", "403", "403", "403", "11"],
       ["304", "4", "5", "6", "7", "8", "9", "10", "11", "12", "13", "404", "404", "404", "11"],
       ["3", "200", "201", "202", "203", "204", "205", "206", "207", "208", "209", "4", "4", "4", "11"],
       ["3", "200", "201", "202", "203", "204", "205", "206", "207", "208", "209", "4", "4", "4", "11"],
       ["22", "22", "22", "22", "22", "22", "22", "22", "22", "22", "22", "22", "22", "22", "?"]],
      [["2", "101", "102", "103", "104", "105", "106", "107", "108", "109", "110", "3", "3", "3", "12"],
       ["301", "1", "2", "3", "4", "5", "6", "7", "8", "9", "10", "401", "401", "401", "12"],
       ["302", "2", "3", "4", "5", "6", "7", "8", "9", "10", "11", "402", "402", "402", "12"],
       ["303", "3", "4", "5", "6", "7", "8", "9", "10", "11", "12", "403", "403", "403", "12"],
       ["304", "4", "5", "6", "7", "8", "9", "10", "11", "12", "13", "404", "404", "404", "12"],
       ["305", "5", "6", "7", "8", "9", "10", "11", "12", "13", "14", "405", "405", "405", "12"],
       ["4", "201", "202", "203", "204", "205", "206", "207", "208", "209", "210", "5", "5", "5", "12"],
       ["4", "201", "202", "203", "204", "205", "206", "207", "208", "209", "210", "5", "5", "5", "12"],
       ["23", "23", "23", "23", "23", "23", "23", "23", "23", "23", "23", "23", "23", "23", "?"]]],
   ["101"],
   ["300"],
   ["min ", "-9"],
   ["max ", "405"],
   ["sum_1 ", "100"],
   ["sum_2 ", "4256"],
   sheet [[["1", "100", "101", "102", "103", "104", "105", "106", "107", "108", "109", "2", "2", "2"],
       ["300", "0", "1", "2", "3", "4", "5", "6", "7", "8", "9", "400", "400", "400"],
       ["301", "1", "2", "3", "4", "5", "6", "7", "8", "9", "10", "401", "401", "401"],
       ["302", "2", "3", "4", "5", "6", "7", "8", "9", "10", "11", "402", "402", "402"],
       ["303", "3", "4", "5", "6", "7", "8", "9", "10", "11", "12", "403", "403", "403"],
       ["304", "4", "5", "6", "7", "8", "9", "10", "11", "12", "13", "404", "404", "404"],
       ["3", "200", "201", "202", "203", "204", "205", "206", "207", "208", "209", "4", "4", "4"],
       ["3", "200", "201", "202", "203", "204", "205", "206", "207", "208", "209", "4", "4", "4"],
       ["11", "11", "11", "11", "11", "11", "11", "11", "11", "11", "11", "11", "11", "11"]]],
   sheet [[["1", "100", "101", "102", "103", "104", "105", "106", "107", "108", "109", "2", "2", "2"],
       ["300", "200", "201", "202", "203", "204", "205", "206", "207", "208", "209", "400", "400", "400"],
       ["301", "200", "201", "202", "203", "204", "205", "206", "207", "208", "209", "401", "401", "401"],
       ["302", "11", "11", "11", "11", "11", "11", "11", "11", "11", "11", "402", "402", "402"],
       ["303", "3", "4", "5", "6", "7", "8", "9", "10", "11", "12", "403", "403", "403"],
       ["304", "4", "5", "6", "7", "8", "9", "10", "11", "12", "13", "404", "404", "404"],
       ["3", "200", "201", "202", "203", "204", "205", "206", "207", "208", "209", "4", "4", "4"],
       ["3", "200", "201", "202", "203", "204", "205", "206", "207", "208", "209", "4", "4", "4"],
       ["11", "11", "11", "11", "11", "11", "11", "11", "11", "11", "11", "11", "11", "11"]]]]

def d2hOut : List String := d2hPieces.map String.join

def d2hCaught : List Err :=
  [.sizeIn 1, .notEmpty, .isEmpty, .isEmpty, .isEmpty, .rangeCenter 0 (-2) (-1) 6, .rangeCenter 0 7 (-1) 6, .rangeHalf 1 13 1 (-1) 12 13,
   .rangeCenter 0 7 (-1) 6, .flagCenter 0, .flagHalf 1, .flagCenter 1, .flagHalf 0, .flagHalf 0, .flagHalf 1, .rangeHalf 0 (-2) 0 (-1) 6 7,
   .rangeHalf 0 7 1 (-1) 6 7, .rangeHalf 1 (-2) 0 (-1) 12 13, .rangeHalf 1 13 1 (-1) 12 13, .copyOverlap]

end Verif.PointTest
