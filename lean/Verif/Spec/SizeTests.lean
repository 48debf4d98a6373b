import Verif.Base
import Verif.Model.Tec.Basic
/-!
# Specification: the two files written by the test programs of sizes and ranges
-/
namespace Verif.Spec
open Tec

/-- what a statement does: a text to `out`; a text to `out` without an exception; an exception with its message -/
inductive Said
  | text (t : String)
  | fine (t : String)
  | caught (t : String)
  deriving DecidableEq

/-- the mark in front of the lines of `exec_except`: time and random number, the latter with at least ten digits -/
def mark (now : Str) (r : Nat) : Str := lit "[" ++ now ++ lit "|" ++ (List.replicate (10 - (decNat r).length) 48 ++ decNat r) ++ lit "]: "

/-- what goes to `out` -/
def outFile (now : Nat → Str) (r : Nat → Nat) : Nat → List Said → Str
  | _, [] => []
  | k, .text t :: l => lit t ++ outFile now r k l
  | k, .fine t :: l => lit t ++ mark (now k) (r k) ++ lit "no exception\n" ++ outFile now r (k + 1) l
  | k, .caught _ :: l => mark (now k) (r k) ++ lit "with exception\n" ++ outFile now r (k + 1) l

/-- what goes to `err` -/
def errFile (now : Nat → Str) (r : Nat → Nat) : Nat → List Said → Str
  | _, [] => []
  | k, .text _ :: l => errFile now r k l
  | k, .fine _ :: l => errFile now r (k + 1) l
  | k, .caught t :: l => mark (now k) (r k) ++ lit t ++ lit "\n" ++ errFile now r (k + 1) l

/-- Test_D1_SizeT.cpp, checked build -/
def d1sizeSaid : List Said :=
  [.text "size[0] = [0 0 0]\n", .text "size[0] = [2 10 3]\n", .text "\n", .fine "0\n", .fine "0\n", .fine "0\n", .fine "10\n", .fine "2\n", .fine "3\n",
   .caught "DIM is out of range: 1 range:[0,0]", .text "\n", .fine "-2 13 15\n", .fine "0 10 10\n", .fine "-2 0 2\n", .fine "10 13 3\n",
   .caught "DIM is out of range: 1 range:[0,0]", .fine "0\n", .fine "9\n", .text "\n", .text "range[0] = [-2 , 12]  size[0] = 15\n",
   .text "range[0] = [0 , 9]  size[0] = 10\n", .text "range[0] = [-2 , -1]  size[0] = 2\n", .text "range[0] = [10 , 12]  size[0] = 3\n", .text "\n",
   .text "size[0] = [2 10 3]\n", .text "size[0] = [1 5 1]\n", .text "\n", .fine "", .fine "",
   .caught "dim[0]: size_in can not be zero when size_n or size_p is non-zero", .text "\n", .text "size[0] = [2 10 3]\n", .text "2\n", .text "7\n",
   .text "7\n", .text "2\n"]

/-- Test_D1_SizeT.cpp, unchecked build -/
def d1sizeUncheckedSaid : List Said :=
  [.text "size[0] = [0 0 0]\n", .text "size[0] = [2 10 3]\n", .text "\n", .fine "0\n", .fine "0\n", .fine "0\n", .fine "10\n", .fine "2\n", .fine "3\n",
   .fine "10\n", .text "\n", .fine "-2 13 15\n", .fine "0 10 10\n", .fine "-2 0 2\n", .fine "10 13 3\n", .fine "10 13 3\n", .fine "0\n", .fine "9\n",
   .text "\n", .text "range[0] = [-2 , 12]  size[0] = 15\n", .text "range[0] = [0 , 9]  size[0] = 10\n", .text "range[0] = [-2 , -1]  size[0] = 2\n",
   .text "range[0] = [10 , 12]  size[0] = 3\n", .text "\n", .text "size[0] = [2 10 3]\n", .text "size[0] = [1 5 1]\n", .text "\n", .fine "", .fine "",
   .caught "dim[0]: size_in can not be zero when size_n or size_p is non-zero", .text "\n", .text "size[0] = [2 10 3]\n", .text "2\n", .text "7\n",
   .text "7\n", .text "2\n"]

/-- Test_D1_RangeT.cpp, checked build -/
def d1rangeSaid : List Said :=
  [.text "range[0] = [0 , -1]  size[0] = 0\n", .text "range[0] = [2 , 11]  size[0] = 10\n", .text "\n", .fine "0\n", .fine "0\n", .fine "0\n", .fine "-1\n",
   .text "\n", .fine "2\n", .fine "12\n", .fine "10\n", .fine "11\n", .fine "2\n", .fine "11\n", .text "\n", .caught "DIM is out of range: 1 range:[0,0]",
   .text "\n", .text "range[0] = [2 , 11]  size[0] = 10\n", .text "", .text "range[0] = [3 , 11]  size[0] = 9\n", .text "",
   .text "range[0] = [3 , 10]  size[0] = 8\n", .text "", .text "", .text "range[0] = [5 , 12]  size[0] = 8\n", .text "range[0] = [5 , 10]  size[0] = 6\n",
   .caught "overlap not found", .caught "overlap not found", .fine "range[0] = [3 , 3]  size[0] = 1\n", .text "\n",
   .caught "i is out of range: 2 range:[3,10]", .caught "i is out of range: 11 range:[3,10]", .fine "",
   .caught "i is out of range: 2(N) range:[2(P),3,10,11(N)]", .fine "", .fine "", .caught "i is out of range: 11(P) range:[2(P),3,10,11(N)]", .text "\n"]

/-- Test_D1_RangeT.cpp, unchecked build -/
def d1rangeUncheckedSaid : List Said :=
  [.text "range[0] = [0 , -1]  size[0] = 0\n", .text "range[0] = [2 , 11]  size[0] = 10\n", .text "\n", .fine "0\n", .fine "0\n", .fine "0\n", .fine "-1\n",
   .text "\n", .fine "2\n", .fine "12\n", .fine "10\n", .fine "11\n", .fine "2\n", .fine "11\n", .text "\n", .fine "10\n", .text "\n",
   .text "range[0] = [2 , 11]  size[0] = 10\n", .text "", .text "range[0] = [3 , 11]  size[0] = 9\n", .text "", .text "range[0] = [3 , 10]  size[0] = 8\n",
   .text "", .text "", .text "range[0] = [5 , 12]  size[0] = 8\n", .text "range[0] = [5 , 10]  size[0] = 6\n", .fine "range[0] = [11 , 10]  size[0] = 0\n",
   .fine "range[0] = [3 , 2]  size[0] = 0\n", .fine "range[0] = [3 , 3]  size[0] = 1\n", .text "\n", .fine "", .fine "", .fine "", .fine "", .fine "",
   .fine "", .fine "", .text "\n"]

/-- Test_D2_SizeT.cpp, checked build -/
def d2sizeSaid : List Said :=
  [.text "size[0] = [0 0 0]  size[1] = [0 0 0]\n", .text "size[0] = [2 10 3]  size[1] = [1 15 2]\n", .text "\n", .fine "0\n", .fine "0\n", .fine "0\n",
   .fine "10\n", .fine "2\n", .fine "3\n", .fine "15\n", .fine "1\n", .fine "2\n", .caught "DIM is out of range: 2 range:[0,1]", .text "\n",
   .fine "-2 13 15\n", .fine "0 10 10\n", .fine "-2 0 2\n", .fine "10 13 3\n", .fine "-1 17 18\n", .fine "0 15 15\n", .fine "-1 0 1\n", .fine "15 17 2\n",
   .caught "DIM is out of range: 2 range:[0,1]", .text "\n", .text "range[0] = [-2 , 12]  size[0] = 15    range[1] = [-1 , 16]  size[1] = 18\n",
   .text "range[0] = [0 , 9]  size[0] = 10    range[1] = [-1 , -1]  size[1] = 1\n",
   .text "range[0] = [-2 , -1]  size[0] = 2    range[1] = [-1 , 16]  size[1] = 18\n",
   .text "range[0] = [10 , 12]  size[0] = 3    range[1] = [0 , 14]  size[1] = 15\n", .text "\n", .fine "", .fine "",
   .caught "dim[1]: size_in can not be zero when size_n or size_p is non-zero", .text "\n", .text "size[0] = [2 10 3]  size[1] = [1 15 2]\n", .text "2\n",
   .text "17\n", .text "12\n", .text "-3\n"]

/-- Test_D2_RangeT.cpp, checked build -/
def d2rangeSaid : List Said :=
  [.text "range[0] = [0 , -1]  size[0] = 0    range[1] = [0 , -1]  size[1] = 0\n",
   .text "range[0] = [0 , 1]  size[0] = 2    range[1] = [10 , 15]  size[1] = 6\n", .text "\n", .fine "0\n", .fine "0\n", .fine "0\n", .text "\n", .fine "0\n",
   .fine "2\n", .fine "2\n", .fine "10\n", .fine "16\n", .fine "6\n", .fine "15\n", .fine "10\n", .fine "15\n", .caught "DIM is out of range: 2 range:[0,1]",
   .text "\n", .text "range[0] = [0 , 1]  size[0] = 2    range[1] = [10 , 15]  size[1] = 6\n",
   .text "range[0] = [-1 , 1]  size[0] = 3    range[1] = [11 , 15]  size[1] = 5\n",
   .text "range[0] = [-1 , 2]  size[0] = 4    range[1] = [11 , 17]  size[1] = 7\n", .text "",
   .text "range[0] = [1 , 4]  size[0] = 4    range[1] = [12 , 18]  size[1] = 7\n",
   .text "range[0] = [1 , 2]  size[0] = 2    range[1] = [12 , 17]  size[1] = 6\n", .caught "overlap not found", .caught "overlap not found",
   .fine "range[0] = [1 , 2]  size[0] = 2    range[1] = [11 , 11]  size[1] = 1\n", .text "\n", .caught "j is out of range: 10(N) range:[10(P),11,17,18(N)]",
   .fine "", .fine "", .caught "j is out of range: 18(P) range:[10(P),11,17,18(N)]", .caught "j is out of range: 10 range:[11,17]",
   .caught "j is out of range: 18 range:[11,17]", .caught "DIM is out of range: 2 range:[0,1]"]

/-- Test_D3_SizeT.cpp, checked build -/
def d3sizeSaid : List Said :=
  [.text "size[0] = [0 0 0]  size[1] = [0 0 0]  size[2] = [0 0 0]\n", .text "size[0] = [1 3 1]  size[1] = [2 10 3]  size[2] = [1 15 2]\n", .text "\n",
   .fine "0\n", .fine "0\n", .fine "0\n", .fine "3\n", .fine "1\n", .fine "1\n", .fine "10\n", .fine "2\n", .fine "3\n", .fine "15\n", .fine "1\n",
   .fine "2\n", .caught "DIM is out of range: 3 range:[0,2]", .text "\n", .fine "-1 4 5\n", .fine "0 3 3\n", .fine "-1 0 1\n", .fine "3 4 1\n",
   .fine "-2 13 15\n", .fine "0 10 10\n", .fine "-2 0 2\n", .fine "10 13 3\n", .fine "-1 17 18\n", .fine "0 15 15\n", .fine "-1 0 1\n", .fine "15 17 2\n",
   .caught "DIM is out of range: 3 range:[0,2]", .text "\n",
   .text "range[0] = [-1 , 3]  size[0] = 5    range[1] = [-2 , 12]  size[1] = 15    range[2] = [-1 , 16]  size[2] = 18\n",
   .text "range[0] = [0 , 2]  size[0] = 3    range[1] = [10 , 12]  size[1] = 3    range[2] = [0 , 14]  size[2] = 15\n",
   .text "range[0] = [-1 , -1]  size[0] = 1    range[1] = [-2 , 12]  size[1] = 15    range[2] = [15 , 16]  size[2] = 2\n",
   .text "range[0] = [3 , 3]  size[0] = 1    range[1] = [0 , 9]  size[1] = 10    range[2] = [15 , 16]  size[2] = 2\n", .text "\n", .fine "", .fine "",
   .caught "dim[2]: size_in can not be zero when size_n or size_p is non-zero", .text "\n",
   .text "size[0] = [1 3 1]  size[1] = [2 10 3]  size[2] = [1 15 2]\n", .text "2\n", .text "17\n", .text "12\n", .text "-3\n"]

/-- Test_D3_RangeT.cpp, checked build -/
def d3rangeSaid : List Said :=
  [.text "range[0] = [0 , -1]  size[0] = 0    range[1] = [0 , -1]  size[1] = 0    range[2] = [0 , -1]  size[2] = 0\n",
   .text "range[0] = [2 , 7]  size[0] = 6    range[1] = [10 , 10]  size[1] = 1    range[2] = [0 , 19]  size[2] = 20\n", .text "\n", .fine "0\n", .fine "0\n",
   .fine "0\n", .text "\n", .fine "2\n", .fine "8\n", .fine "6\n", .fine "10\n", .fine "11\n", .fine "1\n", .fine "0\n", .fine "20\n", .fine "20\n",
   .fine "19\n", .fine "0\n", .fine "19\n", .caught "DIM is out of range: 3 range:[0,2]", .text "\n", .caught "DIM is out of range: 3 range:[0,2]",
   .text "range[0] = [2 , 7]  size[0] = 6    range[1] = [10 , 10]  size[1] = 1    range[2] = [0 , 19]  size[2] = 20\n",
   .text "range[0] = [1 , 7]  size[0] = 7    range[1] = [7 , 10]  size[1] = 4    range[2] = [1 , 19]  size[2] = 19\n",
   .text "range[0] = [1 , 8]  size[0] = 8    range[1] = [7 , 13]  size[1] = 7    range[2] = [1 , 21]  size[2] = 21\n", .text "",
   .text "range[0] = [3 , 10]  size[0] = 8    range[1] = [8 , 14]  size[1] = 7    range[2] = [1 , 21]  size[2] = 21\n",
   .text "range[0] = [3 , 8]  size[0] = 6    range[1] = [8 , 13]  size[1] = 6    range[2] = [1 , 21]  size[2] = 21\n", .caught "overlap not found",
   .caught "overlap not found", .fine "range[0] = [3 , 8]  size[0] = 6    range[1] = [8 , 13]  size[1] = 6    range[2] = [1 , 1]  size[2] = 1\n", .text "\n",
   .caught "k is out of range: 0(N) range:[0(P),1,21,22(N)]", .fine "", .fine "", .caught "k is out of range: 22(P) range:[0(P),1,21,22(N)]",
   .caught "k is out of range: 0 range:[1,21]", .caught "k is out of range: 22 range:[1,21]", .fine ""]

/-- Test_D0_PointData_C.cpp without lines 44-45, checked build -/
def d0Said (tf td : String) : List Said :=
  [.text ("dimension:0  type:[" ++ tf ++ "]  N = 1\n"), .text ("dimension:0  type:[" ++ td ++ "]  N = 10\n"), .text "\n",
   .text "10, \n", .text "0, 1, 2, 3, 4, 5, 6, 7, 8, 9, \n", .text "\n", .fine "10\n", .caught "out of N range: 1 range:[0,0]", .text "\n", .text "22.5\n"]

end Verif.Spec
