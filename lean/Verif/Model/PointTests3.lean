import Verif.Model.Program
/-!
# The test programs Test_D3_PointData_C.cpp and Test_D3_PointData_H.cpp

Simplifications: the numbers of these programs are integers below a thousand thousand and the negative zero, exact in `float` and `double` (`Num`); the text of a
number is any function `txt` (of `none` for an element never assigned).  The lines `x.disp()`, `x.size().disp()`, `"line: "`, empty lines and the environment at
the top are left out; of `exec_except` only the exception is kept, in the order of the calls.  The macro `__linux__` is taken to be defined (lines 40-42 and 38-40
are left out).
-/
namespace Verif.PointTest3
open Spec (Ext)

/-- integers of a floating point type and the other zero -/
inductive Num
  | int (z : Int)
  | negZero
  deriving DecidableEq

/-- `-x` -/
def Num.neg : Num → Num
  | .int 0 => .negZero
  | .int z => .int (-z)
  | .negZero => .int 0

/-- the integer -/
def Num.val : Num → Int
  | .int z => z
  | .negZero => 0

/-- variables of the program: the indices of a loop, a range, an answer, a point, numbers read, the result of reductions, exceptions caught and text -/
structure Vars where
  n : Nat := 0
  xs : List Int := []
  R : List (Int × Int) := []
  ans : Int := 0
  pt : List Int := []
  t : List Num := []
  max : Num := .int 0
  caught : List Err := []
  out : List (List String) := []
  deriving DecidableEq

abbrev Prog := Stmt Num Vars

def Vars.i (s : Vars) : Int := s.xs.getD 0 0
def Vars.j (s : Vars) : Int := s.xs.getD 1 0
def Vars.k (s : Vars) : Int := s.xs.getD 2 0
/-- the number read last -/
def Vars.v (s : Vars) : Num := s.t.headD (.int 0)

/-- statements one after the other -/
def block (l : List Prog) : Prog := l.foldr .seq .skip

/-- `exec_except([&]() { p }, out, err)` -/
def tries (l : List Prog) : Prog := .attempt (block l) (fun e s => { s with caught := s.caught ++ [e] }) .skip

/-- `x(n, xs, fs)` is read -/
def get (x : Nat) (a : Vars → Nat × List Int) (fs : List FL) : Prog :=
  .call (fun s => .read x (a s).1 (a s).2 fs) fun r s => match r with | .val (some v) => { s with t := [v] } | _ => s

/-- `x(n, xs, fs) = v` -/
def put (x : Nat) (a : Vars → Nat × List Int) (fs : List FL) (v : Vars → Num) : Prog :=
  .call (fun s => .write x (a s).1 (a s).2 fs (v s)) fun _ s => { s with t := [] }

/-- a member function without result -/
def op (o : Op Num) : Prog := .call (fun _ => o) fun _ s => s

/-- a loop over `x.size().range(ts...)` -/
def over (x : Nat) (ts : List RA) (N : Option (Nat × Nat)) (ax : List Nat) (l : List Prog) : Prog :=
  block [.range x ts fun R s => { s with R }, .loop (fun s => ⟨N, ax, s.R⟩) (fun n xs s => { s with n, xs }) (block l)]

/-- the variable of the reductions -/
def maxRef : Ref Vars Num := ⟨Vars.max, fun v s => { s with max := v }⟩

/-- a reduction over `x.size().range(ts...)` of the number read -/
def reduced (x : Nat) (ts : List RA) (N : Option (Nat × Nat)) (ax : List Nat) (red : Num → Num → Num) (p : Prog) : Prog :=
  block [.range x ts fun R s => { s with R }, .reduce (fun s => ⟨N, ax, s.R⟩) maxRef red (fun n xs s => { s with n, xs }) p Vars.v]

/-- `max = z;` -/
def start (z : Int) : Prog := .set fun s => { s with max := .int z }

/-- `out << x(n, xs, fs) << endl` -/
def printT (txt : Option Num → String) (x n : Nat) (xs : List Int) (fs : List FL) : Prog :=
  block [get x (fun _ => (n, xs)) fs, .set fun s => { s with t := [], out := s.out ++ [[txt s.t.head?]] }]

/-- `out << x.disp_data() << endl` -/
def dataT (txt : Option Num → String) (x : Nat) : Prog := .disp x txt fun t s => { s with out := s.out ++ [t] }

/-- `out << "name = " << max << endl` -/
def result (txt : Option Num → String) (name : String) : Prog := .set fun s => { s with out := s.out ++ [[name, txt (some s.max)]] }

def e3 : List Ext := [⟨1, 2, 1⟩, ⟨1, 5, 2⟩, ⟨1, 7, 3⟩]
def e3' : List Ext := [⟨1, 2, 1⟩, ⟨0, 7, 0⟩, ⟨1, 5, 0⟩]
def ccc : List FL := [.C, .C, .C]
def c3 : List Loc := [.center, .center, .center]

/-- Test_D3_PointData_C.cpp:23-54 -/
def d3cLife (txt : Option Num → String) (junk : Nat → Ptr) : List Prog :=
  [op (.make 1 ⟨1, c3⟩ junk), dataT txt 1, op (.make 2 ⟨2, c3⟩ junk), op (.makeSized 3 ⟨2, c3⟩ junk e3),
   tries [printT txt 1 0 [0, -1, 0] ccc],
   tries [op (.alloc 1 [⟨0, 0, 0⟩, ⟨0, 0, 0⟩, ⟨0, 0, 0⟩])], tries [op (.alloc 1 [⟨0, 0, 0⟩, ⟨0, 0, 0⟩, ⟨1, 0, 0⟩])],
   tries [op (.alloc 1 e3')], tries [op (.alloc 1 e3')],
   tries [op (.realloc 1 e3)], tries [op (.realloc 2 e3)],
   tries [op (.clear 2)], tries [op (.clear 3), op (.alloc 3 e3)], tries [op (.alloc 2 e3), op (.alloc 3 e3)]]

/-- `D3::PD_For_3D(x1.size().range(t0, t1, t2), [&x1]PD_F_ijk(i, j, k) { x1(0, i, j, k) = v; })` -/
def fill3 (t0 t1 t2 : RA) (v : Vars → Num) : Prog := over 1 [t0, t1, t2] none [] [put 1 (fun s => (0, [s.i, s.j, s.k])) ccc v]

/-- `D3::PD_For_3D(x1.size().range(t0, t1, t2), [&x1]PD_F_ijk(i, j, k) { x1(0, i, j, k) = -x1(0, …); })`: the point read has `x1.size().mirror(d, fl, …)` at `d` -/
def mirror3 (t0 t1 t2 : RA) (d : Nat) (fl : Side) : Prog :=
  over 1 [t0, t1, t2] none []
    [.ask 1 (fun s => .mirror d fl (s.xs.getD d 0)) fun i s => { s with ans := i }, get 1 (fun s => (0, [s.i, s.j, s.k].set d s.ans)) ccc,
     put 1 (fun s => (0, [s.i, s.j, s.k])) ccc fun s => s.v.neg]

/-- Test_D3_PointData_C.cpp:63-102 -/
def d3cFill (txt : Option Num → String) : List Prog :=
  [fill3 .N .IN .IN fun _ => .int 122, fill3 .N .N .N fun _ => .int 111, fill3 .N .N .P fun _ => .int 113, fill3 .N .P .N fun _ => .int 131, fill3 .N .P .P fun _ => .int 133,
   fill3 .N .N .IN fun _ => .int 112, fill3 .N .P .IN fun _ => .int 132, fill3 .N .IN .N fun _ => .int 121, fill3 .N .IN .P fun _ => .int 123,
   fill3 .IN .IN .IN fun s => .int (s.i * 100 + s.j * 10 + s.k), fill3 .IN .N .N fun _ => .int 211, fill3 .IN .N .P fun _ => .int 213, fill3 .IN .P .N fun _ => .int 231,
   fill3 .IN .P .P fun _ => .int 233, fill3 .IN .N .IN fun _ => .int 212, fill3 .IN .P .IN fun _ => .int 232, fill3 .IN .IN .N fun _ => .int 221, fill3 .IN .IN .P fun _ => .int 223,
   fill3 .P .IN .IN fun _ => .int 322, fill3 .P .N .N fun _ => .int 311, fill3 .P .N .P fun _ => .int 313, fill3 .P .P .N fun _ => .int 331, fill3 .P .P .P fun _ => .int 333,
   fill3 .P .N .IN fun _ => .int 312, fill3 .P .P .IN fun _ => .int 332, fill3 .P .IN .N fun _ => .int 321, fill3 .P .IN .P fun _ => .int 323,
   dataT txt 1,
   mirror3 .IN .IN .N 2 .N, mirror3 .IN .IN .P 2 .P, mirror3 .IN .N .IN 1 .N, mirror3 .IN .P .IN 1 .P, mirror3 .N .IN .IN 0 .N, mirror3 .P .IN .IN 0 .P,
   dataT txt 1]

/-- Test_D3_PointData_C.cpp:106-115 -/
def d3cReads (txt : Option Num → String) : List Prog :=
  [tries [printT txt 1 0 [0, -1, 0] ccc], tries [printT txt 1 0 [0, -1, 0] ccc], tries [printT txt 1 0 [0, -2, 0] ccc], tries [printT txt 1 0 [0, 7, 0] ccc],
   tries [printT txt 1 0 [0, 0, -2] ccc], tries [printT txt 1 0 [0, 0, 13] ccc], tries [printT txt 1 0 [3, 7, 13] ccc], tries [printT txt 1 1 [0, 0, 0] ccc],
   tries [printT txt 1 0 [0, -1, 0] ccc], tries [printT txt 1 0 [0, -1, 0] ccc]]

/-- Test_D3_PointData_C.cpp:117-119 -/
def d3cConst (txt : Option Num → String) (junk : Nat → Ptr) : List Prog :=
  [op (.makeSized 4 ⟨1, c3⟩ junk [⟨0, 1, 0⟩, ⟨0, 5, 0⟩, ⟨0, 10, 0⟩]), tries [printT txt 4 0 [0, 0, 0] ccc], tries [printT txt 4 0 [0, 0, 0] ccc]]

/-- `PD_RF_MAX`, `PD_RF_MAX_ABS`, `PD_RF_MIN`, `PD_RF_MIN_ABS` — PointData.hpp:95-98 -/
def rfMax (x xx : Num) : Num := if xx.val < x.val then x else xx
def rfMaxAbs (x xx : Num) : Num := rfMax (if x.val ≥ 0 then x else x.neg) xx
def rfMin (x xx : Num) : Num := if xx.val > x.val then x else xx
def rfMinAbs (x xx : Num) : Num := rfMin (if x.val ≥ 0 then x else x.neg) xx

def all3 : List RA := [.ALL, .ALL, .ALL]
def in3 : List RA := [.IN, .IN, .IN]

/-- Test_D3_PointData_C.cpp:123-140 -/
def d3cReduce (txt : Option Num → String) : List Prog :=
  [over 2 all3 (some (0, 2)) [] [put 2 (fun s => (s.n, [s.i, s.j, s.k])) ccc fun s => .int ((s.n : Int) * 1000 + s.i * 100 + s.j * 10 + s.k)],
   dataT txt 2,
   start 0,
   reduced 1 in3 none [] rfMax (get 1 (fun s => (0, [s.i, s.j, s.k])) ccc),
   result txt "max = ",
   start 0,
   reduced 2 in3 (some (0, 2)) [] rfMaxAbs (get 2 (fun s => (s.n, [s.i, s.j, s.k])) ccc),
   result txt "max_abs = "]

/-- Test_D3_PointData_C.cpp:144-162 -/
def d3cPlanes (txt : Option Num → String) : List Prog :=
  [over 1 all3 none [1, 2] [get 1 (fun s => (0, [1, s.i, s.j])) ccc, put 1 (fun s => (0, [0, s.i, s.j])) ccc Vars.v],
   dataT txt 1,
   start 100000,
   reduced 1 all3 none [1, 2] rfMin (get 1 (fun s => (0, [0, s.i, s.j])) ccc),
   result txt "min = ",
   over 2 all3 (some (0, 2)) [1, 2] [get 2 (fun s => (s.n, [1, s.i, s.j])) ccc, put 2 (fun s => (s.n, [0, s.i, s.j])) ccc Vars.v],
   dataT txt 2,
   start 100000,
   reduced 2 all3 (some (0, 2)) [1, 2] rfMinAbs (get 2 (fun s => (s.n, [0, s.i, s.j])) ccc),
   result txt "min_abs = "]

/-- Test_D3_PointData_C.cpp:166-190 -/
def d3cLines (txt : Option Num → String) : List Prog :=
  [over 1 all3 none [1] [get 1 (fun s => (0, [0, s.i, 1])) ccc, put 1 (fun s => (0, [0, s.i, 0])) ccc Vars.v],
   dataT txt 1,
   start 0,
   reduced 1 all3 none [1] rfMax (get 1 (fun s => (0, [0, s.i, 0])) ccc),
   result txt "max = ",
   over 2 all3 (some (0, 2)) [1] [get 2 (fun s => (s.n, [0, s.i, 1])) ccc, put 2 (fun s => (s.n, [0, s.i, 0])) ccc Vars.v],
   dataT txt 2,
   start 0,
   reduced 2 all3 (some (0, 2)) [1] rfMax (get 2 (fun s => (s.n, [0, s.i, 0])) ccc),
   result txt "max = ",
   dataT txt 2,
   tries [op (.copy 2 2 (.tagsFl in3 [.IN, .P, .IN] [.N, .N, .N]))], dataT txt 2]

def d3c (txt : Option Num → String) (junk : Nat → Ptr) : Prog :=
  block (d3cLife txt junk ++ d3cFill txt ++ d3cReads txt ++ d3cConst txt junk ++ d3cReduce txt ++ d3cPlanes txt ++ d3cLines txt)
/-- without lines 117-119 -/
def d3c' (txt : Option Num → String) (junk : Nat → Ptr) : Prog :=
  block (d3cLife txt junk ++ d3cFill txt ++ d3cReads txt ++ d3cReduce txt ++ d3cPlanes txt ++ d3cLines txt)

/-! ## Test_D3_PointData_H.cpp -/

def e4 : List Ext := [⟨1, 2, 1⟩, ⟨1, 5, 2⟩, ⟨1, 4, 2⟩]
def e4' : List Ext := [⟨1, 2, 1⟩, ⟨0, 4, 0⟩, ⟨1, 5, 0⟩]

/-- the kind of the array `x`: the dimensions at half points are the binary digits of `x` -/
def kind3 (x : Nat) : Kind := ⟨2, [if x / 4 % 2 = 1 then .half else .center, if x / 2 % 2 = 1 then .half else .center, if x % 2 = 1 then .half else .center]⟩

/-- Test_D3_PointData_H.cpp:21-57 -/
def d3hLife (junk : Nat → Ptr) : List Prog :=
  [op (.make 0 (kind3 0) junk), op (.make 1 (kind3 1) junk), op (.make 2 (kind3 2) junk), op (.make 3 (kind3 3) junk), op (.make 4 (kind3 4) junk),
   op (.make 5 (kind3 5) junk), op (.make 6 (kind3 6) junk), op (.make 7 (kind3 7) junk),
   tries [op (.alloc 1 [⟨0, 0, 0⟩, ⟨0, 0, 0⟩, ⟨0, 0, 0⟩])], tries [op (.alloc 1 [⟨0, 0, 0⟩, ⟨0, 0, 0⟩, ⟨1, 0, 0⟩])],
   tries [op (.alloc 1 e4')], tries [op (.alloc 1 e4')], tries [op (.realloc 1 e4)], tries [op (.realloc 2 e4)], tries [op (.clear 2)],
   op (.alloc 0 e4), op (.alloc 2 e4), op (.alloc 3 e4), op (.alloc 4 e4), op (.alloc 5 e4), op (.alloc 6 e4), op (.alloc 7 e4)]

/-- `x(n, …, fs) = v` at the indices of the loop, with `x.size().last(d, RA::ALL)` for the dimensions `ds` -/
def atLast (x : Nat) (ds : List Nat) (fs : List FL) (v : Int) : Prog :=
  block ([.set fun s => { s with pt := [s.i, s.j, s.k] }] ++ ds.map (fun d => .ask x (fun _ => .last d .ALL) fun i s => { s with pt := s.pt.set d i }) ++
    [put x (fun s => (s.n, s.pt)) fs fun _ => .int v])

/-- the two loops over an array and its output; the second one has the assignments `l` -/
def secH (txt : Option Num → String) (x : Nat) (name : String) (fs : List FL) (l : List Prog) : List Prog :=
  [over x all3 (some (0, 2)) [] [put x (fun s => (s.n, [s.i, s.j, s.k])) fs fun s => .int ((s.n : Int) * 1000 + s.i * 100 + s.j * 10 + s.k)]] ++
  (if l.isEmpty then [] else [over x all3 (some (0, 2)) [] l]) ++ [.set fun s => { s with out := s.out ++ [[name]] }, dataT txt x]

/-- Test_D3_PointData_H.cpp:68-73, 75-84, 86-95, 97-110, 112-121, 123-136, 138-151, 153-174 -/
def d3hSec (txt : Option Num → String) : Nat → List Prog
  | 0 => secH txt 0 "x0:" [.C, .C, .C] []
  | 1 => secH txt 1 "x1:" [.C, .C, .N] [atLast 1 [2] [.C, .C, .P] 0]
  | 2 => secH txt 2 "x2:" [.C, .N, .C] [atLast 2 [1] [.C, .P, .C] 0]
  | 3 => secH txt 3 "x3:" [.C, .N, .N] [atLast 3 [1] [.C, .P, .N] 1, atLast 3 [1] [.C, .P, .P] 1, atLast 3 [2] [.C, .N, .P] 2, atLast 3 [2] [.C, .P, .P] 2,
      atLast 3 [1, 2] [.C, .P, .P] 3]
  | 4 => secH txt 4 "x4:" [.N, .C, .C] [atLast 4 [0] [.P, .C, .C] 0]
  | 5 => secH txt 5 "x5:" [.N, .C, .N] [atLast 5 [0] [.P, .C, .N] 1, atLast 5 [0] [.P, .C, .P] 1, atLast 5 [2] [.N, .C, .P] 2, atLast 5 [2] [.P, .C, .P] 2,
      atLast 5 [0, 2] [.P, .C, .P] 3]
  | 6 => secH txt 6 "x6:" [.N, .N, .C] [atLast 6 [1] [.N, .P, .C] 1, atLast 6 [1] [.P, .P, .C] 1, atLast 6 [0] [.P, .N, .C] 2, atLast 6 [0] [.P, .P, .C] 2,
      atLast 6 [0, 1] [.P, .P, .C] 3]
  | _ => secH txt 7 "x7:" [.N, .N, .N] [atLast 7 [0] [.P, .N, .N] 1, atLast 7 [0] [.P, .N, .P] 1, atLast 7 [0] [.P, .P, .N] 1, atLast 7 [0] [.P, .P, .P] 1,
      atLast 7 [1] [.N, .P, .N] 2, atLast 7 [1] [.N, .P, .P] 2, atLast 7 [1] [.P, .P, .N] 2, atLast 7 [1] [.P, .P, .P] 2,
      atLast 7 [2] [.N, .N, .P] 3, atLast 7 [2] [.N, .P, .P] 3, atLast 7 [2] [.P, .N, .P] 3, atLast 7 [2] [.P, .P, .P] 3,
      atLast 7 [0, 1, 2] [.P, .P, .P] 4]

/-- Test_D3_PointData_H.cpp:176-186 -/
def d3hReads (txt : Option Num → String) : List Prog :=
  [tries [printT txt 7 0 [0, 0, 0] [.P, .P, .P]], tries [printT txt 7 0 [-2, 0, 0] [.P, .P, .P]], tries [printT txt 7 0 [3, 0, 0] [.P, .P, .P]],
   tries [printT txt 7 0 [0, -2, 0] [.P, .P, .P]], tries [printT txt 7 0 [0, 7, 0] [.P, .P, .P]], tries [printT txt 7 0 [0, 0, -2] [.P, .P, .P]],
   tries [printT txt 7 0 [0, 0, 6] [.P, .P, .P]], tries [printT txt 7 2 [0, 0, 0] [.P, .P, .P]], tries [printT txt 7 0 [0, 0, 0] [.C, .P, .P]],
   tries [printT txt 7 0 [0, 0, 0] [.P, .C, .P]], tries [printT txt 7 0 [0, 0, 0] [.P, .P, .C]]]

/-- Test_D3_PointData_H.cpp:188-190 -/
def d3hConst (txt : Option Num → String) (junk : Nat → Ptr) : List Prog :=
  [op (.makeSized 8 ⟨1, [.half, .half, .center]⟩ junk [⟨0, 1, 0⟩, ⟨0, 5, 0⟩, ⟨0, 10, 0⟩]), tries [printT txt 8 0 [0, 0, 0] [.N, .N, .C]],
   tries [printT txt 8 0 [0, 0, 0] ccc]]

/-- Test_D3_PointData_H.cpp:192-209 -/
def d3hRest (txt : Option Num → String) : List Prog :=
  [tries [printT txt 7 0 [-2, 0, 0] [.N, .N, .N]], tries [printT txt 7 0 [-2, 0, 0] [.P, .N, .N]], tries [printT txt 7 0 [3, 0, 0] [.N, .N, .N]],
   tries [printT txt 7 0 [3, 0, 0] [.P, .N, .N]], tries [printT txt 7 0 [0, -2, 0] [.N, .N, .N]], tries [printT txt 7 0 [0, -2, 0] [.N, .P, .N]],
   tries [printT txt 7 0 [0, 7, 0] [.N, .N, .N]], tries [printT txt 7 0 [0, 7, 0] [.N, .P, .N]], tries [printT txt 7 0 [0, 0, -2] [.N, .N, .N]],
   tries [printT txt 7 0 [0, 0, -2] [.N, .N, .P]], tries [printT txt 7 0 [0, 0, 6] [.N, .N, .N]], tries [printT txt 7 0 [0, 0, 6] [.N, .N, .P]],
   dataT txt 2,
   tries [op (.copy 2 2 (.tagsFl in3 [.IN, .P, .IN] [.P, .P, .P]))], tries [op (.copy 2 2 (.tagsFl in3 [.IN, .P, .IN] [.N, .N, .P]))],
   dataT txt 2]

def d3h (txt : Option Num → String) (junk : Nat → Ptr) : Prog :=
  block (d3hLife junk ++ (d3hSec txt 0 ++ (d3hSec txt 1 ++ (d3hSec txt 2 ++ (d3hSec txt 3 ++ (d3hSec txt 4 ++ (d3hSec txt 5 ++ (d3hSec txt 6 ++ (d3hSec txt 7 ++
    (d3hReads txt ++ (d3hConst txt junk ++ d3hRest txt)))))))))))
/-- without lines 188-190 -/
def d3h' (txt : Option Num → String) (junk : Nat → Ptr) : Prog :=
  block (d3hLife junk ++ (d3hSec txt 0 ++ (d3hSec txt 1 ++ (d3hSec txt 2 ++ (d3hSec txt 3 ++ (d3hSec txt 4 ++ (d3hSec txt 5 ++ (d3hSec txt 6 ++ (d3hSec txt 7 ++
    (d3hReads txt ++ d3hRest txt))))))))))

end Verif.PointTest3
