import Verif.Model.Program
import Mathlib.Data.Rat.Defs
/-!
# The test programs of the point arrays — Test_D1_PointData_C.cpp, Test_D1_PointData_H.cpp, Test_D2_PointData_C.cpp

Simplifications: numbers are exact (the values of these programs are small integers and halves, exact in `float` and `double`) and their text is that of a
fraction; the lines `x.disp()`, `x.size().disp()`, `"line: "`, empty lines and the environment at the top are left out; of `exec_except` only the exception
is kept, in the order of the calls.
-/
namespace Verif.PointTest
open Spec (Ext)

/-- variables of the test programs: the indices of a loop, a range, an answer, numbers read, results of reductions, exceptions caught and text -/
structure Vars where
  n : Nat := 0
  xs : List Int := []
  R : List (Int × Int) := []
  ans : Int := 0
  t : List ℚ := []
  sum : ℚ := 0
  max : ℚ := 0
  caught : List Err := []
  out : List (List String) := []
  deriving DecidableEq

abbrev Prog := Stmt ℚ Vars

def Vars.i (s : Vars) : Int := s.xs.getD 0 0
def Vars.j (s : Vars) : Int := s.xs.getD 1 0

/-- statements one after the other -/
def block (l : List Prog) : Prog := l.foldr .seq .skip

/-- the text of a number -/
def text (v : ℚ) : String := toString v

/-- `exec_except([&]() { p }, out, err)` -/
def tries (l : List Prog) : Prog := .attempt (block l) (fun e s => { s with caught := s.caught ++ [e] }) .skip

/-- `x(n, xs, fs)` is read -/
def get (x : Nat) (a : Vars → Nat × List Int) (fs : List FL) : Prog :=
  .call (fun s => .read x (a s).1 (a s).2 fs) fun r s => match r with | .val (some v) => { s with t := v :: s.t } | _ => s

/-- `x(n, xs, fs) = v` -/
def put (x : Nat) (a : Vars → Nat × List Int) (fs : List FL) (v : Vars → ℚ) : Prog :=
  .call (fun s => .write x (a s).1 (a s).2 fs (v s)) fun _ s => { s with t := [] }

/-- `out << x(n, xs, fs) << endl` -/
def print (x n : Nat) (xs : List Int) (fs : List FL) : Prog :=
  block [get x (fun _ => (n, xs)) fs, .set fun s => { s with t := [], out := s.out ++ [[text (s.t.headD 0)]] }]

/-- `out << x.disp_data() << endl` -/
def data (x : Nat) : Prog :=
  .disp x (fun v => match v with | some v => text v | none => "?") fun t s => { s with out := s.out ++ [t] }

/-- a member function without result -/
def op (o : Op ℚ) : Prog := .call (fun _ => o) fun _ s => s

/-- `x.size().…` -/
def ask (x : Nat) (q : Vars → Query) : Prog := .ask x q fun i s => { s with ans := i }

/-- a loop over `x.size().range(ts...)` after the change `cut` (`cut_tail(-1)`) -/
def over (x : Nat) (ts : List RA) (N : Option (Nat × Nat)) (ax : List Nat) (cut : List (Int × Int) → List (Int × Int)) (l : List Prog) : Prog :=
  block [.range x ts fun R s => { s with R }, .loop (fun s => ⟨N, ax, cut s.R⟩) (fun n xs s => { s with n, xs }) (block l)]

/-- a reduction over `x.size().range(ts...)` -/
def reduced (x : Nat) (ts : List RA) (N : Option (Nat × Nat)) (ax : List Nat) (cut : List (Int × Int) → List (Int × Int)) (r : Ref Vars ℚ) (red : ℚ → ℚ → ℚ)
    (l : List Prog) (out : Vars → ℚ) : Prog :=
  block [.range x ts fun R s => { s with R }, .reduce (fun s => ⟨N, ax, cut s.R⟩) r red (fun n xs s => { s with n, xs, t := [] }) (block l) out]

def sumRef : Ref Vars ℚ := ⟨Vars.sum, fun v s => { s with sum := v }⟩
def maxRef : Ref Vars ℚ := ⟨Vars.max, fun v s => { s with max := v }⟩

/-- `range(..).cut_tail(-1)` in 1D: one point more -/
def cutTail : List (Int × Int) → List (Int × Int) := List.map fun r => (r.1, r.2 + 1)

/-! ## Test_D1_PointData_C.cpp -/

def e0 : Ext := ⟨2, 10, 3⟩

/-- construction and life cycle — Test_D1_PointData_C.cpp:21-49; `3 * 1024 / sizeof(float) / x1.N * 1024 * 1024` is 805306368 -/
def d1cLife (junk : Nat → Ptr) : List Prog :=
  [op (.make 1 ⟨1, [.center]⟩ junk), op (.make 2 ⟨2, [.center]⟩ junk), op (.makeSized 3 ⟨2, [.center]⟩ junk [e0]),
   tries [print 1 0 [0] [.C]],
   tries [op (.alloc 1 [⟨0, 0, 0⟩])], tries [op (.alloc 1 [⟨1, 0, 0⟩])],
   .set fun s => { s with out := s.out ++ [["805306368"]] },
   tries [op (.alloc 1 [⟨2, 805306368, 3⟩])], tries [op (.alloc 1 [⟨5, 10, 5⟩])], tries [op (.alloc 1 [e0])],
   tries [op (.realloc 1 [e0])], tries [op (.realloc 2 [e0])],
   tries [op (.clear 2)], tries [op (.clear 3), op (.alloc 3 [e0])], tries [op (.alloc 2 [e0]), op (.alloc 3 [e0])]]

/-- filling and reading — Test_D1_PointData_C.cpp:54-68 -/
def d1cFill : List Prog :=
  [over 1 [.IN] none [] id [put 1 (fun s => (0, [s.i])) [.C] fun s => s.i],
   over 1 [.N] none [] id [put 1 (fun s => (0, [s.i])) [.C] fun s => s.i - 5],
   over 1 [.P] none [] id [put 1 (fun s => (0, [s.i])) [.C] fun s => s.i + 6],
   data 1,
   over 1 [.N] none [] id [ask 1 (fun s => .mirror 0 .N s.i), get 1 (fun s => (0, [s.ans])) [.C], put 1 (fun s => (0, [s.i])) [.C] fun s => -s.t.headD 0],
   over 1 [.P] none [] id [ask 1 (fun s => .mirror 0 .P s.i), get 1 (fun s => (0, [s.ans])) [.C], put 1 (fun s => (0, [s.i])) [.C] fun s => -s.t.headD 0],
   data 1,
   tries [print 1 0 [-1] [.C]], tries [print 1 0 [-1] [.C]], tries [print 1 0 [-5] [.C]], tries [print 1 0 [13] [.C]], tries [print 1 1 [-1] [.C]],
   tries [print 1 0 [-1] [.C]]]

/-- the constant array — Test_D1_PointData_C.cpp:69-71 -/
def d1cConst (junk : Nat → Ptr) : List Prog :=
  [op (.makeSized 4 ⟨1, [.center]⟩ junk [⟨0, 2, 0⟩]), tries [print 4 0 [0] [.C]], tries [print 4 0 [0] [.C]]]

/-- loops over components, reductions and copies — Test_D1_PointData_C.cpp:74-107 -/
def d1cRest : List Prog :=
  [over 2 [.ALL] (some (0, 2)) [] id
     [put 2 (fun s => (s.n, [s.i])) [.C] (fun s => s.i * (s.n + 1)),
      get 2 (fun s => (s.n, [s.i])) [.C], get 1 (fun s => (0, [s.i])) [.C], put 3 (fun s => (s.n, [s.i])) [.C] fun s => s.t.sum],
   data 2, data 3,
   .set fun s => { s with sum := 0, max := -100 },
   reduced 3 [.IN] none [] id sumRef (fun x xx => xx + x) [get 3 (fun s => (0, [s.i])) [.C]] (fun s => s.t.headD 0 / 2),
   reduced 3 [.ALL] (some (0, 2)) [] id maxRef (fun x xx => if x > xx then x else xx) [get 3 (fun s => (s.n, [s.i])) [.C]] (fun s => s.t.headD 0),
   .set fun s => { s with out := s.out ++ [[text s.sum], [text s.max]] },
   tries [op (.copy 3 2 (.tags [.ALL] [.ALL] [10] [0]))], data 3,
   tries [op (.copy 3 2 (.tags [.ALL] [.ALL] [0] [10]))], data 3,
   tries [op (.copy 3 2 (.tags [.IN] [.N] [0] [-2]))], data 3,
   tries [op (.copy 3 2 (.tags [.IN] [.P] [9] [12]))], data 3,
   tries [op (.copy 3 3 (.tags [.N] [.P] [0] [12]))], data 3,
   tries [op (.copy 3 3 (.tags [.ALL] [.IN] [0] [0]))], data 3,
   tries [op (.copy 3 3 (.tagsFl [.IN] [.P] [.P]))], data 3]

def d1c (junk : Nat → Ptr) : Prog := block (d1cLife junk ++ d1cFill ++ d1cConst junk ++ d1cRest)
/-- without lines 70-71 -/
def d1c' (junk : Nat → Ptr) : Prog := block (d1cLife junk ++ d1cFill ++ d1cRest)

/-! ## Test_D1_PointData_H.cpp -/

/-- Test_D1_PointData_H.cpp:21-48; `3u * 1024u * 1024u * 1024u / sizeof(float) / x1.N` is 805306368 -/
def d1hLife (junk : Nat → Ptr) : List Prog :=
  [op (.make 1 ⟨1, [.half]⟩ junk), op (.make 2 ⟨2, [.half]⟩ junk), op (.makeSized 3 ⟨2, [.half]⟩ junk [e0]),
   tries [op (.alloc 1 [⟨0, 0, 0⟩])], tries [op (.alloc 1 [⟨1, 0, 0⟩])],
   .set fun s => { s with out := s.out ++ [["805306368"]] },
   tries [op (.alloc 1 [⟨2, 805306368, 3⟩])], tries [op (.alloc 1 [⟨5, 10, 5⟩])], tries [op (.alloc 1 [e0])],
   tries [op (.realloc 1 [e0])], tries [op (.realloc 2 [e0])],
   tries [op (.clear 2)], tries [op (.clear 3), op (.alloc 3 [e0])], tries [op (.alloc 2 [e0]), op (.alloc 3 [e0])]]

/-- Test_D1_PointData_H.cpp:53-62 -/
def d1hFill : List Prog :=
  [over 1 [.IN] none [] id [put 1 (fun s => (0, [s.i])) [.N] fun s => s.i],
   over 1 [.N] none [] id [put 1 (fun s => (0, [s.i])) [.N] fun s => s.i - 100],
   over 1 [.P] none [] cutTail [put 1 (fun s => (0, [s.i])) [.N] fun s => s.i + 200],
   data 1,
   tries [print 1 0 [-1] [.N]], tries [print 1 0 [-5] [.P]], tries [print 1 0 [14] [.N]], tries [print 1 1 [-1] [.P]], tries [print 1 0 [-1] [.C]]]

/-- Test_D1_PointData_H.cpp:63-65; `xc(0, 0)` has the flag `FL::C` -/
def d1hConst (junk : Nat → Ptr) : List Prog :=
  [op (.makeSized 4 ⟨1, [.half]⟩ junk [⟨0, 2, 0⟩]), tries [print 4 0 [0] [.N]], tries [print 4 0 [0] [.C]]]

/-- Test_D1_PointData_H.cpp:66-101 -/
def d1hRest : List Prog :=
  [tries [print 1 0 [-3] [.N]], tries [print 1 0 [-3] [.P]], tries [print 1 0 [13] [.N]], tries [print 1 0 [13] [.P]],
   over 2 [.ALL] (some (0, 2)) [] id
     [get 1 (fun s => (0, [s.i])) [.N], get 1 (fun s => (0, [s.i])) [.P], put 2 (fun s => (s.n, [s.i])) [.N] (fun s => s.t.sum / 2),
      get 2 (fun s => (s.n, [s.i])) [.N], get 1 (fun s => (0, [s.i])) [.P], put 3 (fun s => (s.n, [s.i])) [.N] fun s => s.t.sum],
   .loop (fun _ => ⟨some (0, 2), [], []⟩) (fun n xs s => { s with n, xs })
     (block [ask 2 (fun _ => .last 0 .ALL), put 2 (fun s => (s.n, [s.ans])) [.P] fun _ => -5]),
   .loop (fun _ => ⟨some (0, 2), [], []⟩) (fun n xs s => { s with n, xs })
     (block [ask 3 (fun _ => .last 0 .ALL), put 3 (fun s => (s.n, [s.ans])) [.P] fun _ => 100]),
   data 2, data 3,
   .set fun s => { s with sum := 0, max := -100 },
   reduced 3 [.IN] none [] cutTail sumRef (fun x xx => xx + x) [get 3 (fun s => (0, [s.i])) [.N]] (fun s => s.t.headD 0),
   reduced 3 [.ALL] (some (0, 2)) [] cutTail maxRef (fun x xx => if x > xx then x else xx) [get 3 (fun s => (s.n, [s.i])) [.N]] (fun s => s.t.headD 0),
   .set fun s => { s with out := s.out ++ [[text s.sum], [text s.max]] },
   tries [op (.copy 3 2 (.tags [.ALL] [.ALL] [10] [0]))], data 3,
   tries [op (.copy 3 2 (.tags [.ALL] [.ALL] [0] [10]))], data 3,
   tries [op (.copy 3 2 (.tags [.IN] [.N] [0] [-2]))], data 3,
   tries [op (.copy 3 2 (.tags [.IN] [.P] [9] [12]))], data 3]

def d1h (junk : Nat → Ptr) : Prog := block (d1hLife junk ++ d1hFill ++ d1hConst junk ++ d1hRest)
/-- without lines 63-65 -/
def d1h' (junk : Nat → Ptr) : Prog := block (d1hLife junk ++ d1hFill ++ d1hRest)

/-! ## Test_D2_PointData_C.cpp -/

def e1 : List Ext := [⟨1, 5, 2⟩, ⟨1, 10, 3⟩]
def e2 : List Ext := [⟨0, 10, 0⟩, ⟨1, 5, 0⟩]
def cc : List FL := [.C, .C]

/-- Test_D2_PointData_C.cpp:22-40; `big` is 26843545 and `big * big` wraps to 654982513 -/
def d2cBegin (junk : Nat → Ptr) : List Prog :=
  [op (.make 1 ⟨1, [.center, .center]⟩ junk), data 1, op (.make 2 ⟨2, [.center, .center]⟩ junk), op (.makeSized 3 ⟨2, [.center, .center]⟩ junk e1),
   tries [print 1 0 [0, 0] cc],
   tries [op (.alloc 1 [⟨0, 0, 0⟩, ⟨0, 0, 0⟩])], tries [op (.alloc 1 [⟨0, 0, 0⟩, ⟨1, 0, 0⟩])],
   .set fun s => { s with out := s.out ++ [["654982513"]] }]

/-- Test_D2_PointData_C.cpp:41 -/
def d2cBig : Prog := tries [op (.alloc 1 [⟨0, 26843545, 0⟩, ⟨1, 26843545, 0⟩])]

/-- Test_D2_PointData_C.cpp:42-52 -/
def d2cLife : List Prog :=
  [tries [op (.alloc 1 e2)], tries [op (.alloc 1 e2)],
   tries [op (.realloc 1 e1)], tries [op (.realloc 2 e1)],
   tries [op (.clear 2)], tries [op (.clear 3), op (.alloc 3 e1)], tries [op (.alloc 2 e1), op (.alloc 3 e1)]]

/-- `x1(0, i, j) = v` at the points of a zone -/
def fill2 (t0 t1 : RA) (v : Vars → ℚ) : Prog := over 1 [t0, t1] none [] id [put 1 (fun s => (0, [s.i, s.j])) cc v]

/-- Test_D2_PointData_C.cpp:60-89 -/
def d2cFill : List Prog :=
  [fill2 .IN .IN fun s => s.i + s.j, fill2 .N .N fun _ => 1, fill2 .N .P fun _ => 2, fill2 .P .N fun _ => 3, fill2 .P .P fun _ => 4,
   fill2 .N .IN fun s => 100 + s.j, fill2 .P .IN fun s => 200 + s.j, fill2 .IN .N fun s => s.i + 300, fill2 .IN .P fun s => s.i + 400,
   data 1,
   over 1 [.IN, .N] none [] id
     [ask 1 (fun s => .mirror 1 .N s.j), get 1 (fun s => (0, [s.i, s.ans])) cc, put 1 (fun s => (0, [s.i, s.j])) cc fun s => -s.t.headD 0],
   over 1 [.IN, .P] none [] id
     [ask 1 (fun s => .mirror 1 .P s.j), get 1 (fun s => (0, [s.i, s.ans])) cc, put 1 (fun s => (0, [s.i, s.j])) cc fun s => -s.t.headD 0],
   over 1 [.N, .IN] none [] id
     [ask 1 (fun s => .mirror 0 .N s.i), get 1 (fun s => (0, [s.ans, s.j])) cc, put 1 (fun s => (0, [s.i, s.j])) cc fun s => -s.t.headD 0],
   over 1 [.P, .IN] none [] id
     [ask 1 (fun s => .mirror 0 .P s.i), get 1 (fun s => (0, [s.ans, s.j])) cc, put 1 (fun s => (0, [s.i, s.j])) cc fun s => -s.t.headD 0],
   data 1,
   tries [print 1 0 [-1, 0] cc], tries [print 1 0 [-1, 0] cc], tries [print 1 0 [-2, 0] cc], tries [print 1 0 [7, 0] cc], tries [print 1 0 [0, -2] cc],
   tries [print 1 0 [0, 13] cc], tries [print 1 0 [7, 13] cc], tries [print 1 0 [-1, 0] [.N, .C]], tries [print 1 0 [-1, 0] [.C, .P]]]

/-- Test_D2_PointData_C.cpp:90-92 -/
def d2cConst (junk : Nat → Ptr) : List Prog :=
  [op (.makeSized 4 ⟨1, [.center, .center]⟩ junk [⟨0, 5, 0⟩, ⟨0, 10, 0⟩]), tries [print 4 0 [0, 0] cc], tries [print 4 0 [0, 0] cc]]

/-- Test_D2_PointData_C.cpp:96-167 -/
def d2cRest : List Prog :=
  [over 2 [.ALL, .ALL] (some (0, 2)) [] id
     [get 1 (fun s => (0, [s.i, s.j])) cc, put 2 (fun s => (s.n, [s.i, s.j])) cc fun s => s.t.headD 0 * (s.n + 1) + 5],
   data 2,
   over 1 [.N, .ALL] none [1] id
     [put 1 (fun s => (0, [-1, s.i])) cc fun _ => 1, ask 1 (fun _ => .last 0 .ALL), put 1 (fun s => (0, [s.ans, s.i])) cc fun _ => 2],
   over 1 [.IN, .N] none [0] id
     [put 1 (fun s => (0, [s.i, -1])) cc fun _ => 3, ask 1 (fun _ => .last 1 .ALL), put 1 (fun s => (0, [s.i, s.ans])) cc fun _ => 4],
   data 1,
   over 2 [.N, .ALL] (some (0, 2)) [1] id
     [put 2 (fun s => (s.n, [-1, s.i])) cc fun s => 10 + s.n + s.i, ask 2 (fun _ => .last 0 .ALL),
      put 2 (fun s => (s.n, [s.ans, s.i])) cc fun s => 20 + s.n + s.i],
   over 2 [.IN, .ALL] (some (0, 2)) [0] id
     [put 2 (fun s => (s.n, [s.i, -1])) cc fun s => 30 + s.n + s.i, ask 2 (fun _ => .last 1 .ALL),
      put 2 (fun s => (s.n, [s.i, s.ans])) cc fun s => 40 + s.n + s.i],
   data 2,
   .set fun s => { s with max := 10000 },
   reduced 1 [.IN, .IN] none [] id maxRef (fun x xx => if x < xx then x else xx) [get 1 (fun s => (0, [s.i, s.j])) cc] (fun s => s.t.headD 0 - 10),
   .set fun s => { s with out := s.out ++ [["min ", text s.max]], max := 0 },
   reduced 2 [.IN, .IN] (some (0, 2)) [] id maxRef (fun x xx => if x > xx then x else xx) [get 2 (fun s => (s.n, [s.i, s.j])) cc] (fun s => s.t.headD 0),
   .set fun s => { s with out := s.out ++ [["max ", text s.max]], sum := 0 },
   reduced 1 [.IN, .IN] none [1] id sumRef (fun x xx => xx + x) [get 1 (fun s => (0, [-1, s.i])) cc, get 1 (fun s => (0, [0, s.i])) cc] (fun s => s.t.sum),
   .set fun s => { s with out := s.out ++ [["sum_1 ", text s.sum]], sum := 0 },
   reduced 2 [.IN, .IN] (some (0, 2)) [1] id sumRef (fun x xx => xx + x)
     [get 2 (fun s => (s.n, [-1, s.i])) cc, get 2 (fun s => (s.n, [0, s.i])) cc] (fun s => s.t.sum),
   .set fun s => { s with out := s.out ++ [["sum_2 ", text s.sum]] },
   data 2,
   tries [op (.copy 2 2 (.tagsFl [.IN, .IN] [.IN, .P] [.P, .P]))], data 2]

def d2c (junk : Nat → Ptr) : Prog := block (d2cBegin junk ++ [d2cBig] ++ d2cLife ++ d2cFill ++ d2cConst junk ++ d2cRest)
/-- without line 41 -/
def d2cNoBig (junk : Nat → Ptr) : Prog := block (d2cBegin junk ++ d2cLife ++ d2cFill ++ d2cConst junk ++ d2cRest)
/-- without lines 41 and 90-92 -/
def d2c' (junk : Nat → Ptr) : Prog := block (d2cBegin junk ++ d2cLife ++ d2cFill ++ d2cRest)

end Verif.PointTest
