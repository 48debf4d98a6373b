import Verif.Model.PointTests
/-!
# Test_D2_PointData_H.cpp

Simplifications: those of `Verif.Model.PointTests`.  An element that was never assigned is printed as `?` by `disp_data`.
-/
namespace Verif.PointTest
open Spec (Ext)

/-- Test_D2_PointData_H.cpp:21-38; `x0` is not used; `big` is 26843545 and `big * big` wraps to 654982513 -/
def d2hBegin (junk : Nat → Ptr) : List Prog :=
  [op (.make 0 ⟨1, [.center, .center]⟩ junk), op (.make 1 ⟨1, [.center, .half]⟩ junk), op (.make 2 ⟨1, [.half, .center]⟩ junk),
   op (.make 3 ⟨2, [.half, .half]⟩ junk),
   tries [op (.alloc 1 [⟨0, 0, 0⟩, ⟨0, 0, 0⟩])], tries [op (.alloc 1 [⟨0, 0, 0⟩, ⟨1, 0, 0⟩])],
   .set fun s => { s with out := s.out ++ [["654982513"]] }]

/-- Test_D2_PointData_H.cpp:39 -/
def d2hBig : Prog := tries [op (.alloc 1 [⟨0, 26843545, 0⟩, ⟨1, 26843545, 0⟩])]

/-- Test_D2_PointData_H.cpp:40-50 -/
def d2hLife : List Prog :=
  [tries [op (.alloc 1 e2)], tries [op (.alloc 1 e2)],
   tries [op (.realloc 1 e1)], tries [op (.realloc 2 e1)],
   tries [op (.clear 2)], tries [op (.clear 3), op (.alloc 3 e1)], tries [op (.alloc 2 e1), op (.alloc 3 e1)]]

/-- the nine loops over the zones of `x`, with `N` components or without a loop over the components -/
def zones2 (x : Nat) (N : Option (Nat × Nat)) (fs : List FL) : List Prog :=
  let at_ (t0 t1 : RA) (v : Vars → ℚ) : Prog := over x [t0, t1] N [] id [put x (fun s => (s.n, [s.i, s.j])) fs v]
  [at_ .IN .IN fun s => s.i + s.j + s.n, at_ .N .N fun s => 1 + s.n, at_ .N .P fun s => 2 + s.n, at_ .P .N fun s => 3 + s.n, at_ .P .P fun s => 4 + s.n,
   at_ .N .IN fun s => 100 + s.j + s.n, at_ .P .IN fun s => 200 + s.j + s.n, at_ .IN .N fun s => s.i + 300 + s.n,
   at_ .IN .P fun s => s.i + 400 + s.n]

/-- Test_D2_PointData_H.cpp:57-67; the component of `x1` is 0, which is what the variable `n` of a loop without components has -/
def d2hX1 : List Prog :=
  zones2 1 none [.C, .N] ++
  [over 1 [.ALL, .ALL] none [0] id [ask 1 (fun _ => .last 1 .ALL), put 1 (fun s => (0, [s.i, s.ans])) [.C, .P] fun _ => 11], data 1]

/-- Test_D2_PointData_H.cpp:71-81 -/
def d2hX2 : List Prog :=
  zones2 2 none [.N, .C] ++
  [over 2 [.ALL, .ALL] none [1] id [ask 2 (fun _ => .last 0 .ALL), put 2 (fun s => (0, [s.ans, s.i])) [.P, .C] fun _ => 11], data 2]

/-- Test_D2_PointData_H.cpp:85-96 -/
def d2hX3 : List Prog :=
  zones2 3 (some (0, 2)) [.N, .N] ++
  [over 3 [.ALL, .ALL] (some (0, 2)) [0] id [ask 3 (fun _ => .last 1 .ALL), put 3 (fun s => (s.n, [s.i, s.ans])) [.N, .P] fun s => 11 + s.n],
   over 3 [.ALL, .ALL] (some (0, 2)) [1] id [ask 3 (fun _ => .last 0 .ALL), put 3 (fun s => (s.n, [s.ans, s.i])) [.P, .N] fun s => 22 + s.n],
   data 3]

/-- Test_D2_PointData_H.cpp:99-110 -/
def d2hReads : List Prog :=
  [tries [print 1 0 [-1, 0] [.C, .P]], tries [print 1 0 [-2, 0] [.C, .P]], tries [print 1 0 [7, 0] [.C, .P]], tries [print 1 0 [0, -2] [.C, .P]],
   tries [print 1 0 [0, 13] [.C, .P]], tries [print 1 0 [7, 13] [.C, .P]], tries [print 1 0 [-1, 0] [.N, .N]], tries [print 1 0 [-1, 0] [.C, .C]],
   tries [print 2 0 [-1, 0] [.N, .N]], tries [print 2 0 [-1, 0] [.C, .C]], tries [print 3 0 [-1, 0] [.C, .N]], tries [print 3 0 [-1, 0] [.N, .C]]]

/-- Test_D2_PointData_H.cpp:111-113; `xc(0, 0, 0)` has the flags `FL::C` -/
def d2hConst (junk : Nat → Ptr) : List Prog :=
  [op (.makeSized 4 ⟨1, [.center, .half]⟩ junk [⟨0, 5, 0⟩, ⟨0, 10, 0⟩]), tries [print 4 0 [0, 0] [.C, .N]], tries [print 4 0 [0, 0] [.C, .C]]]

/-- Test_D2_PointData_H.cpp:114-152 -/
def d2hRest : List Prog :=
  [tries [print 3 0 [-2, 0] [.N, .N]], tries [print 3 0 [7, 0] [.P, .N]], tries [print 3 0 [0, -2] [.N, .N]], tries [print 3 0 [0, 13] [.N, .P]],
   .set fun s => { s with max := 10000 },
   reduced 1 [.IN, .IN] none [] id maxRef (fun x xx => if x < xx then x else xx) [get 1 (fun s => (0, [s.i, s.j])) [.C, .P]] (fun s => s.t.headD 0 - 10),
   .set fun s => { s with out := s.out ++ [["min ", text s.max]], max := 0 },
   reduced 3 [.IN, .IN] (some (0, 2)) [] id maxRef (fun x xx => if x > xx then x else xx) [get 3 (fun s => (s.n, [s.i, s.j])) [.P, .P]] (fun s => s.t.headD 0),
   .set fun s => { s with out := s.out ++ [["max ", text s.max]], sum := 0 },
   reduced 2 [.IN, .IN] none [1] id sumRef (fun x xx => xx + x)
     [get 2 (fun s => (0, [0, s.i])) [.N, .C], get 2 (fun s => (0, [0, s.i])) [.P, .C]] (fun s => s.t.sum),
   .set fun s => { s with out := s.out ++ [["sum_1 ", text s.sum]], sum := 0 },
   reduced 3 [.ALL, .ALL] (some (0, 2)) [1] id sumRef (fun x xx => xx + x)
     [get 3 (fun s => (s.n, [-1, s.i])) [.N, .N], get 3 (fun s => (s.n, [-1, s.i])) [.N, .P]] (fun s => s.t.sum),
   .set fun s => { s with out := s.out ++ [["sum_2 ", text s.sum]] },
   data 2,
   tries [op (.copy 2 2 (.tagsFl [.IN, .IN] [.P, .IN] [.P, .P]))], tries [op (.copy 2 2 (.tagsFl [.IN, .IN] [.P, .IN] [.N, .P]))], data 2]

def d2h (junk : Nat → Ptr) : Prog := block (d2hBegin junk ++ [d2hBig] ++ d2hLife ++ d2hX1 ++ d2hX2 ++ d2hX3 ++ d2hReads ++ d2hConst junk ++ d2hRest)
/-- without line 39 -/
def d2hNoBig (junk : Nat → Ptr) : Prog := block (d2hBegin junk ++ d2hLife ++ d2hX1 ++ d2hX2 ++ d2hX3 ++ d2hReads ++ d2hConst junk ++ d2hRest)
/-- without lines 39 and 111-113 -/
def d2h' (junk : Nat → Ptr) : Prog := block (d2hBegin junk ++ d2hLife ++ d2hX1 ++ d2hX2 ++ d2hX3 ++ d2hReads ++ d2hRest)

end Verif.PointTest
