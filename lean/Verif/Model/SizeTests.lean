import Verif.Model.Attempts
import Verif.Model.D0
import Verif.Model.D2
import Verif.Model.D3
import Verif.Model.What
import Mathlib.Data.Rat.Defs
/-!
# The test programs of sizes and ranges and of `D0::PointData` — Test_D{1,2,3}_SizeT.cpp, Test_D{1,2,3}_RangeT.cpp, Test_D0_PointData_C.cpp

A program is the list of its statements.  `out` is stream 0 and `err` is stream 1; what `disp_env` writes (lines 18-19 of each file, 22-23 of the last) is in front of it.
Simplifications: of `out << f() << " " << g()` all values are computed in front of the first text (C++ before 2017 leaves the order open, and in these programs
the first value is the one that throws); the numbers of Test_D0_PointData_C.cpp are exact and printed as integers or halves, as all of them are.
-/
namespace Verif.SizeTest
open Tec

/-- a statement: its action gives the text written to `out` -/
inductive Line (σ : Type)
  | plain (act : M σ String)
  /-- `exec_except([&]() { act }, out, err)` -/
  | tries (act : M σ String)

/-- an action, then its text to `out` -/
def say {σ : Type} (act : M σ String) : M (Sp.Prog σ) Unit := fun s =>
  match act s.1 with
  | .ok t v => Sp.put 0 (lit t) (v, s.2)
  | .err e v => .err e (v, s.2)
  | .ub u => .ub u

/-- the statements one after the other; `now k` and `r k` are the answers of `get_time()` and `std::rand()` at call `k` of `exec_except` -/
def run {σ : Type} (now : Nat → Str) (r : Nat → Nat) : Nat → List (Line σ) → M (Sp.Prog σ) Unit
  | _, [] => pure ()
  | k, .plain a :: l => do
    say a
    run now r k l
  | k, .tries a :: l => do
    Sp.exec_except stdCatch (now k) (r k) (say a) 0 1
    run now r (k + 1) l

section
variable {σ : Type}
/-- `out << endl` -/
def line : M σ String := pure "\n"
/-- `out << t << endl` -/
def text (o : Out String) : M σ String := M.lift (o >>= fun t => .ok (t ++ "\n"))
/-- `out << x << endl` -/
def number (o : Out Int) : M σ String := M.lift (o >>= fun x => .ok (toString x ++ "\n"))
/-- `out << b << " " << e << " " << z << endl` -/
def three (b e : Out Int) (z : Out Nat) : M σ String := M.lift do
  let b ← b
  let e ← e
  let z ← z
  .ok (toString b ++ " " ++ toString e ++ " " ++ toString z ++ "\n")
/-- a member function that writes nothing -/
def checked (o : Out Unit) : M σ String := M.lift (o >>= fun _ => .ok "")
end

/-- the variables of the programs about ranges -/
structure Ranges (R : Type) where
  a : R
  b : R
  c : R

section
variable {R : Type}
def ask (f : Ranges R → Out Int) : M (Ranges R) String := fun v => number (f v) v
def see (f : Ranges R → Out String) : M (Ranges R) String := fun v => text (f v) v
def inside (f : Ranges R → Out Unit) : M (Ranges R) String := fun v => checked (f v) v
/-- `b.f(..)` -/
def changeB (f : R → Out R) : M (Ranges R) String := fun v =>
  match f v.b with
  | .ok b => .ok "" { v with b }
  | .err e => .err e v
  | .ub u => .ub u
/-- `c.f(..)` -/
def changeC (f : R → Out R) : M (Ranges R) String := fun v =>
  match f v.c with
  | .ok c => .ok "" { v with c }
  | .err e => .err e v
  | .ub u => .ub u
/-- `RangeT c = b` -/
def copyB : M (Ranges R) String := fun v => .ok "" { v with c := v.b }
end

/-! ## `D1` -/
section
open D1

/-- Test_D1_SizeT.cpp:21 -/
def d1size1 : SizeT := {}
/-- Test_D1_SizeT.cpp:23 -/
def d1size2 : SizeT := .new 2 10 3
/-- Test_D1_SizeT.cpp:51 -/
def d1size3 : SizeT := .new 1 5 1
/-- Test_D1_SizeT.cpp:21-65 -/
def d1size (chk : Bool) : List (Line Unit) :=
  [.plain (text (.ok d1size1.disp)), .plain (text (.ok d1size2.disp)), .plain line,
   .tries (number (d1size1.in' chk 0)), .tries (number (d1size1.n chk 0)), .tries (number (d1size1.p chk 0)), .tries (number (d1size2.in' chk 0)),
   .tries (number (d1size2.n chk 0)), .tries (number (d1size2.p chk 0)), .tries (number (d1size2.in' chk 1)), .plain line,
   .tries (three (d1size2.begin_ chk 0 .ALL) (d1size2.end_ chk 0 .ALL) (d1size2.size chk 0 .ALL)),
   .tries (three (d1size2.begin_ chk 0 .IN) (d1size2.end_ chk 0 .IN) (d1size2.size chk 0 .IN)),
   .tries (three (d1size2.begin_ chk 0 .N) (d1size2.end_ chk 0 .N) (d1size2.size chk 0 .N)),
   .tries (three (d1size2.begin_ chk 0 .P) (d1size2.end_ chk 0 .P) (d1size2.size chk 0 .P)),
   .tries (three (d1size2.begin_ chk 1 .P) (d1size2.end_ chk 1 .P) (d1size2.size chk 1 .P)), .tries (number (d1size2.bound chk 0 .IN .N)),
   .tries (number (d1size2.bound chk 0 .IN .P)), .plain line,
   .plain (text (d1size2.range chk .ALL >>= fun r => r.disp chk)), .plain (text (d1size2.range chk .IN >>= fun r => r.disp chk)),
   .plain (text (d1size2.range chk .N >>= fun r => r.disp chk)), .plain (text (d1size2.range chk .P >>= fun r => r.disp chk)), .plain line,
   .plain (text (.ok d1size2.disp)), .plain (text (.ok d1size3.disp)), .plain line,
   .tries (checked d1size1.check), .tries (checked d1size2.check), .tries (checked (SizeT.new 1 0 0).check), .plain line,
   .plain (text (.ok d1size2.disp)), .plain (number (d1size2.mirror chk 0 .N (-2))), .plain (number (d1size2.mirror chk 0 .P 11)),
   .plain (number (d1size2.periodic chk 0 .N (-2))), .plain (number (d1size2.periodic chk 0 .P 11))]

/-- Test_D1_RangeT.cpp:21, 23; `c` is made in the course of the program -/
def d1range0 : Ranges RangeT := ⟨{}, .new 2 10, {}⟩
/-- Test_D1_RangeT.cpp:21-64 -/
def d1range (chk : Bool) : List (Line (Ranges RangeT)) :=
  [.plain (see fun v => v.a.disp chk), .plain (see fun v => v.b.disp chk), .plain line,
   .tries (ask fun v => v.a.begin_ chk 0), .tries (ask fun v => v.a.end_ chk 0), .tries (ask fun v => v.a.size chk 0),
   .tries (ask fun v => v.a.last chk 0), .plain line, .tries (ask fun v => v.b.begin_ chk 0), .tries (ask fun v => v.b.end_ chk 0),
   .tries (ask fun v => v.b.size chk 0), .tries (ask fun v => v.b.last chk 0), .tries (ask fun v => v.b.bound chk 0 .N),
   .tries (ask fun v => v.b.bound chk 0 .P), .plain line, .tries (ask fun v => v.b.size chk 1), .plain line,
   .plain (see fun v => v.b.disp chk), .plain (changeB fun r => r.cut_head 1), .plain (see fun v => v.b.disp chk),
   .plain (changeB fun r => r.cut_tail 1), .plain (see fun v => v.b.disp chk), .plain copyB, .plain (changeC fun r => r.tran 2),
   .plain (see fun v => v.c.disp chk), .plain (see fun v => v.b.overlap chk v.c >>= fun r => r.disp chk),
   .tries (changeC (fun r => r.tran 6) >>= fun _ => see fun v => v.b.overlap chk v.c >>= fun r => r.disp chk),
   .tries (changeC (fun r => r.tran (-16)) >>= fun _ => see fun v => v.b.overlap chk v.c >>= fun r => r.disp chk),
   .tries (changeC (fun r => r.tran 1) >>= fun _ => see fun v => v.b.overlap chk v.c >>= fun r => r.disp chk), .plain line,
   .tries (inside fun v => v.b.check_range' chk 0 2), .tries (inside fun v => v.b.check_range' chk 0 11),
   .tries (inside fun v => v.b.check_range' chk 0 10),
   .tries (inside fun v => v.b.check_range chk 0 .half 2 (FL.offset .N)), .tries (inside fun v => v.b.check_range chk 0 .half 2 (FL.offset .P)),
   .tries (inside fun v => v.b.check_range chk 0 .half 11 (FL.offset .N)), .tries (inside fun v => v.b.check_range chk 0 .half 11 (FL.offset .P)),
   .plain line]

end

/-! ## `D2` -/
section
open D2

/-- Test_D2_SizeT.cpp:21 -/
def d2size1 : SizeT := {}
/-- Test_D2_SizeT.cpp:23 -/
def d2size2 : SizeT := .new 2 10 3 1 15 2
/-- Test_D2_SizeT.cpp:21-65 -/
def d2size (chk : Bool) : List (Line Unit) :=
  [.plain (text (.ok d2size1.disp)), .plain (text (.ok d2size2.disp)), .plain line,
   .tries (number (d2size1.in' chk 0)), .tries (number (d2size1.n chk 0)), .tries (number (d2size1.p chk 0)), .tries (number (d2size2.in' chk 0)),
   .tries (number (d2size2.n chk 0)), .tries (number (d2size2.p chk 0)), .tries (number (d2size2.in' chk 1)), .tries (number (d2size2.n chk 1)),
   .tries (number (d2size2.p chk 1)), .tries (number (d2size2.in' chk 2)), .plain line,
   .tries (three (d2size2.begin_ chk 0 .ALL) (d2size2.end_ chk 0 .ALL) (d2size2.size chk 0 .ALL)),
   .tries (three (d2size2.begin_ chk 0 .IN) (d2size2.end_ chk 0 .IN) (d2size2.size chk 0 .IN)),
   .tries (three (d2size2.begin_ chk 0 .N) (d2size2.end_ chk 0 .N) (d2size2.size chk 0 .N)),
   .tries (three (d2size2.begin_ chk 0 .P) (d2size2.end_ chk 0 .P) (d2size2.size chk 0 .P)),
   .tries (three (d2size2.begin_ chk 1 .ALL) (d2size2.end_ chk 1 .ALL) (d2size2.size chk 1 .ALL)),
   .tries (three (d2size2.begin_ chk 1 .IN) (d2size2.end_ chk 1 .IN) (d2size2.size chk 1 .IN)),
   .tries (three (d2size2.begin_ chk 1 .N) (d2size2.end_ chk 1 .N) (d2size2.size chk 1 .N)),
   .tries (three (d2size2.begin_ chk 1 .P) (d2size2.end_ chk 1 .P) (d2size2.size chk 1 .P)),
   .tries (three (d2size2.begin_ chk 2 .P) (d2size2.end_ chk 2 .P) (d2size2.size chk 2 .P)), .plain line,
   .plain (text (d2size2.range chk .ALL .ALL >>= fun r => r.disp chk)), .plain (text (d2size2.range chk .IN .N >>= fun r => r.disp chk)),
   .plain (text (d2size2.range chk .N .ALL >>= fun r => r.disp chk)), .plain (text (d2size2.range chk .P .IN >>= fun r => r.disp chk)), .plain line,
   .tries (checked d2size1.check), .tries (checked d2size2.check), .tries (checked (SizeT.new 0 5 0 1 0 0).check), .plain line,
   .plain (text (.ok d2size2.disp)), .plain (number (d2size2.mirror chk 1 .N (-2))), .plain (number (d2size2.mirror chk 1 .P 11)),
   .plain (number (d2size2.periodic chk 1 .N (-2))), .plain (number (d2size2.periodic chk 1 .P 11))]

/-- Test_D2_RangeT.cpp:21, 23; `c` is made in the course of the program -/
def d2range0 : Ranges RangeT := ⟨{}, .new 0 2 10 6, {}⟩
/-- Test_D2_RangeT.cpp:21-61 -/
def d2range (chk : Bool) : List (Line (Ranges RangeT)) :=
  [.plain (see fun v => v.a.disp chk), .plain (see fun v => v.b.disp chk), .plain line,
   .tries (ask fun v => v.a.begin_ chk 0), .tries (ask fun v => v.a.end_ chk 0), .tries (ask fun v => v.a.size chk 0), .plain line,
   .tries (ask fun v => v.b.begin_ chk 0), .tries (ask fun v => v.b.end_ chk 0), .tries (ask fun v => v.b.size chk 0),
   .tries (ask fun v => v.b.begin_ chk 1), .tries (ask fun v => v.b.end_ chk 1), .tries (ask fun v => v.b.size chk 1),
   .tries (ask fun v => v.b.last chk 1), .tries (ask fun v => v.b.bound chk 1 .N), .tries (ask fun v => v.b.bound chk 1 .P),
   .tries (ask fun v => v.b.bound chk 2 .P), .plain line,
   .plain (see fun v => v.b.disp chk), .plain (changeB (fun r => r.cut_head (-1) 1) >>= fun _ => see fun v => v.b.disp chk),
   .plain (changeB (fun r => r.cut_tail (-1) (-2)) >>= fun _ => see fun v => v.b.disp chk), .plain copyB,
   .plain (changeC (fun r => r.tran 2 1) >>= fun _ => see fun v => v.c.disp chk), .plain (see fun v => v.b.overlap chk v.c >>= fun r => r.disp chk),
   .tries (changeC (fun r => r.tran 0 6) >>= fun _ => see fun v => v.b.overlap chk v.c >>= fun r => r.disp chk),
   .tries (changeC (fun r => r.tran 0 (-14)) >>= fun _ => see fun v => v.b.overlap chk v.c >>= fun r => r.disp chk),
   .tries (changeC (fun r => r.tran 0 1) >>= fun _ => see fun v => v.b.overlap chk v.c >>= fun r => r.disp chk), .plain line,
   .tries (inside fun v => v.b.check_range chk 1 .half 10 (FL.offset .N)), .tries (inside fun v => v.b.check_range chk 1 .half 10 (FL.offset .P)),
   .tries (inside fun v => v.b.check_range chk 1 .half 18 (FL.offset .N)), .tries (inside fun v => v.b.check_range chk 1 .half 18 (FL.offset .P)),
   .tries (inside fun v => v.b.check_range' chk 1 10), .tries (inside fun v => v.b.check_range' chk 1 18),
   .tries (inside fun v => v.b.check_range' chk 2 15)]

end

/-! ## `D3` -/
section
open D3

/-- Test_D3_SizeT.cpp:21 -/
def d3size1 : SizeT := {}
/-- Test_D3_SizeT.cpp:23 -/
def d3size2 : SizeT := .new 1 3 1 2 10 3 1 15 2
/-- Test_D3_SizeT.cpp:21-72 -/
def d3size (chk : Bool) : List (Line Unit) :=
  [.plain (text (.ok d3size1.disp)), .plain (text (.ok d3size2.disp)), .plain line,
   .tries (number (d3size1.in' chk 0)), .tries (number (d3size1.n chk 0)), .tries (number (d3size1.p chk 0)), .tries (number (d3size2.in' chk 0)),
   .tries (number (d3size2.n chk 0)), .tries (number (d3size2.p chk 0)), .tries (number (d3size2.in' chk 1)), .tries (number (d3size2.n chk 1)),
   .tries (number (d3size2.p chk 1)), .tries (number (d3size2.in' chk 2)), .tries (number (d3size2.n chk 2)), .tries (number (d3size2.p chk 2)),
   .tries (number (d3size2.in' chk 3)), .plain line,
   .tries (three (d3size2.begin_ chk 0 .ALL) (d3size2.end_ chk 0 .ALL) (d3size2.size chk 0 .ALL)),
   .tries (three (d3size2.begin_ chk 0 .IN) (d3size2.end_ chk 0 .IN) (d3size2.size chk 0 .IN)),
   .tries (three (d3size2.begin_ chk 0 .N) (d3size2.end_ chk 0 .N) (d3size2.size chk 0 .N)),
   .tries (three (d3size2.begin_ chk 0 .P) (d3size2.end_ chk 0 .P) (d3size2.size chk 0 .P)),
   .tries (three (d3size2.begin_ chk 1 .ALL) (d3size2.end_ chk 1 .ALL) (d3size2.size chk 1 .ALL)),
   .tries (three (d3size2.begin_ chk 1 .IN) (d3size2.end_ chk 1 .IN) (d3size2.size chk 1 .IN)),
   .tries (three (d3size2.begin_ chk 1 .N) (d3size2.end_ chk 1 .N) (d3size2.size chk 1 .N)),
   .tries (three (d3size2.begin_ chk 1 .P) (d3size2.end_ chk 1 .P) (d3size2.size chk 1 .P)),
   .tries (three (d3size2.begin_ chk 2 .ALL) (d3size2.end_ chk 2 .ALL) (d3size2.size chk 2 .ALL)),
   .tries (three (d3size2.begin_ chk 2 .IN) (d3size2.end_ chk 2 .IN) (d3size2.size chk 2 .IN)),
   .tries (three (d3size2.begin_ chk 2 .N) (d3size2.end_ chk 2 .N) (d3size2.size chk 2 .N)),
   .tries (three (d3size2.begin_ chk 2 .P) (d3size2.end_ chk 2 .P) (d3size2.size chk 2 .P)),
   .tries (three (d3size2.begin_ chk 3 .P) (d3size2.end_ chk 3 .P) (d3size2.size chk 3 .P)), .plain line,
   .plain (text (d3size2.range chk .ALL .ALL .ALL >>= fun r => r.disp chk)), .plain (text (d3size2.range chk .IN .P .IN >>= fun r => r.disp chk)),
   .plain (text (d3size2.range chk .N .ALL .P >>= fun r => r.disp chk)), .plain (text (d3size2.range chk .P .IN .P >>= fun r => r.disp chk)),
   .plain line,
   .tries (checked d3size1.check), .tries (checked d3size2.check), .tries (checked (SizeT.new 0 5 0 0 2 0 1 0 0).check), .plain line,
   .plain (text (.ok d3size2.disp)), .plain (number (d3size2.mirror chk 2 .N (-2))), .plain (number (d3size2.mirror chk 2 .P 11)),
   .plain (number (d3size2.periodic chk 2 .N (-2))), .plain (number (d3size2.periodic chk 2 .P 11))]

/-- Test_D3_RangeT.cpp:21, 23; `c` is made in the course of the program -/
def d3range0 : Ranges RangeT := ⟨{}, .new 2 6 10 1 0 20, {}⟩
/-- Test_D3_RangeT.cpp:21-65 -/
def d3range (chk : Bool) : List (Line (Ranges RangeT)) :=
  [.plain (see fun v => v.a.disp chk), .plain (see fun v => v.b.disp chk), .plain line,
   .tries (ask fun v => v.a.begin_ chk 0), .tries (ask fun v => v.a.end_ chk 0), .tries (ask fun v => v.a.size chk 0), .plain line,
   .tries (ask fun v => v.b.begin_ chk 0), .tries (ask fun v => v.b.end_ chk 0), .tries (ask fun v => v.b.size chk 0),
   .tries (ask fun v => v.b.begin_ chk 1), .tries (ask fun v => v.b.end_ chk 1), .tries (ask fun v => v.b.size chk 1),
   .tries (ask fun v => v.b.begin_ chk 2), .tries (ask fun v => v.b.end_ chk 2), .tries (ask fun v => v.b.size chk 2),
   .tries (ask fun v => v.b.last chk 2), .tries (ask fun v => v.b.bound chk 2 .N), .tries (ask fun v => v.b.bound chk 2 .P),
   .tries (ask fun v => v.b.bound chk 3 .P), .plain line, .tries (ask fun v => v.b.size chk 3),
   .plain (see fun v => v.b.disp chk), .plain (changeB (fun r => r.cut_head (-1) (-3) 1) >>= fun _ => see fun v => v.b.disp chk),
   .plain (changeB (fun r => r.cut_tail (-1) (-3) (-2)) >>= fun _ => see fun v => v.b.disp chk), .plain copyB,
   .plain (changeC (fun r => r.tran 2 1 0) >>= fun _ => see fun v => v.c.disp chk),
   .plain (see fun v => v.b.overlap chk v.c >>= fun r => r.disp chk),
   .tries (changeC (fun r => r.tran 0 0 21) >>= fun _ => see fun v => v.b.overlap chk v.c >>= fun r => r.disp chk),
   .tries (changeC (fun r => r.tran 0 0 (-42)) >>= fun _ => see fun v => v.b.overlap chk v.c >>= fun r => r.disp chk),
   .tries (changeC (fun r => r.tran 0 0 1) >>= fun _ => see fun v => v.b.overlap chk v.c >>= fun r => r.disp chk), .plain line,
   .tries (inside fun v => v.b.check_range chk 2 .half 0 (FL.offset .N)), .tries (inside fun v => v.b.check_range chk 2 .half 0 (FL.offset .P)),
   .tries (inside fun v => v.b.check_range chk 2 .half 22 (FL.offset .N)), .tries (inside fun v => v.b.check_range chk 2 .half 22 (FL.offset .P)),
   .tries (inside fun v => v.b.check_range' chk 2 0), .tries (inside fun v => v.b.check_range' chk 2 22),
   .tries (inside fun v => v.b.check_range' chk 2 21)]

end

/-! ## `D0` -/

/-- the variables of Test_D0_PointData_C.cpp -/
structure Points where
  x1 : D0.PD ℚ := ⟨fun _ => none⟩
  x2 : D0.PD ℚ := ⟨fun _ => none⟩
  xc : D0.PD ℚ := ⟨fun _ => none⟩
  sum : ℚ := 0

/-- one of the arrays -/
inductive Which | x1 | x2 | xc

def Points.get (v : Points) : Which → D0.PD ℚ
  | .x1 => v.x1
  | .x2 => v.x2
  | .xc => v.xc
def Points.set (v : Points) (o : D0.PD ℚ) : Which → Points
  | .x1 => { v with x1 := o }
  | .x2 => { v with x2 := o }
  | .xc => { v with xc := o }

/-- a member function of an array -/
def on {α : Type} (x : Which) (m : M (D0.PD ℚ) α) : M Points α := fun v =>
  match m (v.get x) with
  | .ok a o => .ok a (v.set o x)
  | .err e o => .err e (v.set o x)
  | .ub u => .ub u

/-- the text of an integer or a half that is not negative -/
def num (v : ℚ) : String := if v.den = 1 then toString v.num else toString (v.num / 2) ++ ".5"

/-- the value of `x(n)`; a value that was never assigned must not be used -/
def value (chk : Bool) (x : Which) (N n : Nat) : M Points ℚ := do
  let r ← on x (D0.PD.at_ chk N n)
  let v ← on x (D0.PD.load r)
  match v with
  | some v => pure v
  | none => M.undef .uninit

/-- `x(n) = v` -/
def assign (chk : Bool) (x : Which) (N n : Nat) (v : ℚ) : M Points Unit := do
  let r ← on x (D0.PD.at_ chk N n)
  on x (D0.PD.store r (some v))

/-- `out << x.disp_data() << endl` -/
def data (x : Which) (N : Nat) : M Points String := fun v =>
  match D0.PD.disp_data N (fun o => match o with | some q => num q | none => "?") (v.get x) [] with
  | .ok _ t => .ok (String.join t ++ "\n") v
  | .err e _ => .err e v
  | .ub u => .ub u

/-- Test_D0_PointData_C.cpp:25-42; `tf` and `td` are the names of `float` and `double` -/
def d0begin (chk : Bool) (tf td : String) : List (Line Points) :=
  [.plain (on .x1 (D0.PD.ctor 1) >>= fun _ => text (.ok (D0.PD.disp 1 tf))), .plain (on .x2 (D0.PD.ctor 10) >>= fun _ => text (.ok (D0.PD.disp 10 td))), .plain line,
   .plain (PD_For_N 0 1 (fun n => assign chk .x1 1 n 10) >>= fun _ => data .x1 1),
   .plain (PD_For_N 0 10 (fun n => assign chk .x2 10 n n) >>= fun _ => data .x2 10), .plain line,
   .tries (value chk .x1 1 0 >>= fun q => text (.ok (num q))), .tries (value chk .x1 1 1 >>= fun q => text (.ok (num q)))]

/-- Test_D0_PointData_C.cpp:44-45 -/
def d0const (chk : Bool) : List (Line Points) :=
  [.plain (on .xc (D0.PD.ctor 1) >>= fun _ => pure ""), .tries (value chk .xc 1 0 >>= fun q => text (.ok (num q)))]

/-- Test_D0_PointData_C.cpp:46-52 -/
def d0end (chk : Bool) : List (Line Points) :=
  [.plain line,
   .plain (PD_Reduce_N 0 10 ⟨Points.sum, fun q v => { v with sum := q }⟩ (fun x xx => pure (xx + x)) (fun n => value chk .x2 10 n >>= fun q => pure (q / 2)) >>= fun _ =>
     fun v => text (.ok (num v.sum)) v)]

def d0 (chk : Bool) (tf td : String) : List (Line Points) := d0begin chk tf td ++ d0const chk ++ d0end chk
/-- without lines 44-45 -/
def d0' (chk : Bool) (tf td : String) : List (Line Points) := d0begin chk tf td ++ d0end chk

end Verif.SizeTest
