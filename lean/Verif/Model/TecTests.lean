import Verif.Model.Export
import Verif.Model.Pointwise
import Verif.Model.Reduction
import Verif.Model.SaveLoad
import Verif.Model.Attempts
import Verif.Model.Tec.File
/-!
# Test_D1_tecfile.cpp, Test_D2_tecfile.cpp, Test_D3_tecfile.cpp

The three programs have the same form: two arrays `x` (name 0) and `u` or `y` (name 1) of the same sizes, the description of a zone, one loop over
all points, `write_plt`, and an array `uu` or `z` (name 2) without virtual points into which the variables are read.

The arithmetic of `double` is a type with `/`, `+`, `*`; `ofI`, `ofU` are the conversions from `int` and `unsigned`.
Simplifications: the sizes are arbitrary; `x.size().size(d, RA::IN) - 1` in the loop body, an `unsigned`, is
computed once.  Not modelled: the environment report, `write_echo`, `write_xml` and `disp_data` (described on their own).
-/
namespace Verif.TecTests
open Tec
open Spec (Ext)
variable {V : Type}

structure Prog (V : Type) where
  D : Nat
  nx : Nat
  nu : Nat
  names : List Str
  setUp : List SetUp
  body : List (PAssign V)
  /-- whether `set_echo_mode("full", "full")` is called -/
  full : Bool

/-- `static_cast<double>(i) / (x.size().size(d, RA::IN) - 1)` -/
def coord [Div V] (ofI : Int → V) (ofU : Nat → V) (es : List Ext) (d : Nat) : PExpr V :=
  .bin (· / ·) (.conv d ofI) (.num (ofU (((es.getD d ⟨0, 0, 0⟩).i + 4294967295) % 4294967296)))

/-- Test_D1_tecfile.cpp:25-45 -/
def prog1 [Div V] [Mul V] (ofI : Int → V) (ofU : Nat → V) (es : List Ext) : Prog V where
  D := 1
  nx := 1
  nu := 2
  names := [lit "x", lit "y1", lit "y2"]
  setUp := [.dims 0 1 0, .data 0 0, .data 1 0, .data 1 1]
  body := [⟨0, 0, coord ofI ofU es 0⟩, ⟨1, 0, .bin (· / ·) (.elem 0 0) (.num (ofI 2))⟩, ⟨1, 1, .bin (· * ·) (.elem 0 0) (.elem 0 0)⟩]
  full := false

/-- Test_D2_tecfile.cpp:25-53 -/
def prog2 [Add V] [Div V] [Mul V] (ofI : Int → V) (ofU : Nat → V) (es : List Ext) : Prog V where
  D := 2
  nx := 2
  nu := 2
  names := [lit "x", lit "y", lit "u1", lit "u2"]
  setUp := [.dims 0 2 0, .dims 0 2 1, .data 0 0, .data 0 1, .data 1 0, .data 1 1]
  body := [⟨0, 0, coord ofI ofU es 0⟩, ⟨0, 1, coord ofI ofU es 1⟩, ⟨1, 0, .bin (· + ·) (.elem 0 0) (.elem 0 1)⟩,
    ⟨1, 1, .bin (· * ·) (.elem 0 0) (.elem 0 1)⟩]
  full := true

/-- Test_D3_tecfile.cpp:25-54 -/
def prog3 [Add V] [Div V] [Mul V] (ofI : Int → V) (ofU : Nat → V) (es : List Ext) : Prog V where
  D := 3
  nx := 3
  nu := 2
  names := [lit "x", lit "y", lit "z", lit "u1", lit "u2"]
  setUp := [.dims 0 3 0, .data 0 0, .dims 0 3 1, .data 0 1, .dims 0 3 2, .data 0 2, .data 1 0, .data 1 1]
  body := [⟨0, 0, coord ofI ofU es 0⟩, ⟨0, 1, coord ofI ofU es 1⟩, ⟨0, 2, coord ofI ofU es 2⟩,
    ⟨1, 0, .bin (· + ·) (.bin (· + ·) (.elem 0 0) (.elem 0 1)) (.elem 0 2)⟩,
    ⟨1, 1, .bin (· * ·) (.bin (· * ·) (.elem 0 0) (.elem 0 1)) (.elem 0 2)⟩]
  full := true

/-- the instance with `N` components -/
def Prog.kind (P : Prog V) (N : Nat) : Kind := ⟨N, List.replicate P.D .center⟩

/-- the program up to the loop; the zone is `tecfile.Zones[0]`, just constructed -/
def Prog.main (P : Prog V) (chk : Bool) (es : List Ext) (junk : Nat → Nat → Ptr) : M (World V × Tec.Zone) Unit := do
  onWorld (runOps chk [.makeSized 0 (P.kind P.nx) (junk 0) es, .makeSized 1 (P.kind P.nu) (junk 1) es])
  runSetUp chk ⟨.double, false, false⟩ P.setUp
  onWorld ((pointLoop 0 (List.replicate P.D .ALL) P.body).exec chk)

/-- `tecfile` before `set_echo_mode` -/
def Prog.tecfile (P : Prog V) (z : Tec.Zone) : Tec.TecFile :=
  { Tec.TecFile.new (lit "untitled_file") (lit ".") (lit "untitled") with Variables := P.names, Zones := [z] }

/-- `tecfile.set_echo_mode("full", "full")`, or nothing -/
def Prog.echo (P : Prog V) (strict : Bool) : M Tec.TecFile Unit :=
  if P.full then TecFile.set_echo_mode strict (lit "full") (lit "full") else pure ()

/-- the array for the variables and the reading; `log` is `tecfile.last_log` —
Test_D1_tecfile.cpp:51-54, Test_D2_tecfile.cpp:57-61, Test_D3_tecfile.cpp:58-63 -/
def Prog.load (P : Prog V) (chk : Bool) (C : Num V) (es : List Ext) (junk : Nat → Ptr) (fs : Str → Option Str) (log : FileLog) :
    M (World V × Heap Byte) Unit := do
  onArrays (runOps chk [.makeSized 2 (P.kind P.names.length) junk (es.map fun e => ⟨0, e.i, 0⟩)])
  readVars chk C fs (lit ".") log 0 2 P.names.zipIdx

/-- Test_D1_tecfile.cpp:57-65; `N` is the number of interior points (100 there) -/
def rest1 (N : Nat) (now : Nat → Str) (r : Nat → Nat) : List Attempt :=
  [.read (lit ".") (lit "y2") 3 (now 0) (r 0),
   .read (lit ".") (lit "xxx") 0 (now 1) (r 1),
   .read (lit "aaa") (lit "y2") 0 (now 2) (r 2),
   .realloc [⟨0, N + 1, 0⟩],
   .read (lit ".") (lit "y2") 2 (now 3) (r 3),
   .realloc [⟨0, N - 1, 0⟩],
   .read (lit ".") (lit "y2") 2 (now 4) (r 4),
   .realloc [⟨1, N, 1⟩],
   .read (lit ".") (lit "y2") 2 (now 5) (r 5)]

end Verif.TecTests
