import Verif.Model.Fill
/-!
# Loops of user programs

User programs compute with `PD_For_?D` loops over `x.size().range(ts...)` whose bodies are
assignments between elements; the index expressions are the loop indices, possibly shifted
(`u(0, i - 1)`), or a mirror or periodic source (`u(0, u.size().mirror(0, FL::N, i))`).
Example_D1_heat.cpp:35-61, 77; Example_D2_heat.cpp:65-101, 117-119; Example_D1_integration.cpp:30-35;
Test_D1_tecfile.cpp:40-45; Test_D2_tecfile.cpp:45-51; Test_D3_tecfile.cpp:45-52.

Simplifications: the arithmetic on numbers is an arbitrary pure function of the values read
(so it covers `double` with any rounding); `x(..) += e` is written `x(..) = x(..) + e`; the right-hand side
is evaluated before the element access on the left (neither has side effects); an argument
`flag` left out is written `FL::C`, its default.  Reading an element that was never assigned is undefined here,
whereas `Op.read` merely reports it.
-/
namespace Verif
variable {V : Type}

/-- an index argument -/
inductive Idx
  /-- loop index number `d` plus a constant -/
  | plus (d : Nat) (s : Int)
  /-- `y.size().mirror(d, fl, j)` or `periodic`, `j` being a loop index -/
  | src (y : Nat) (how : From) (d : Nat) (fl : Side) (j : Nat)

/-- a numeric expression in the loop body -/
inductive Expr (V : Type)
  | num (v : V)
  /-- a number computed from a loop index: `static_cast<double>(i)` -/
  | conv (d : Nat) (f : Int → V)
  /-- `y(n, is..., fs...)` -/
  | elem (y n : Nat) (is : List Idx) (fs : List FL)
  | un (f : V → V) (a : Expr V)
  | bin (f : V → V → V) (a b : Expr V)

/-- `x(n, is..., fs...) = rhs;` -/
structure Assign (V : Type) where
  x : Nat
  n : Nat
  is : List Idx
  fs : List FL
  rhs : Expr V

/-- a loop index; a body that names an index the loop does not have does not compile -/
def loopIdx (xs : List Int) (d : Nat) : Out Int :=
  match xs[d]? with
  | some i => .ok i
  | none => .ub .oob

/-- value of an index argument, computed in `int` -/
def Idx.eval (chk : Bool) (xs : List Int) : Idx → M (World V) Int
  | .plus d s => do
    let i ← (loopIdx xs d : M (World V) Int)
    (i32 (i + s) : M (World V) Int)
  | .src y how d fl j => do
    let i ← (loopIdx xs j : M (World V) Int)
    World.access y fun _ o => (o.source chk how d fl i : M (Heap V) Int)

/-- the index arguments, from left to right -/
def evalIdx (chk : Bool) (xs : List Int) : List Idx → M (World V) (List Int)
  | [] => pure []
  | i :: is => do
    let a ← i.eval chk xs
    let as ← evalIdx chk xs is
    pure (a :: as)

/-- value of an expression at the loop indices `xs` -/
def Expr.eval (chk : Bool) (xs : List Int) : Expr V → M (World V) V
  | .num v => pure v
  | .conv d f => do
    let i ← (loopIdx xs d : M (World V) Int)
    pure (f i)
  | .elem y n is fs => do
    let ys ← evalIdx chk xs is
    let r ← exec chk (.read y n ys fs)
    match r with
    | .val (some v) => pure v
    | _ => M.undef .uninit
  | .un f a => do
    let v ← a.eval chk xs
    pure (f v)
  | .bin f a b => do
    let v ← a.eval chk xs
    let w ← b.eval chk xs
    pure (f v w)

/-- one assignment -/
def Assign.exec (chk : Bool) (xs : List Int) (a : Assign V) : M (World V) Unit := do
  let v ← a.rhs.eval chk xs
  let ys ← evalIdx chk xs a.is
  let _ ← Verif.exec chk (.write a.x a.n ys a.fs v)
  pure ()

/-- the loop body: assignments one after the other -/
def runBody (chk : Bool) (body : List (Assign V)) (xs : List Int) : M (World V) Unit :=
  match body with
  | [] => pure ()
  | a :: rest => do a.exec chk xs; runBody chk rest xs

/-- `PD_For_?D(x.size().range(ts...), [&](..) { body });` -/
structure Loop (V : Type) where
  x : Nat
  ts : List RA
  body : List (Assign V)

def Loop.exec (chk : Bool) (l : Loop V) : M (World V) Unit := fun w =>
  match w.objs l.x with
  | none => .ub .dangling
  | some (_, o) => o.loopTags chk l.ts (runBody chk l.body) w

/-- declarations and calls one after the other; an exception ends the program -/
def runOps (chk : Bool) : List (Op V) → M (World V) Unit
  | [] => pure ()
  | op :: ops => do let _ ← exec chk op; runOps chk ops

/-- loops one after the other -/
def runLoops (chk : Bool) : List (Loop V) → M (World V) Unit
  | [] => pure ()
  | l :: ls => do l.exec chk; runLoops chk ls

end Verif
