import Verif.Model.Api
/-!
# Filling virtual points

The way user programs fill the virtual points on one side of a dimension: a `PD_For_?D`
loop over `size().range(...)` whose body assigns to each element the value of its mirror
or periodic source, possibly changed (`u(0,i) = -u(0, u.size().mirror(0, FL::N, i))`).
Example_D1_heat.cpp:53-54, Example_D2_heat.cpp:88-91, Test_D1_PointData_C.cpp:59-60,
Test_D2_PointData_C.cpp:73-76, Test_D3_PointData_C.cpp:96-101.

Simplifications: the operation applied to the value is an arbitrary pure function; the
order in which C++ evaluates the two element accesses of the assignment is fixed (source
first), neither has side effects.
-/
namespace Verif

/-- where the value of a virtual point comes from -/
inductive From | mirror | periodic
  deriving DecidableEq, Repr

variable {V : Type}
namespace Obj

/-- `x.size().mirror(d, FL::N or FL::P, i)` and `x.size().periodic(d, fl, i)` —
PointData_1D.hpp:205-208, PointData_2D.hpp:296-299, PointData_3D.hpp:399-402 -/
def source (chk : Bool) (o : Obj) (how : From) (d : Nat) (fl : Side) (x : Int) : Out Int :=
  match o, how with
  | .d1 o, .mirror => o.size.mirror chk d fl x
  | .d1 o, .periodic => o.size.periodic chk d fl.fl x
  | .d2 o, .mirror => o.size.mirror chk d fl x
  | .d2 o, .periodic => o.size.periodic chk d fl.fl x
  | .d3 o, .mirror => o.size.mirror chk d fl x
  | .d3 o, .periodic => o.size.periodic chk d fl.fl x

/-- the loop body: `x(n, .., i, .., fs) = f(x(n, .., source(i), .., fs))` -/
def fillPt (chk : Bool) (k : Kind) (o : Obj) (how : From) (d : Nat) (fl : Side) (n : Nat) (fs : List FL) (f : V → V)
    (xs : List Int) : M (Heap V) Unit := do
  let j ← (o.source chk how d fl (xs.getD d 0) : M (Heap V) Int)
  let p ← o.at_ chk k n (xs.set d j) fs
  let v ← Heap.loadV p
  let q ← o.at_ chk k n xs fs
  Heap.storeV q (v.map f)

/-- `PD_For_?D(x.size().range(ts...), body)` —
PointData_1D.hpp:119, PointData_2D.hpp:133, PointData_3D.hpp:141 and the `range` members -/
def loopTags {σ : Type} (chk : Bool) (o : Obj) (ts : List RA) (body : List Int → M σ Unit) : M σ Unit :=
  match o, ts with
  | .d1 o, [t0] => do
    let r ← (o.size.range chk t0 : M σ _)
    D1.PD_For_1D chk r fun i => body [i]
  | .d2 o, [t0, t1] => do
    let r ← (o.size.range chk t0 t1 : M σ _)
    D2.PD_For_2D chk r fun i j => body [i, j]
  | .d3 o, [t0, t1, t2] => do
    let r ← (o.size.range chk t0 t1 t2 : M σ _)
    D3.PD_For_3D chk r fun i j l => body [i, j, l]
  | _, _ => M.undef .oob

/-- the whole statement -/
def fill (chk : Bool) (k : Kind) (o : Obj) (how : From) (d : Nat) (fl : Side) (ts : List RA) (n : Nat) (fs : List FL)
    (f : V → V) : M (Heap V) Unit :=
  o.loopTags chk ts (o.fillPt chk k how d fl n fs f)

end Obj

/-- the statement on the object named `x` -/
def World.fill (chk : Bool) (x : Nat) (how : From) (d : Nat) (fl : Side) (ts : List RA) (n : Nat) (fs : List FL)
    (f : V → V) : M (World V) Unit :=
  World.access x fun k o => o.fill chk k how d fl ts n fs f

end Verif
