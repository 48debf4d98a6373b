import Verif.Model.Client
import Verif.Model.Tec.Data
/-!
# Describing arrays to a Tecplot file

The statements by which programs set up a zone for their arrays: `Max_C`, `Begin_C`, `End_C` from `size(d, RA)`, and the
variables from `data_pt(n)`.  Example_D2_heat.cpp:54-63; Test_D1_tecfile.cpp:32-38 (`Max[0]` is `Max_C(1, 0)`);
Test_D2_tecfile.cpp:33-43; Test_D3_tecfile.cpp:34-43.

The memory of the arrays consists of numbers, that of the writer of bytes; the pointer to a number is the pointer to its
first byte (`Ptr.bytes`).
-/
namespace Verif
open Tec
variable {V : Type}

/-- `x.size().size(d, r)` — PointData_1D.hpp:196-197, PointData_2D.hpp:287-288, PointData_3D.hpp:390-391 -/
def Obj.extent (chk : Bool) (o : Obj) (d : Nat) (r : RA) : Out Nat :=
  match o with
  | .d1 o => o.size.size chk d r
  | .d2 o => o.size.size chk d r
  | .d3 o => o.size.size chk d r

/-- the same address, counted in bytes -/
def Ptr.bytes (size : Nat) : Ptr → Ptr
  | .null => .null
  | .at b o => .at b (o * size)

/-- a statement of the set-up -/
inductive SetUp
  /-- the three assignments to `Max_C(DIM, d)`, `Begin_C(DIM, d)`, `End_C(DIM, d)` -/
  | dims (x DIM d : Nat)
  /-- `Data.push_back(TEC_DATA(y.data_pt(n)))` -/
  | data (y n : Nat)

/-- a statement about the arrays -/
def onWorld {α : Type} (m : M (World V) α) : M (World V × Zone) α := fun s =>
  match m s.1 with
  | .ok a w => .ok a (w, s.2)
  | .err e w => .err e (w, s.2)
  | .ub u => .ub u

/-- a statement about the zone -/
def onZone {α : Type} (m : M Zone α) : M (World V × Zone) α := fun s =>
  match m s.2 with
  | .ok a z => .ok a (s.1, z)
  | .err e z => .err e (s.1, z)
  | .ub u => .ub u

/-- `x.size().size(d, r)`; the `unsigned` is converted to `int` by the assignment -/
def extentOf (chk : Bool) (x d : Nat) (r : RA) : M (World V) Int := do
  let a ← World.access x fun _ o => (o.extent chk d r : M (Heap V) Nat)
  pure (toI32 a)

/-- elements of type `T` -/
def SetUp.exec (chk : Bool) (T : Pointee) : SetUp → M (World V × Zone) Unit
  | .dims x DIM d => do
    let a ← onWorld (extentOf chk x d .ALL)
    onZone (Zone.setMax_C DIM d a)
    let b ← onWorld (extentOf chk x d .N)
    onZone (Zone.setBegin_C DIM d b)
    let e ← onWorld (extentOf chk x d .P)
    onZone (Zone.setEnd_C DIM d e)
  | .data y n => do
    let p ← onWorld (World.access y fun k o => o.data_pt chk k n)
    let d ← M.lift (TecData.ofPtr T (p.bytes T.type.size))
    onZone (M.modify fun z => { z with Data := z.Data ++ [d] })

/-- statements one after the other -/
def runSetUp (chk : Bool) (T : Pointee) : List SetUp → M (World V × Zone) Unit
  | [] => pure ()
  | s :: ss => do s.exec chk T; runSetUp chk T ss

end Verif
