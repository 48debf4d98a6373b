import Verif.Spec.Index
/-!
# Programs using the library

The three class templates `D1::PointData`, `D2::PointData`, `D3::PointData` behind one
interface, a set of named objects sharing one free store, and histories of member
function calls on them.  Nothing new is modelled here about the library: every case
delegates to the member functions of `D1.lean`, `D2.lean`, `D3.lean`.

Argument lists have one entry per dimension.  A call with the wrong number of
arguments, on a name that denotes no object, or creating an object under a used name is
not a C++ program; such calls are mapped to an undefined outcome and excluded by the
hypotheses of every theorem.
-/
namespace Verif
open Spec (Ext)

/-- the template arguments `_N` and `_LOC0 ..` (as many locations as dimensions) —
PointData_1D.hpp:229, PointData_2D.hpp:328, PointData_3D.hpp:438 -/
structure Kind where
  N : Nat
  locs : List Loc
  deriving DecidableEq, Repr

/-- an object of one of the three class templates -/
inductive Obj
  | d1 (o : D1.PD)
  | d2 (o : D2.PD)
  | d3 (o : D3.PD)

variable {V : Type}

/-- run a member function of a class on an object of the sum type -/
def St.wrap {O α : Type} (mk : O → Obj) (m : M (St V O) α) (h : Heap V) (o : O) : Res (St V Obj) α :=
  match m ⟨h, o⟩ with
  | .ok a s => .ok a ⟨s.h, mk s.o⟩
  | .err e s => .err e ⟨s.h, mk s.o⟩
  | .ub u => .ub u

namespace Obj

/-- the storage of an object before its constructor runs; `junk` is the indeterminate
content of `pt0`, the other members have default initialisers -/
def raw (k : Kind) (junk : Nat → Ptr) : Obj :=
  match k.locs with
  | [_] => .d1 { pt0 := junk }
  | [_, _] => .d2 { pt0 := junk }
  | _ => .d3 { pt0 := junk }

/-- `operator()` -/
def at_ (chk : Bool) (k : Kind) (o : Obj) (n : Nat) (xs : List Int) (fs : List FL) : M (Heap V) Ptr :=
  match o, k.locs, xs, fs with
  | .d1 o, [L0], [x], [f] => D1.PD.at_ chk k.N L0 o n x f
  | .d2 o, [L0, L1], [x, y], [f, g] => D2.PD.at_ chk k.N L0 L1 o n x y f g
  | .d3 o, [L0, L1, L2], [x, y, z], [f, g, l] => D3.PD.at_ chk k.N L0 L1 L2 o n x y z f g l
  | _, _, _, _ => M.undef .oob

/-- `data_pt` -/
def data_pt (chk : Bool) (k : Kind) (o : Obj) (n : Nat) : M (Heap V) Ptr :=
  match o with
  | .d1 o => D1.PD.data_pt chk k.N o n
  | .d2 o => D2.PD.data_pt chk k.N o n
  | .d3 o => D3.PD.data_pt chk k.N o n

/-- `disp_data`; the state's second component is the output, `fmt` prints a value -/
def disp_data (chk : Bool) (k : Kind) (fmt : Option V → String) (o : Obj) : M (St V (List String)) Unit :=
  match o, k.locs with
  | .d1 o, [L0] => D1.PD.disp_data chk k.N L0 fmt o
  | .d2 o, [L0, L1] => D2.PD.disp_data chk k.N L0 L1 fmt o
  | .d3 o, [L0, L1, L2] => D3.PD.disp_data chk k.N L0 L1 L2 fmt o
  | _, _ => M.undef .oob

/-- default constructor -/
def ctor0 (k : Kind) : M (St V Obj) Unit := fun s =>
  match s.o with
  | .d1 o => St.wrap .d1 (D1.PD.ctor0 k.N) s.h o
  | .d2 o => St.wrap .d2 (D2.PD.ctor0 k.N) s.h o
  | .d3 o => St.wrap .d3 (D3.PD.ctor0 k.N) s.h o

/-- sizing constructor -/
def ctor (chk : Bool) (k : Kind) (es : List Ext) : M (St V Obj) Unit := fun s =>
  match s.o, k.locs, es with
  | .d1 o, [L0], [a] => St.wrap .d1 (D1.PD.ctor chk k.N L0 a.n a.i a.p) s.h o
  | .d2 o, [L0, L1], [a, b] => St.wrap .d2 (D2.PD.ctor chk k.N L0 L1 a.n a.i a.p b.n b.i b.p) s.h o
  | .d3 o, [L0, L1, L2], [a, b, c] =>
    St.wrap .d3 (D3.PD.ctor chk k.N L0 L1 L2 a.n a.i a.p b.n b.i b.p c.n c.i c.p) s.h o
  | _, _, _ => .ub .oob

/-- `alloc` -/
def alloc (chk : Bool) (k : Kind) (es : List Ext) : M (St V Obj) Unit := fun s =>
  match s.o, k.locs, es with
  | .d1 o, [L0], [a] => St.wrap .d1 (D1.PD.alloc chk k.N L0 a.n a.i a.p) s.h o
  | .d2 o, [L0, L1], [a, b] => St.wrap .d2 (D2.PD.alloc chk k.N L0 L1 a.n a.i a.p b.n b.i b.p) s.h o
  | .d3 o, [L0, L1, L2], [a, b, c] =>
    St.wrap .d3 (D3.PD.alloc chk k.N L0 L1 L2 a.n a.i a.p b.n b.i b.p c.n c.i c.p) s.h o
  | _, _, _ => .ub .oob

/-- `realloc` -/
def realloc (chk : Bool) (k : Kind) (es : List Ext) : M (St V Obj) Unit := fun s =>
  match s.o, k.locs, es with
  | .d1 o, [L0], [a] => St.wrap .d1 (D1.PD.realloc chk k.N L0 a.n a.i a.p) s.h o
  | .d2 o, [L0, L1], [a, b] => St.wrap .d2 (D2.PD.realloc chk k.N L0 L1 a.n a.i a.p b.n b.i b.p) s.h o
  | .d3 o, [L0, L1, L2], [a, b, c] =>
    St.wrap .d3 (D3.PD.realloc chk k.N L0 L1 L2 a.n a.i a.p b.n b.i b.p c.n c.i c.p) s.h o
  | _, _, _ => .ub .oob

/-- `clear` -/
def clear (k : Kind) : M (St V Obj) Unit := fun s =>
  match s.o with
  | .d1 o => St.wrap .d1 (D1.PD.clear k.N) s.h o
  | .d2 o => St.wrap .d2 D2.PD.clear s.h o
  | .d3 o => St.wrap .d3 D3.PD.clear s.h o

/-- destructor -/
def dtor (k : Kind) : M (St V Obj) Unit := fun s =>
  match s.o with
  | .d1 o => St.wrap .d1 (D1.PD.dtor k.N) s.h o
  | .d2 o => St.wrap .d2 D2.PD.dtor s.h o
  | .d3 o => St.wrap .d3 D3.PD.dtor s.h o

/-- `size()`: the numbers `n(d)`, `in(d)`, `p(d)` of every dimension —
PointData_1D.hpp:255, PointData_2D.hpp:359, PointData_3D.hpp:474 -/
def sizes : Obj → List (Int × Int × Int)
  | .d1 o => [(o.size.n_, o.size.in_, o.size.p_)]
  | .d2 o => [(o.size.n0, o.size.in0, o.size.p0), (o.size.n1, o.size.in1, o.size.p1)]
  | .d3 o => [(o.size.n0, o.size.in0, o.size.p0), (o.size.n1, o.size.in1, o.size.p1),
      (o.size.n2, o.size.in2, o.size.p2)]

/-- the four overloads of `copy_from`: target and source zone as ranges (begin and size
of every dimension) or as tags, alignment by two index tuples or by one side flag per
dimension.  Arguments naming the target come first. -/
inductive CopyArgs
  | ranges (R r : List (Int × Int)) (I i : List Int)
  | tags (R r : List RA) (I i : List Int)
  | rangesFl (R r : List (Int × Int)) (fl : List Side)
  | tagsFl (R r : List RA) (fl : List Side)

/-- `o.copy_from(pd, ...)`; `same` is the value of `&pd == this` —
PointData_1D.hpp:279-296, 471-501; PointData_2D.hpp:385-409, 606-642;
PointData_3D.hpp:502-526, 750-792 -/
def copy (chk : Bool) (k : Kind) (o pd : Obj) (same : Bool) : CopyArgs → M (Heap V) Unit
  | .ranges R r I i =>
    match o, pd, k.locs, R, r, I, i with
    | .d1 o, .d1 pd, [L0], [R0], [r0], [I0], [i0] =>
      D1.PD.copy_from chk k.N L0 o pd same ⟨R0.1, R0.2⟩ ⟨r0.1, r0.2⟩ I0 i0
    | .d2 o, .d2 pd, [L0, L1], [R0, R1], [r0, r1], [I0, I1], [i0, i1] =>
      D2.PD.copy_from chk k.N L0 L1 o pd same ⟨R0.1, R0.2, R1.1, R1.2⟩ ⟨r0.1, r0.2, r1.1, r1.2⟩ I0 I1 i0 i1
    | .d3 o, .d3 pd, [L0, L1, L2], [R0, R1, R2], [r0, r1, r2], [I0, I1, I2], [i0, i1, i2] =>
      D3.PD.copy_from chk k.N L0 L1 L2 o pd same ⟨R0.1, R0.2, R1.1, R1.2, R2.1, R2.2⟩
        ⟨r0.1, r0.2, r1.1, r1.2, r2.1, r2.2⟩ I0 I1 I2 i0 i1 i2
    | _, _, _, _, _, _, _ => M.undef .oob
  | .tags R r I i =>
    match o, pd, k.locs, R, r, I, i with
    | .d1 o, .d1 pd, [L0], [R0], [r0], [I0], [i0] => D1.PD.copy_from_tag chk k.N L0 o pd same R0 r0 I0 i0
    | .d2 o, .d2 pd, [L0, L1], [R0, R1], [r0, r1], [I0, I1], [i0, i1] =>
      D2.PD.copy_from_tag chk k.N L0 L1 o pd same R0 R1 r0 r1 I0 I1 i0 i1
    | .d3 o, .d3 pd, [L0, L1, L2], [R0, R1, R2], [r0, r1, r2], [I0, I1, I2], [i0, i1, i2] =>
      D3.PD.copy_from_tag chk k.N L0 L1 L2 o pd same R0 R1 R2 r0 r1 r2 I0 I1 I2 i0 i1 i2
    | _, _, _, _, _, _, _ => M.undef .oob
  | .rangesFl R r fl =>
    match o, pd, k.locs, R, r, fl with
    | .d1 o, .d1 pd, [L0], [R0], [r0], [f0] =>
      D1.PD.copy_from_fl chk k.N L0 o pd same ⟨R0.1, R0.2⟩ ⟨r0.1, r0.2⟩ f0
    | .d2 o, .d2 pd, [L0, L1], [R0, R1], [r0, r1], [f0, f1] =>
      D2.PD.copy_from_fl chk k.N L0 L1 o pd same ⟨R0.1, R0.2, R1.1, R1.2⟩ ⟨r0.1, r0.2, r1.1, r1.2⟩ f0 f1
    | .d3 o, .d3 pd, [L0, L1, L2], [R0, R1, R2], [r0, r1, r2], [f0, f1, f2] =>
      D3.PD.copy_from_fl chk k.N L0 L1 L2 o pd same ⟨R0.1, R0.2, R1.1, R1.2, R2.1, R2.2⟩
        ⟨r0.1, r0.2, r1.1, r1.2, r2.1, r2.2⟩ f0 f1 f2
    | _, _, _, _, _, _ => M.undef .oob
  | .tagsFl R r fl =>
    match o, pd, k.locs, R, r, fl with
    | .d1 o, .d1 pd, [L0], [R0], [r0], [f0] => D1.PD.copy_from_tag_fl chk k.N L0 o pd same R0 r0 f0
    | .d2 o, .d2 pd, [L0, L1], [R0, R1], [r0, r1], [f0, f1] =>
      D2.PD.copy_from_tag_fl chk k.N L0 L1 o pd same R0 R1 r0 r1 f0 f1
    | .d3 o, .d3 pd, [L0, L1, L2], [R0, R1, R2], [r0, r1, r2], [f0, f1, f2] =>
      D3.PD.copy_from_tag_fl chk k.N L0 L1 L2 o pd same R0 R1 R2 r0 r1 r2 f0 f1 f2
    | _, _, _, _, _, _ => M.undef .oob

end Obj

/-- named objects over one free store -/
structure World (V : Type) where
  h : Heap V
  objs : Nat → Option (Kind × Obj)

/-- the start of a program: no objects, nothing allocated; `mem` decides which
allocations will succeed -/
def World.init (mem : Nat → Nat → Bool) : World V := ⟨⟨fun _ => none, 0, mem⟩, fun _ => none⟩

/-- bind a name -/
def World.put (w : World V) (x : Nat) (h : Heap V) (b : Option (Kind × Obj)) : World V :=
  ⟨h, fun y => if y = x then b else w.objs y⟩

/-- one call -/
inductive Op (V : Type)
  /-- default construction; `junk` is the content of uninitialised memory -/
  | make (x : Nat) (k : Kind) (junk : Nat → Ptr)
  /-- construction with sizes -/
  | makeSized (x : Nat) (k : Kind) (junk : Nat → Ptr) (es : List Ext)
  | alloc (x : Nat) (es : List Ext)
  | realloc (x : Nat) (es : List Ext)
  | clear (x : Nat)
  | size (x : Nat)
  | read (x n : Nat) (xs : List Int) (fs : List FL)
  | write (x n : Nat) (xs : List Int) (fs : List FL) (v : V)
  /-- `x.copy_from(y, ...)` -/
  | copy (x y : Nat) (args : Obj.CopyArgs)
  /-- end of the object's lifetime -/
  | destroy (x : Nat)

/-- what a call returns -/
inductive Ret (V : Type)
  | unit
  | val (v : Option V)
  | sizes (l : List (Int × Int × Int))
  deriving DecidableEq

/-- a member function that may change its object -/
def World.call {α : Type} (x : Nat) (f : Kind → M (St V Obj) α) : M (World V) α := fun w =>
  match w.objs x with
  | none => .ub .dangling
  | some (k, o) =>
    match f k ⟨w.h, o⟩ with
    | .ok a s => .ok a (w.put x s.h (some (k, s.o)))
    | .err e s => .err e (w.put x s.h (some (k, s.o)))
    | .ub u => .ub u

/-- a constructor; if it throws there is no object (and no destructor call) -/
def World.construct (x : Nat) (k : Kind) (junk : Nat → Ptr) (f : Kind → M (St V Obj) Unit) : M (World V) Unit := fun w =>
  match w.objs x with
  | some _ => .ub .dangling
  | none =>
    match f k ⟨w.h, Obj.raw k junk⟩ with
    | .ok _ s => .ok () (w.put x s.h (some (k, s.o)))
    | .err e s => .err e (w.put x s.h none)
    | .ub u => .ub u

/-- destructor call at the end of the lifetime -/
def World.remove (x : Nat) : M (World V) Unit := fun w =>
  match w.objs x with
  | none => .ub .dangling
  | some (k, o) =>
    match Obj.dtor k ⟨w.h, o⟩ with
    | .ok _ s => .ok () (w.put x s.h none)
    | .err e s => .err e (w.put x s.h none)
    | .ub u => .ub u

/-- an expression that reads or writes elements of one object -/
def World.access {α : Type} (x : Nat) (f : Kind → Obj → M (Heap V) α) : M (World V) α := fun w =>
  match w.objs x with
  | none => .ub .dangling
  | some (k, o) =>
    match f k o w.h with
    | .ok a h => .ok a { w with h := h }
    | .err e h => .err e { w with h := h }
    | .ub u => .ub u

/-- `x.copy_from(y, ...)` compiles only for objects of one type -/
def World.copy (chk : Bool) (x y : Nat) (args : Obj.CopyArgs) : M (World V) Unit := fun w =>
  match w.objs x, w.objs y with
  | some (k, o), some (k', pd) =>
    if k' = k then
      match Obj.copy chk k o pd (decide (x = y)) args w.h with
      | .ok a h => .ok a { w with h := h }
      | .err e h => .err e { w with h := h }
      | .ub u => .ub u
    else .ub .dangling
  | _, _ => .ub .dangling

/-- the effect of one call -/
def exec (chk : Bool) : Op V → M (World V) (Ret V)
  | .make x k junk => do World.construct x k junk Obj.ctor0; pure .unit
  | .makeSized x k junk es => do World.construct x k junk (fun k => Obj.ctor chk k es); pure .unit
  | .alloc x es => do World.call x (fun k => Obj.alloc chk k es); pure .unit
  | .realloc x es => do World.call x (fun k => Obj.realloc chk k es); pure .unit
  | .clear x => do World.call x Obj.clear; pure .unit
  | .size x => do
    let l ← World.access x (fun _ o => pure o.sizes)
    pure (.sizes l)
  | .read x n xs fs => do
    let v ← World.access x (fun k o => do let p ← o.at_ chk k n xs fs; Heap.loadV p)
    pure (.val v)
  | .write x n xs fs v => do
    World.access x (fun k o => do let p ← o.at_ chk k n xs fs; Heap.storeV p (some v))
    pure .unit
  | .copy x y args => do World.copy chk x y args; pure .unit
  | .destroy x => do World.remove x; pure .unit

/-- what the caller observes of one call -/
inductive Ev (V : Type)
  | ret (r : Ret V)
  | exn (e : Err)
  deriving DecidableEq

/-- a whole history, the caller catching every exception; `none` if some call has
undefined behaviour -/
def run (chk : Bool) : List (Op V) → World V → Option (List (Ev V) × World V)
  | [], w => some ([], w)
  | op :: ops, w =>
    match exec chk op w with
    | .ok r w' => (run chk ops w').map fun (es, w'') => (.ret r :: es, w'')
    | .err e w' => (run chk ops w').map fun (es, w'') => (.exn e :: es, w'')
    | .ub _ => none

end Verif
