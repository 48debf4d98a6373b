import Verif.Model.Reduction
/-!
# Programs of any form

Programs that use the library from outside, made of calls, questions to `size()`, the loops and reductions of the library, loops and branches of the
program and `try` blocks.  `S` is everything the program keeps apart from the arrays: variables, loop indices, output.

Nothing new is modelled here about the library: `Op` are the member functions (`Api.lean`), `Query` the members of `SizeT`, `forLoop` and `reduceLoop` the
function templates of `Flags.lean`, `D1.lean`, `D2.lean`, `D3.lean`.

Simplifications: the computations of the program itself are pure functions of `S`.  A program loop has a number of passes that is known when it begins.
A number read that was never assigned is undefined; printing such a number with `disp_data` is not, the text is `fmt none`.
-/
namespace Verif
open Spec (Ext)
variable {V S σ : Type}

/-- a question to `x.size()` -/
inductive Query
  | n (d : Nat)
  | inn (d : Nat)
  | p (d : Nat)
  | first (d : Nat) (t : RA)
  | stop (d : Nat) (t : RA)
  | count (d : Nat) (t : RA)
  | last (d : Nat) (t : RA)
  | mirror (d : Nat) (fl : Side) (i : Int)
  | periodic (d : Nat) (fl : Side) (i : Int)

/-- `size().n(d)`, `in(d)`, `p(d)`, `begin(d, t)`, `end(d, t)`, `size(d, t)`, `last(d, t)`, `mirror(d, fl, i)`, `periodic(d, fl, i)` —
PointData_1D.hpp:184-208, PointData_2D.hpp:275-299, PointData_3D.hpp:378-402 -/
def Obj.query (chk : Bool) : Obj → Query → Out Int
  | .d1 o, .n d => o.size.n chk d
  | .d1 o, .inn d => o.size.in' chk d
  | .d1 o, .p d => o.size.p chk d
  | .d1 o, .first d t => o.size.begin_ chk d t
  | .d1 o, .stop d t => o.size.end_ chk d t
  | .d1 o, .count d t => do let z ← o.size.size chk d t; .ok (z : Int)
  | .d1 o, .last d t => o.size.last chk d t
  | .d1 o, .mirror d fl i => o.size.mirror chk d fl i
  | .d1 o, .periodic d fl i => o.size.periodic chk d fl.fl i
  | .d2 o, .n d => o.size.n chk d
  | .d2 o, .inn d => o.size.in' chk d
  | .d2 o, .p d => o.size.p chk d
  | .d2 o, .first d t => o.size.begin_ chk d t
  | .d2 o, .stop d t => o.size.end_ chk d t
  | .d2 o, .count d t => do let z ← o.size.size chk d t; .ok (z : Int)
  | .d2 o, .last d t => o.size.last chk d t
  | .d2 o, .mirror d fl i => o.size.mirror chk d fl i
  | .d2 o, .periodic d fl i => o.size.periodic chk d fl.fl i
  | .d3 o, .n d => o.size.n chk d
  | .d3 o, .inn d => o.size.in' chk d
  | .d3 o, .p d => o.size.p chk d
  | .d3 o, .first d t => o.size.begin_ chk d t
  | .d3 o, .stop d t => o.size.end_ chk d t
  | .d3 o, .count d t => do let z ← o.size.size chk d t; .ok (z : Int)
  | .d3 o, .last d t => o.size.last chk d t
  | .d3 o, .mirror d fl i => o.size.mirror chk d fl i
  | .d3 o, .periodic d fl i => o.size.periodic chk d fl.fl i

/-- `size().range(ts...)` as begin and size of every dimension — PointData_1D.hpp:210-211, PointData_2D.hpp:301-305, PointData_3D.hpp:404-410 -/
def Obj.range (chk : Bool) : Obj → List RA → Out (List (Int × Int))
  | .d1 o, [t0] => do
    let r ← o.size.range chk t0
    .ok [(r.b, r.s)]
  | .d2 o, [t0, t1] => do
    let r ← o.size.range chk t0 t1
    .ok [(r.b0, r.s0), (r.b1, r.s1)]
  | .d3 o, [t0, t1, t2] => do
    let r ← o.size.range chk t0 t1 t2
    .ok [(r.b0, r.s0), (r.b1, r.s1), (r.b2, r.s2)]
  | _, _ => .ub .oob

/-- what a loop of the library goes through: the components `N_b, N_e` if any, the dimensions named (`[]` if all of them are used) and the range as begin and
size of every dimension (`[]` if there is none) -/
structure Dom where
  N : Option (Nat × Nat) := none
  ax : List Nat := []
  R : List (Int × Int) := []
  deriving DecidableEq

/-- `PD_For_N(b, e, fn)`, `PD_For_?D(R, fn)`, `PD_For_N_?D(b, e, R, fn)` and the templates over named dimensions `PD_For_?D(d0, …, R, fn)`,
`PD_For_N_?D(b, e, d0, …, R, fn)`; the component number is 0 if there is none —
PointData.hpp:61-68, PointData_1D.hpp:118-141, PointData_2D.hpp:132-165, 206-229, PointData_3D.hpp:140-183, 234-267, 308-331 -/
def forLoop (chk : Bool) (D : Dom) (fn : Nat → List Int → M σ Unit) : M σ Unit :=
  match D with
  | ⟨some (b, e), [], []⟩ => PD_For_N b e fun n => fn n []
  | ⟨none, [], [r0]⟩ => D1.PD_For_1D chk ⟨r0.1, r0.2⟩ fun i => fn 0 [i]
  | ⟨none, [], [r0, r1]⟩ => D2.PD_For_2D chk ⟨r0.1, r0.2, r1.1, r1.2⟩ fun i j => fn 0 [i, j]
  | ⟨none, [d0], [r0, r1]⟩ => D2.PD_For_1D chk d0 ⟨r0.1, r0.2, r1.1, r1.2⟩ fun i => fn 0 [i]
  | ⟨none, [], [r0, r1, r2]⟩ => D3.PD_For_3D chk ⟨r0.1, r0.2, r1.1, r1.2, r2.1, r2.2⟩ fun i j k => fn 0 [i, j, k]
  | ⟨none, [d0], [r0, r1, r2]⟩ => D3.PD_For_1D chk d0 ⟨r0.1, r0.2, r1.1, r1.2, r2.1, r2.2⟩ fun i => fn 0 [i]
  | ⟨none, [d0, d1], [r0, r1, r2]⟩ => D3.PD_For_2D chk d0 d1 ⟨r0.1, r0.2, r1.1, r1.2, r2.1, r2.2⟩ fun i j => fn 0 [i, j]
  | ⟨some (b, e), [], [r0]⟩ => D1.PD_For_N_1D chk b e ⟨r0.1, r0.2⟩ fun n i => fn n [i]
  | ⟨some (b, e), [], [r0, r1]⟩ => D2.PD_For_N_2D chk b e ⟨r0.1, r0.2, r1.1, r1.2⟩ fun n i j => fn n [i, j]
  | ⟨some (b, e), [d0], [r0, r1]⟩ => D2.PD_For_N_1D chk b e d0 ⟨r0.1, r0.2, r1.1, r1.2⟩ fun n i => fn n [i]
  | ⟨some (b, e), [], [r0, r1, r2]⟩ => D3.PD_For_N_3D chk b e ⟨r0.1, r0.2, r1.1, r1.2, r2.1, r2.2⟩ fun n i j k => fn n [i, j, k]
  | ⟨some (b, e), [d0], [r0, r1, r2]⟩ => D3.PD_For_N_1D chk b e d0 ⟨r0.1, r0.2, r1.1, r1.2, r2.1, r2.2⟩ fun n i => fn n [i]
  | ⟨some (b, e), [d0, d1], [r0, r1, r2]⟩ => D3.PD_For_N_2D chk b e d0 d1 ⟨r0.1, r0.2, r1.1, r1.2, r2.1, r2.2⟩ fun n i j => fn n [i, j]
  | _ => M.undef .oob

/-- `PD_Reduce_N(b, e, ans, reduce, fn)`, `PD_Reduce_?D(R, ans, reduce, fn)`, `PD_Reduce_N_?D(b, e, R, ans, reduce, fn)` and the templates over named
dimensions — PointData.hpp:70-79, PointData_1D.hpp:143-170, PointData_2D.hpp:167-204, 231-258, PointData_3D.hpp:185-232, 269-306, 333-360 -/
def reduceLoop {T : Type} (chk : Bool) (D : Dom) (ans : Ref σ T) (reduce : T → T → M σ T) (fn : Nat → List Int → M σ T) : M σ Unit :=
  match D with
  | ⟨some (b, e), [], []⟩ => PD_Reduce_N b e ans reduce fun n => fn n []
  | ⟨none, [], [r0]⟩ => D1.PD_Reduce_1D chk ⟨r0.1, r0.2⟩ ans reduce fun i => fn 0 [i]
  | ⟨none, [], [r0, r1]⟩ => D2.PD_Reduce_2D chk ⟨r0.1, r0.2, r1.1, r1.2⟩ ans reduce fun i j => fn 0 [i, j]
  | ⟨none, [d0], [r0, r1]⟩ => D2.PD_Reduce_1D chk d0 ⟨r0.1, r0.2, r1.1, r1.2⟩ ans reduce fun i => fn 0 [i]
  | ⟨none, [], [r0, r1, r2]⟩ => D3.PD_Reduce_3D chk ⟨r0.1, r0.2, r1.1, r1.2, r2.1, r2.2⟩ ans reduce fun i j k => fn 0 [i, j, k]
  | ⟨none, [d0], [r0, r1, r2]⟩ => D3.PD_Reduce_1D chk d0 ⟨r0.1, r0.2, r1.1, r1.2, r2.1, r2.2⟩ ans reduce fun i => fn 0 [i]
  | ⟨none, [d0, d1], [r0, r1, r2]⟩ => D3.PD_Reduce_2D chk d0 d1 ⟨r0.1, r0.2, r1.1, r1.2, r2.1, r2.2⟩ ans reduce fun i j => fn 0 [i, j]
  | ⟨some (b, e), [], [r0]⟩ => D1.PD_Reduce_N_1D chk b e ⟨r0.1, r0.2⟩ ans reduce fun n i => fn n [i]
  | ⟨some (b, e), [], [r0, r1]⟩ => D2.PD_Reduce_N_2D chk b e ⟨r0.1, r0.2, r1.1, r1.2⟩ ans reduce fun n i j => fn n [i, j]
  | ⟨some (b, e), [d0], [r0, r1]⟩ => D2.PD_Reduce_N_1D chk b e d0 ⟨r0.1, r0.2, r1.1, r1.2⟩ ans reduce fun n i => fn n [i]
  | ⟨some (b, e), [], [r0, r1, r2]⟩ => D3.PD_Reduce_N_3D chk b e ⟨r0.1, r0.2, r1.1, r1.2, r2.1, r2.2⟩ ans reduce fun n i j k => fn n [i, j, k]
  | ⟨some (b, e), [d0], [r0, r1, r2]⟩ => D3.PD_Reduce_N_1D chk b e d0 ⟨r0.1, r0.2, r1.1, r1.2, r2.1, r2.2⟩ ans reduce fun n i => fn n [i]
  | ⟨some (b, e), [d0, d1], [r0, r1, r2]⟩ => D3.PD_Reduce_N_2D chk b e d0 d1 ⟨r0.1, r0.2, r1.1, r1.2, r2.1, r2.2⟩ ans reduce fun n i j => fn n [i, j]
  | _ => M.undef .oob

/-- statements -/
inductive Stmt (V S : Type) : Type 1
  | skip
  /-- a computation of the program -/
  | set (f : S → S)
  | throw (e : S → Err)
  /-- a member function of an array; the program goes on with what it returns -/
  | call (op : S → Op V) (k : Ret V → S → S)
  /-- `x.size().…` -/
  | ask (x : Nat) (q : S → Query) (k : Int → S → S)
  /-- `x.size().range(ts...)` -/
  | range (x : Nat) (ts : List RA) (k : List (Int × Int) → S → S)
  /-- `x.disp_data()` -/
  | disp (x : Nat) (fmt : Option V → String) (k : List String → S → S)
  | seq (p q : Stmt V S)
  | ite (c : S → Bool) (p q : Stmt V S)
  /-- a loop of the program -/
  | rep (n : S → Nat) (p : Stmt V S)
  /-- a loop of the library; `ix` makes the indices known to the function called -/
  | loop (D : S → Dom) (ix : Nat → List Int → S → S) (p : Stmt V S)
  /-- a reduction of the library; the function called runs `p` and returns `out` -/
  | reduce {T : Type} (D : S → Dom) (ans : Ref S T) (red : T → T → T) (ix : Nat → List Int → S → S) (p : Stmt V S) (out : S → T)
  /-- `try { p } catch (…) { q }` -/
  | attempt (p : Stmt V S) (k : Err → S → S) (q : Stmt V S)

/-- a computation of the program -/
def local_ (f : S → S) : M (World V × S) Unit := fun s => .ok () (s.1, f s.2)

/-- the passes of a program loop -/
def passes (m : M σ Unit) : Nat → M σ Unit
  | 0 => pure ()
  | n + 1 => do m; passes m n

/-- a question to an object -/
def World.ask (chk : Bool) (x : Nat) (q : Query) : M (World V) Int :=
  World.access x fun _ o => (o.query chk q : M (Heap V) Int)

/-- its ranges -/
def World.range (chk : Bool) (x : Nat) (ts : List RA) : M (World V) (List (Int × Int)) :=
  World.access x fun _ o => (o.range chk ts : M (Heap V) _)

/-- the text of `disp_data` -/
def World.disp (chk : Bool) (x : Nat) (fmt : Option V → String) : M (World V) (List String) :=
  World.access x fun k o h =>
    match o.disp_data chk k fmt ⟨h, []⟩ with
    | .ok _ s => .ok s.o s.h
    | .err e s => .err e s.h
    | .ub u => .ub u

/-- a result the program may use -/
def Ret.known : Ret V → Bool
  | .val none => false
  | _ => true

/-- the effect of a statement -/
def Stmt.exec (chk : Bool) : Stmt V S → M (World V × S) Unit
  | .skip => pure ()
  | .set f => local_ f
  | .throw e => fun s => .err (e s.2) s
  | .call op k => fun s => (do
    let r ← onArrays (Verif.exec chk (op s.2))
    if r.known then local_ (k r) else M.undef .uninit) s
  | .ask x q k => fun s => (do
    let i ← onArrays (World.ask chk x (q s.2))
    local_ (k i)) s
  | .range x ts k => do
    let l ← onArrays (World.range chk x ts)
    local_ (k l)
  | .disp x fmt k => do
    let t ← onArrays (World.disp chk x fmt)
    local_ (k t)
  | .seq p q => do
    p.exec chk
    q.exec chk
  | .ite c p q => fun s => if c s.2 then p.exec chk s else q.exec chk s
  | .rep n p => fun s => passes (p.exec chk) (n s.2) s
  | .loop D ix p => fun s => forLoop chk (D s.2) (fun n xs => do
    local_ (ix n xs)
    p.exec chk) s
  | .reduce D ans red ix p out => fun s =>
    reduceLoop chk (D s.2) ⟨fun s => ans.get s.2, fun v s => (s.1, ans.set v s.2)⟩ (fun a b => pure (red a b)) (fun n xs => do
      local_ (ix n xs)
      p.exec chk
      let s ← M.get
      pure (out s.2)) s
  | .attempt p k q => fun s =>
    match p.exec chk s with
    | .err e s' => q.exec chk (s'.1, k e s'.2)
    | r => r

end Verif
