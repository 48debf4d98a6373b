import Verif.Spec.Copy
import Verif.Model.Api
/-!
# Specification: the abstract machine

What a user of the library believes an array is: nothing, or a shape together with a
value for every element.  The machine knows nothing about pointers or tables; the only
trace of memory is the sequence of requests whose success the environment decides.
`broken` is the state no user expects; it is entered when a request other than the first
one of an `alloc` fails.
-/
namespace Verif.Spec
variable {V : Type}

/-- the requests for row tables: `c` is the number of tables' entries one level up -/
def tables (c : Nat) : Shape → List Nat
  | d :: d' :: sh => c * d.width :: tables (c * d.width) (d' :: sh)
  | _ => []

/-- sizes of the memory requests for an array of `N` components of shape `sh` -/
def requests (N : Nat) (sh : Shape) : List Nat := N * points sh :: tables N sh

/-- how many of the requests are granted before the first refusal; the first request is
number `next` -/
def granted (mem : Nat → Nat → Bool) (next : Nat) : List Nat → Nat
  | [] => 0
  | r :: rs => if mem next r then granted mem (next + 1) rs + 1 else 0

/-- one array -/
inductive AArr (V : Type)
  | empty
  | ready (es : List Ext) (val : Nat → List Int → Option V)
  /-- memory ran out half way: `g` blocks are held, the elements are unusable -/
  | broken (es : List Ext) (g : Nat)

/-- all arrays; `next` counts the memory requests so far, `leaked` the blocks that
belong to no array any more -/
structure AWorld (V : Type) where
  arr : Nat → Option (Kind × AArr V)
  next : Nat
  leaked : Nat

def AWorld.init : AWorld V := ⟨fun _ => none, 0, 0⟩

def AWorld.set (w : AWorld V) (x : Nat) (b : Option (Kind × AArr V)) : AWorld V :=
  { w with arr := fun y => if y = x then b else w.arr y }

/-- a template instantiation that compiles: one to three dimensions, `_N` is an
`unsigned` -/
def KindOk (k : Kind) : Prop := (k.locs.length = 1 ∨ k.locs.length = 2 ∨ k.locs.length = 3) ∧ k.N < 4294967296

instance (k : Kind) : Decidable (KindOk k) := inferInstanceAs (Decidable (_ ∧ _))
instance (N : Nat) (sh : Shape) : Decidable (ShapeFits N sh) := inferInstanceAs (Decidable (_ ∧ _))

/-- the sizes match the dimensions and are inside machine range -/
def SizesOk (k : Kind) (es : List Ext) : Prop := es.length = k.locs.length ∧ ShapeFits k.N (mkShape es k.locs)

instance (k : Kind) (es : List Ext) : Decidable (SizesOk k es) := inferInstanceAs (Decidable (_ ∧ _))

/-- the points of every dimension fit `int` -/
def DimsFit (es : List Ext) : Prop := ∀ e ∈ es, e.n + e.i + e.p + 1 < 2147483648

/-- outcome of an abstract lifecycle call: error if any, new state, requests made -/
structure LRes (V : Type) where
  err : Option Err
  arr : AArr V
  used : Nat

/-- `alloc` on an empty array -/
def allocEmpty (mem : Nat → Nat → Bool) (next : Nat) (k : Kind) (es : List Ext) : LRes V :=
  match sizeErrs 0 es with
  | some e => ⟨some e, .empty, 0⟩
  | none =>
    let sh := mkShape es k.locs
    if points sh = 0 then ⟨none, .empty, 0⟩
    else
      let rs := requests k.N sh
      let g := granted mem next rs
      if g = rs.length then ⟨none, .ready es (fun _ _ => none), g⟩
      else if g = 0 then ⟨some .noMemory, .empty, 1⟩
      else ⟨some .noMemory, .broken es g, g + 1⟩

def allocStep (mem : Nat → Nat → Bool) (next : Nat) (k : Kind) (es : List Ext) : AArr V → LRes V
  | .empty => allocEmpty mem next k es
  | a => ⟨some .notEmpty, a, 0⟩

def clearStep : AArr V → LRes V
  | .empty => ⟨some .isEmpty, .empty, 0⟩
  | _ => ⟨none, .empty, 0⟩

def reallocStep (mem : Nat → Nat → Bool) (next : Nat) (k : Kind) (es : List Ext) (a : AArr V) : LRes V :=
  match sizeErrs 0 es with
  | some e => ⟨some e, a, 0⟩
  | none =>
    match a with
    | .empty => ⟨some .isEmpty, .empty, 0⟩
    | _ => allocEmpty mem next k es

/-- what `size()` reports -/
def sizesOf (k : Kind) : AArr V → List (Int × Int × Int)
  | .empty => k.locs.map fun _ => (0, 0, 0)
  | .ready es _ => es.map fun e => ((e.n : Int), (e.i : Int), (e.p : Int))
  | .broken es _ => es.map fun e => ((e.n : Int), (e.i : Int), (e.p : Int))

/-- the observation of a call without result -/
def evOf : Option Err → Ev V
  | none => .ret .unit
  | some e => .exn e

/-- number of blocks a constructor leaves behind if it throws in this state -/
def heldBy : AArr V → Nat
  | .broken _ g => g
  | _ => 0

/-- zones and anchors of a `copy_from` between arrays of extents `es` (target) and `es'` -/
structure CopyPlan where
  R : List (Int × Int)
  r : List (Int × Int)
  I : List Int
  i : List Int

def copyPlan (es es' : List Ext) : Obj.CopyArgs → CopyPlan
  | .ranges R r I i => ⟨R, r, I, i⟩
  | .tags R r I i => ⟨tagZones es R, tagZones es' r, I, i⟩
  | .rangesFl R r fl => ⟨R, r, edges R fl, edges r fl⟩
  | .tagsFl R r fl => ⟨tagZones es R, tagZones es' r, edges (tagZones es R) fl, edges (tagZones es' r) fl⟩

/-- the dimensions of the copy -/
def CopyPlan.dims (p : CopyPlan) (k : Kind) : List CopyDim := copyDims k.locs p.R p.r p.I p.i

/-- one argument per dimension -/
def argsLen (d : Nat) : Obj.CopyArgs → Prop
  | .ranges R r I i => R.length = d ∧ r.length = d ∧ I.length = d ∧ i.length = d
  | .tags R r I i => R.length = d ∧ r.length = d ∧ I.length = d ∧ i.length = d
  | .rangesFl R r fl => R.length = d ∧ r.length = d ∧ fl.length = d
  | .tagsFl R r fl => R.length = d ∧ r.length = d ∧ fl.length = d

instance (d : Nat) (a : Obj.CopyArgs) : Decidable (argsLen d a) := by
  cases a <;> exact inferInstanceAs (Decidable (_ ∧ _))

/-- a `copy_from` inside the contract: well typed, zones inside the arrays, numbers
inside machine range -/
def CopyOk (k : Kind) (es es' : List Ext) (args : Obj.CopyArgs) : Prop :=
  argsLen k.locs.length args ∧ ZonesIn es (copyPlan es es' args).R ∧ ZonesIn es' (copyPlan es es' args).r ∧
  ∀ d ∈ (copyPlan es es' args).dims k, d.AnchorsFit

instance (k : Kind) (es es' : List Ext) (args : Obj.CopyArgs) : Decidable (CopyOk k es es' args) :=
  inferInstanceAs (Decidable (_ ∧ _))

/-- One call on the abstract machine.  `none`: the call is outside the contract — ill
typed, sizes outside machine range, element access on a broken array, an illegal
element access in a build without checks, or a copy involving an array that is not
allocated, a zone outside its array, anchors outside machine range or, in a build
without checks, zones that do not overlap or a refused self copy. -/
def astep (mem : Nat → Nat → Bool) (chk : Bool) (w : AWorld V) : Op V → Option (Ev V × AWorld V)
  | .make x k _ =>
    if (w.arr x).isNone ∧ KindOk k then
      if k.N = 0 then some (.exn .nZero, w)
      else some (.ret .unit, w.set x (some (k, .empty)))
    else none
  | .makeSized x k _ es =>
    if (w.arr x).isNone ∧ KindOk k ∧ SizesOk k es then
      if k.N = 0 then some (.exn .nZero, w)
      else
        let r : LRes V := allocEmpty mem w.next k es
        match r.err with
        | none => some (.ret .unit, { w.set x (some (k, r.arr)) with next := w.next + r.used })
        | some e => some (.exn e, { w with next := w.next + r.used, leaked := w.leaked + heldBy r.arr })
    else none
  | .alloc x es =>
    match w.arr x with
    | none => none
    | some (k, a) =>
      if SizesOk k es then
        let r := allocStep mem w.next k es a
        some (evOf r.err, { w.set x (some (k, r.arr)) with next := w.next + r.used })
      else none
  | .realloc x es =>
    match w.arr x with
    | none => none
    | some (k, a) =>
      if SizesOk k es then
        let r := reallocStep mem w.next k es a
        some (evOf r.err, { w.set x (some (k, r.arr)) with next := w.next + r.used })
      else none
  | .clear x =>
    match w.arr x with
    | none => none
    | some (k, a) =>
      let r := clearStep a
      some (evOf r.err, w.set x (some (k, r.arr)))
  | .size x =>
    match w.arr x with
    | none => none
    | some (k, a) => some (.ret (.sizes (sizesOf k a)), w)
  | .read x n xs fs =>
    match w.arr x with
    | none => none
    | some (k, a) =>
      if xs.length = k.locs.length ∧ fs.length = k.locs.length then
        match a with
        | .broken _ _ => none
        | .empty => if chk then some (.exn .noData, w) else none
        | .ready es val =>
          match accessErr k.N (mkShape es k.locs) n xs fs with
          | none => some (.ret (.val (val n (point xs fs))), w)
          | some e => if chk then some (.exn e, w) else none
      else none
  | .write x n xs fs v =>
    match w.arr x with
    | none => none
    | some (k, a) =>
      if xs.length = k.locs.length ∧ fs.length = k.locs.length then
        match a with
        | .broken _ _ => none
        | .empty => if chk then some (.exn .noData, w) else none
        | .ready es val =>
          match accessErr k.N (mkShape es k.locs) n xs fs with
          | none => some (.ret .unit, w.set x (some (k, .ready es
              fun m ys => if m = n ∧ ys = point xs fs then some v else val m ys)))
          | some e => if chk then some (.exn e, w) else none
      else none
  | .copy x y args =>
    match w.arr x, w.arr y with
    | some (k, .ready es val), some (k', .ready es' val') =>
      if k' = k ∧ CopyOk k es es' args then
        let ds := (copyPlan es es' args).dims k
        if ∀ d ∈ ds, d.Over then
          if x = y ∧ ∀ d ∈ ds, d.Clash then if chk then some (.exn .copyOverlap, w) else none
          else some (.ret .unit, w.set x (some (k, .ready es
            fun n ys => if Writes ds ys then val' n (image ds ys) else val n ys)))
        else if chk then some (.exn .overlapNotFound, w) else none
      else none
    | _, _ => none
  | .destroy x =>
    match w.arr x with
    | none => none
    | some _ => some (.ret .unit, w.set x none)

/-- a history on the abstract machine -/
def arun (mem : Nat → Nat → Bool) (chk : Bool) : List (Op V) → AWorld V → Option (List (Ev V) × AWorld V)
  | [], w => some ([], w)
  | op :: ops, w =>
    match astep mem chk w op with
    | none => none
    | some (e, w') => (arun mem chk ops w').map fun (es, w'') => (e :: es, w'')

/-- `w` is the state of a program after a history inside the contract, and `a` is what
the user believes the arrays to be -/
def Reach (mem : Nat → Nat → Bool) (chk : Bool) (w : World V) (a : AWorld V) : Prop :=
  ∃ ops evs, arun mem chk ops AWorld.init = some (evs, a) ∧ run chk ops (World.init mem) = some (evs, w)

/-- every flag fits its dimension -/
def FlagsFit : List Loc → List FL → Prop
  | [], [] => True
  | l :: ls, f :: fs => flagFits l f = true ∧ FlagsFit ls fs
  | _, _ => False

/-- A valid access to an allocated array: the component exists, every flag fits its
dimension and the addressed point is stored. -/
structure Valid (k : Kind) (es : List Ext) (n : Nat) (xs : List Int) (fs : List FL) : Prop where
  lenx : xs.length = k.locs.length
  comp : n < k.N
  flags : FlagsFit k.locs fs
  pt : HasPt (mkShape es k.locs) (point xs fs)

/-- no array is in the half allocated state -/
def Unbroken (aw : AWorld V) : Prop := ∀ x k es g, aw.arr x ≠ some (k, .broken es g)

/-- A call that compiles, on existing objects, with sizes inside machine range. -/
def TypedOp (aw : AWorld V) : Op V → Prop
  | .make x k _ => aw.arr x = none ∧ KindOk k
  | .makeSized x k _ es => aw.arr x = none ∧ KindOk k ∧ SizesOk k es
  | .alloc x es => ∃ k a, aw.arr x = some (k, a) ∧ SizesOk k es
  | .realloc x es => ∃ k a, aw.arr x = some (k, a) ∧ SizesOk k es
  | .clear x => ∃ k a, aw.arr x = some (k, a)
  | .size x => ∃ k a, aw.arr x = some (k, a)
  | .read x _ xs fs => ∃ k a, aw.arr x = some (k, a) ∧ xs.length = k.locs.length ∧ fs.length = k.locs.length
  | .write x _ xs fs _ => ∃ k a, aw.arr x = some (k, a) ∧ xs.length = k.locs.length ∧ fs.length = k.locs.length
  | .copy x y args => ∃ k es val es' val', aw.arr x = some (k, .ready es val) ∧ aw.arr y = some (k, .ready es' val') ∧
      CopyOk k es es' args
  | .destroy x => ∃ k a, aw.arr x = some (k, a)

/-- the two situations in which an `alloc` cannot stop half way: memory never runs out,
or only 1D arrays are used -/
def Safe (mem : Nat → Nat → Bool) (ops : List (Op V)) : Prop :=
  (∀ k sz, mem k sz = true) ∨
  ∀ op ∈ ops, ∀ x k, (∀ j, op = .make x k j → k.locs.length = 1) ∧ ∀ j es, op = .makeSized x k j es → k.locs.length = 1

end Verif.Spec
