import Verif.Model.Flags
import Verif.Model.Heap
/-!
# Namespace `liton_pd::D1` — `PointData_1D.hpp`

`chk` is `true` iff `_CHECK_POINTDATA_RANGE` is defined.
-/
namespace Verif.D1

/-- `DIM::D` — PointData_1D.hpp:21 -/
def D : Nat := 1

/-- `RangeT` — PointData_1D.hpp:37-45 (fields `_begin`, `_size`, default 0) -/
structure RangeT where
  b : Int := 0
  s : Int := 0
  deriving DecidableEq, Repr

namespace RangeT

/-- `RangeT(const int b, const unsigned s)` — PointData_1D.hpp:45 -/
def new (b : Int) (s : Nat) : RangeT := ⟨b, toI32 s⟩

/-- PointData_1D.hpp:50 -/
def begin_ (chk : Bool) (r : RangeT) (d : Nat) : Out Int := do check_d chk D d; .ok r.b
/-- PointData_1D.hpp:51 -/
def size (chk : Bool) (r : RangeT) (d : Nat) : Out Int := do check_d chk D d; .ok r.s
/-- PointData_1D.hpp:52 -/
def end_ (chk : Bool) (r : RangeT) (d : Nat) : Out Int := do
  let b ← r.begin_ chk d
  let s ← r.size chk d
  i32 (b + s)
/-- PointData_1D.hpp:53 -/
def last (chk : Bool) (r : RangeT) (d : Nat) : Out Int := do
  let e ← r.end_ chk d
  i32 (e - 1)
/-- PointData_1D.hpp:54-55 -/
def bound (chk : Bool) (r : RangeT) (d : Nat) : Side → Out Int
  | .N => r.begin_ chk d
  | .P => r.last chk d

/-- PointData_1D.hpp:57 -/
def cut_head (r : RangeT) (i : Int) : Out RangeT := do
  let b ← i32 (r.b + i)
  let s ← i32 (r.s - i)
  .ok ⟨b, s⟩
/-- PointData_1D.hpp:58 -/
def cut_tail (r : RangeT) (i : Int) : Out RangeT := do
  let s ← i32 (r.s - i)
  .ok ⟨r.b, s⟩
/-- PointData_1D.hpp:59 -/
def tran (r : RangeT) (i : Int) : Out RangeT := do
  let b ← i32 (r.b + i)
  .ok ⟨b, r.s⟩

/-- PointData_1D.hpp:61-71.  The calls of `begin`/`end` are evaluated before the
disjunction here; they are pure and the only difference is which of two
expressions overflows first. -/
def is_overlap (chk : Bool) (a r : RangeT) : Out Bool := do
  let b0 ← a.begin_ chk 0
  let re0 ← r.end_ chk 0
  if b0 ≥ re0 then .ok false else
    let e0 ← a.end_ chk 0
    let rb0 ← r.begin_ chk 0
    if e0 ≤ rb0 then .ok false else .ok true

/-- PointData_1D.hpp:72-83 -/
def overlap (chk : Bool) (a r : RangeT) : Out RangeT := do
  if chk then
    let t ← a.is_overlap chk r
    if !t then .err .overlapNotFound else rest
  else rest
where
  rest : Out RangeT := do
    let b0 ← a.begin_ chk 0
    let rb0 ← r.begin_ chk 0
    let bb := if b0 > rb0 then b0 else rb0
    let e0 ← a.end_ chk 0
    let re0 ← r.end_ chk 0
    let ee := if e0 < re0 then e0 else re0
    let w ← i32 (ee - bb)
    .ok (RangeT.new bb (toU32 w))

/-- PointData_1D.hpp:85-106 -/
def check_range (chk : Bool) (r : RangeT) (d : Nat) (loc : Loc) (ii offset : Int) : Out Unit := do
  if chk then
    check_d chk D d
    let b ← r.begin_ chk d
    let e ← r.end_ chk d
    check_range_core d loc ii offset b e
  else .ok ()

/-- the two-argument overload — PointData_1D.hpp:107 -/
def check_range' (chk : Bool) (r : RangeT) (d : Nat) (ii : Int) : Out Unit :=
  r.check_range chk d .center ii 0

/-- PointData_1D.hpp:109-115 -/
def disp (chk : Bool) (r : RangeT) : Out String := do
  let b ← r.begin_ chk 0
  let l ← r.last chk 0
  let s ← r.size chk 0
  .ok ("range[0] = [" ++ toString b ++ " , " ++ toString l ++ "]  " ++ "size[0] = " ++ toString s)

end RangeT

/-! ## Loops — PointData_1D.hpp:118-170 -/
section Loops
variable {σ T : Type}

/-- PointData_1D.hpp:118-127 -/
def PD_For_1D (chk : Bool) (r : RangeT) (fn : Int → M σ Unit) : M σ Unit := do
  let b ← r.begin_ chk 0
  let e ← r.end_ chk 0
  forI b e fn

/-- PointData_1D.hpp:129-141 -/
def PD_For_N_1D (chk : Bool) (N_b N_e : Nat) (r : RangeT) (fn : Nat → Int → M σ Unit) :
    M σ Unit := do
  let b ← r.begin_ chk 0
  let e ← r.end_ chk 0
  forU N_b N_e fun n => forI b e fun i => fn n i

/-- PointData_1D.hpp:143-154 -/
def PD_Reduce_1D (chk : Bool) (r : RangeT) (ans : Ref σ T) (reduce : T → T → M σ T)
    (fn : Int → M σ T) : M σ Unit := do
  let t0 ← ans.read
  let b ← r.begin_ chk 0
  let e ← r.end_ chk 0
  let temp ← forIAcc b e t0 (fun i t => do let x ← fn i; reduce x t)
  let a ← ans.read
  let a ← reduce temp a
  ans.write a

/-- PointData_1D.hpp:156-170 -/
def PD_Reduce_N_1D (chk : Bool) (N_b N_e : Nat) (r : RangeT) (ans : Ref σ T)
    (reduce : T → T → M σ T) (fn : Nat → Int → M σ T) : M σ Unit := do
  let t0 ← ans.read
  let b ← r.begin_ chk 0
  let e ← r.end_ chk 0
  let temp ← forUAcc N_b N_e t0 (fun n t =>
    forIAcc b e t (fun i t => do let x ← fn n i; reduce x t))
  let a ← ans.read
  let a ← reduce temp a
  ans.write a
end Loops

/-- `SizeT` — PointData_1D.hpp:172-182 -/
structure SizeT where
  in_ : Int := 0
  n_ : Int := 0
  p_ : Int := 0
  deriving DecidableEq, Repr

namespace SizeT

/-- `SizeT(in, iin, ip)` — PointData_1D.hpp:181-182; first argument: virtual points
in front, second: interior, third: virtual points behind -/
def new (n i p : Nat) : SizeT := ⟨toI32 i, toI32 n, toI32 p⟩

/-- PointData_1D.hpp:184 -/
def in' (chk : Bool) (s : SizeT) (d : Nat) : Out Int := do check_d chk D d; .ok s.in_
/-- PointData_1D.hpp:185 -/
def n (chk : Bool) (s : SizeT) (d : Nat) : Out Int := do check_d chk D d; .ok s.n_
/-- PointData_1D.hpp:186 -/
def p (chk : Bool) (s : SizeT) (d : Nat) : Out Int := do check_d chk D d; .ok s.p_

/-- PointData_1D.hpp:188, 190, 192, 194 -/
def begin_ (chk : Bool) (s : SizeT) (d : Nat) : RA → Out Int
  | .ALL => do check_d chk D d; i32 (-s.n_)
  | .IN => do check_d chk D d; .ok 0
  | .N => do check_d chk D d; i32 (-s.n_)
  | .P => do check_d chk D d; .ok s.in_
/-- PointData_1D.hpp:189, 191, 193, 195 -/
def end_ (chk : Bool) (s : SizeT) (d : Nat) : RA → Out Int
  | .ALL => do check_d chk D d; i32 (s.in_ + s.p_)
  | .IN => do check_d chk D d; .ok s.in_
  | .N => do check_d chk D d; .ok 0
  | .P => do check_d chk D d; i32 (s.in_ + s.p_)
/-- PointData_1D.hpp:196-197 (`unsigned` result) -/
def size (chk : Bool) (s : SizeT) (d : Nat) (r : RA) : Out Nat := do
  let e ← s.end_ chk d r
  let b ← s.begin_ chk d r
  let w ← i32 (e - b)
  .ok (toU32 w)
/-- PointData_1D.hpp:198-199 -/
def last (chk : Bool) (s : SizeT) (d : Nat) (r : RA) : Out Int := do
  let e ← s.end_ chk d r
  i32 (e - 1)
/-- PointData_1D.hpp:200-203 -/
def bound (chk : Bool) (s : SizeT) (d : Nat) (r : RA) : Side → Out Int
  | .N => s.begin_ chk d r
  | .P => s.last chk d r

/-- PointData_1D.hpp:205-206 -/
def mirror (chk : Bool) (s : SizeT) (d : Nat) (fl : Side) (ii : Int) : Out Int := do
  let bd ← s.bound chk d .IN fl
  let t ← i32 (2 * bd)
  i32 (t - ii)
/-- PointData_1D.hpp:207-208 -/
def periodic (chk : Bool) (s : SizeT) (d : Nat) (fl : FL) (ii : Int) : Out Int := do
  let l ← s.last chk d .IN
  let t ← i32 (-fl.sign * l)
  i32 (t + ii)

/-- PointData_1D.hpp:210-211 -/
def range (chk : Bool) (s : SizeT) (r0 : RA) : Out RangeT := do
  let b ← s.begin_ chk 0 r0
  let z ← s.size chk 0 r0
  .ok (RangeT.new b z)

/-- PointData_1D.hpp:213-218 -/
def disp (s : SizeT) : String :=
  "size[0] = [" ++ toString s.n_ ++ " " ++ toString s.in_ ++ " " ++ toString s.p_ ++ "]"

/-- PointData_1D.hpp:220-226 -/
def check (s : SizeT) : Out Unit := do
  if s.in_ = 0 then
    let t ← i32 (s.n_ + s.p_)
    if t ≠ 0 then .err (.sizeIn 0) else .ok ()
  else .ok ()

end SizeT

/-- The data members of `PointData<_NUMT,_N,_LOC0>` — PointData_1D.hpp:236-239.
`pt0` is the C array `pt0[_N]`; entries `n ≥ _N` do not exist and are never used. -/
structure PD where
  size : SizeT := {}
  data : Ptr := .null
  pt0 : Nat → Ptr := fun _ => .null

namespace PD
variable {V : Type}

/-- reading `pt0[n]` -/
def pt0At {σ : Type} (N : Nat) (o : PD) (n : Nat) : M σ Ptr :=
  if n < N then pure (o.pt0 n) else M.undef .oob

/-- assignment `pt0[n] = q` -/
def setPt0 (N n : Nat) (q : Ptr) : M (St V PD) Unit :=
  if n < N then St.modObj (fun o => { o with pt0 := fun m => if m = n then q else o.pt0 m })
  else M.undef .oob

/-- `check_n` — PointData_1D.hpp:304-314 -/
def check_n (chk : Bool) (N n : Nat) : Out Unit :=
  if chk = true ∧ N ≤ n then .err (.nRange n N) else .ok ()

/-- `check_flag` — PointData_1D.hpp:316-329 -/
def check_flag (chk : Bool) (L0 : Loc) (f0 : FL) : Out Unit :=
  if chk = true ∧ L0 = .center ∧ f0 ≠ .C then .err (.flagCenter 0)
  else if chk = true ∧ L0 = .half ∧ f0 = .C then .err (.flagHalf 0)
  else .ok ()

/-- `check_data` — PointData_1D.hpp:331-339 -/
def check_data (chk : Bool) (o : PD) : Out Unit :=
  if chk = true ∧ o.data = .null then .err .noData else .ok ()

/-- the lvalue `pt0[n][i]` used in `operator()`, `disp_data`, `copy_from`, `read_plt` -/
def elem (N : Nat) (o : PD) (n : Nat) (i : Int) : M (Heap V) Ptr := do
  let p ← pt0At N o n
  Heap.idx p i

/-- `operator()` (both overloads) — PointData_1D.hpp:257-274.  The result is the
reference, i.e. the address of the element. -/
def at_ (chk : Bool) (N : Nat) (L0 : Loc) (o : PD) (n : Nat) (i : Int) (f0 : FL) :
    M (Heap V) Ptr := do
  check_data chk o
  check_n chk N n
  check_flag chk L0 f0
  let r ← o.size.range chk .ALL
  r.check_range chk 0 L0 i f0.offset
  let k ← i32 (i + f0.offset)
  elem N o n k

/-- `data_pt` — PointData_1D.hpp:276-277 -/
def data_pt (chk : Bool) (N : Nat) (o : PD) (n : Nat) : M (Heap V) Ptr := do
  check_n chk N n
  let p ← pt0At N o n
  let k ← o.size.n chk 0
  Heap.padd p (-k)

/-- body of the loop in `alloc` — PointData_1D.hpp:399; `w0` is `size_point` -/
def allocComp (chk : Bool) (N : Nat) (s : SizeT) (w0 m : Nat) : M (St V PD) Unit := do
  let o ← St.obj
  let q ← St.heap (Heap.padd o.data (u32 (m * w0)))
  let n0 ← s.n chk 0
  let q ← St.heap (Heap.padd q n0)
  setPt0 N m q

/-- the `try` block of `alloc` — PointData_1D.hpp:394-400 -/
def allocMem (chk : Bool) (N : Nat) (s : SizeT) (w0 : Nat) : M (St V PD) Unit := do
  let d ← St.heap (Heap.newVals (u32 (w0 * N)))
  St.modObj (fun o => { o with data := d })
  St.modObj (fun o => { o with size := s })
  forU 0 N fun m => allocComp chk N s w0 m

/-- `alloc` — PointData_1D.hpp:378-412 -/
def alloc (chk : Bool) (N : Nat) (L0 : Loc) (n i p : Nat) : M (St V PD) Unit := do
  let o ← St.obj
  if o.data ≠ .null then M.throw .notEmpty
  else
    let s := SizeT.new n i p
    s.check
    let z0 ← s.size chk 0 .ALL
    let size_point := u32 (z0 + L0.toNat)
    if size_point ≠ 0 then tryAlloc (allocMem chk N s size_point)
    else pure ()

/-- `clear` — PointData_1D.hpp:422-439 -/
def clear (N : Nat) : M (St V PD) Unit := do
  let o ← St.obj
  if o.data = .null then M.throw .isEmpty
  else
    St.heap (Heap.delArr o.data)
    St.modObj (fun o => { o with data := .null })
    forU 0 N fun m => setPt0 N m .null
    St.modObj (fun o => { o with size := {} })

/-- `realloc` — PointData_1D.hpp:414-420 -/
def realloc (chk : Bool) (N : Nat) (L0 : Loc) (n i p : Nat) : M (St V PD) Unit := do
  (SizeT.new n i p).check
  clear N
  alloc chk N L0 n i p

/-- default constructor — PointData_1D.hpp:342-353, members initialised at 237-238.
`pt0` is indeterminate before the loop: the state before is the object with default
member initialisers and arbitrary `pt0`. -/
def ctor0 (N : Nat) : M (St V PD) Unit := do
  if N = 0 then M.throw .nZero
  else
    St.modObj (fun o => { o with size := {}, data := .null })
    forU 0 N fun m => setPt0 N m .null

/-- sizing constructor — PointData_1D.hpp:355-367 -/
def ctor (chk : Bool) (N : Nat) (L0 : Loc) (n i p : Nat) : M (St V PD) Unit := do
  ctor0 N
  alloc chk N L0 n i p

/-- destructor — PointData_1D.hpp:369-376 -/
def dtor (N : Nat) : M (St V PD) Unit := do
  let o ← St.obj
  if o.data ≠ .null then clear N else pure ()

/-- one assignment of the innermost loop of `copy_from` — PointData_1D.hpp:498 -/
def copyElem (N : Nat) (o pd : PD) (n : Nat) (II dd : Int) : M (Heap V) Unit := do
  let k ← i32 (II + dd)
  let src ← elem N pd n k
  let v ← Heap.loadV src
  let dst ← elem N o n II
  Heap.storeV dst v

/-- `copy_from(pd, R, r_, I, i)` — PointData_1D.hpp:471-501.  `same` is the value of
`&pd == this`. -/
def copy_from (chk : Bool) (N : Nat) (L0 : Loc) (o pd : PD) (same : Bool)
    (R r_ : RangeT) (I i : Int) : M (Heap V) Unit := do
  let dI ← i32 (I - i)
  let r ← r_.tran dI
  let ov ← R.overlap chk r
  if chk then
    let di ← i32 (i - I)
    let RR ← R.tran di
    let RR ← RR.cut_tail (-L0.toNat)
    let RR ← RR.cut_head (-L0.toNat)
    if same then
      let t ← RR.is_overlap chk ov
      if t then M.throw .copyOverlap else pure ()
    else pure ()
  else pure ()
  let ov ← ov.cut_tail (-L0.toNat)
  let dd ← i32 (i - I)
  let begin0 ← ov.begin_ chk 0
  let end0 ← ov.end_ chk 0
  forI begin0 end0 fun II => forU 0 N fun n => copyElem N o pd n II dd

/-- `copy_from(pd, R0, r0, I, i)` — PointData_1D.hpp:282-286 -/
def copy_from_tag (chk : Bool) (N : Nat) (L0 : Loc) (o pd : PD) (same : Bool)
    (R0 r0 : RA) (I i : Int) : M (Heap V) Unit := do
  let R ← o.size.range chk R0
  let r ← pd.size.range chk r0
  copy_from chk N L0 o pd same R r I i

/-- `copy_from(pd, R, r_, fl0)` — PointData_1D.hpp:287-291 -/
def copy_from_fl (chk : Bool) (N : Nat) (L0 : Loc) (o pd : PD) (same : Bool)
    (R r_ : RangeT) (fl0 : Side) : M (Heap V) Unit := do
  let I ← R.bound chk 0 fl0
  let i ← r_.bound chk 0 fl0
  copy_from chk N L0 o pd same R r_ I i

/-- `copy_from(pd, R0, r0, fl0)` — PointData_1D.hpp:292-296 -/
def copy_from_tag_fl (chk : Bool) (N : Nat) (L0 : Loc) (o pd : PD) (same : Bool)
    (R0 r0 : RA) (fl0 : Side) : M (Heap V) Unit := do
  let R ← o.size.range chk R0
  let r ← pd.size.range chk r0
  let I ← o.size.bound chk 0 R0 fl0
  let i ← pd.size.bound chk 0 r0 fl0
  copy_from chk N L0 o pd same R r I i

/-- `disp` — PointData_1D.hpp:441-452; `ty` is `typeid(_NUMT).name()` -/
def disp (N : Nat) (L0 : Loc) (ty : String) (o : PD) : String :=
  "dimension:" ++ toString D
    ++ "  location:[" ++ locStr L0 ++ "]"
    ++ "  type:[" ++ ty ++ "]"
    ++ "  N = " ++ toString N
    ++ "  " ++ o.size.disp
where
  locStr : Loc → String
    | .center => "center"
    | .half => "half"

/-- `disp_data` — PointData_1D.hpp:454-469.  The output stream is the state's second
component, a list of printed items (newest last); `fmt` prints a value (`none`: an
indeterminate value, whose text is arbitrary). -/
def disp_data (chk : Bool) (N : Nat) (L0 : Loc) (fmt : Option V → String) (o : PD) :
    M (St V (List String)) Unit := do
  let begin0 ← o.size.begin_ chk 0 .ALL
  let e0 ← o.size.end_ chk 0 .ALL
  let end0 ← i32 (e0 + L0.toNat)
  forI begin0 end0 fun i => do
    forU 0 N fun n => do
      let v ← St.heap (do let q ← elem N o n i; Heap.loadV q)
      St.modObj (fun out => out ++ [fmt v, ", "])
    St.modObj (fun out => out ++ ["\n"])

end PD

end Verif.D1
