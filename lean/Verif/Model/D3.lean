import Verif.Model.Flags
import Verif.Model.Heap
/-!
# Namespace `liton_pd::D3` — `PointData_3D.hpp`

`chk` is `true` iff `_CHECK_POINTDATA_RANGE` is defined.  The C arrays `_begin[3]`,
`_size[3]`, `_in[3]`, `_n[3]`, `_p[3]` are flattened into fields; `sel` is the array
access, undefined outside `0..2`.
-/
namespace Verif.D3

/-- `DIM::D` — PointData_3D.hpp:21 -/
def D : Nat := 3

/-- `a[d]` for a C array of 3 elements -/
def sel (x0 x1 x2 : Int) (d : Nat) : Out Int :=
  match d with
  | 0 => .ok x0
  | 1 => .ok x1
  | 2 => .ok x2
  | _ => .ub .oob

/-- `RangeT` — PointData_3D.hpp:37-49 -/
structure RangeT where
  b0 : Int := 0
  s0 : Int := 0
  b1 : Int := 0
  s1 : Int := 0
  b2 : Int := 0
  s2 : Int := 0
  deriving DecidableEq, Repr

namespace RangeT

/-- `RangeT(b0, s0, b1, s1, b2, s2)` — PointData_3D.hpp:45-49 -/
def new (b0 : Int) (s0 : Nat) (b1 : Int) (s1 : Nat) (b2 : Int) (s2 : Nat) : RangeT :=
  ⟨b0, toI32 s0, b1, toI32 s1, b2, toI32 s2⟩

/-- PointData_3D.hpp:54 -/
def begin_ (chk : Bool) (r : RangeT) (d : Nat) : Out Int := do
  check_d chk D d; sel r.b0 r.b1 r.b2 d
/-- PointData_3D.hpp:55 -/
def size (chk : Bool) (r : RangeT) (d : Nat) : Out Int := do
  check_d chk D d; sel r.s0 r.s1 r.s2 d
/-- PointData_3D.hpp:56 -/
def end_ (chk : Bool) (r : RangeT) (d : Nat) : Out Int := do
  let b ← r.begin_ chk d
  let s ← r.size chk d
  i32 (b + s)
/-- PointData_3D.hpp:57 -/
def last (chk : Bool) (r : RangeT) (d : Nat) : Out Int := do
  let e ← r.end_ chk d
  i32 (e - 1)
/-- PointData_3D.hpp:58-59 -/
def bound (chk : Bool) (r : RangeT) (d : Nat) : Side → Out Int
  | .N => r.begin_ chk d
  | .P => r.last chk d

/-- PointData_3D.hpp:61-67 -/
def cut_head (r : RangeT) (i j k : Int) : Out RangeT := do
  let b0 ← i32 (r.b0 + i)
  let s0 ← i32 (r.s0 - i)
  let b1 ← i32 (r.b1 + j)
  let s1 ← i32 (r.s1 - j)
  let b2 ← i32 (r.b2 + k)
  let s2 ← i32 (r.s2 - k)
  .ok ⟨b0, s0, b1, s1, b2, s2⟩
/-- PointData_3D.hpp:68 -/
def cut_tail (r : RangeT) (i j k : Int) : Out RangeT := do
  let s0 ← i32 (r.s0 - i)
  let s1 ← i32 (r.s1 - j)
  let s2 ← i32 (r.s2 - k)
  .ok ⟨r.b0, s0, r.b1, s1, r.b2, s2⟩
/-- PointData_3D.hpp:69 -/
def tran (r : RangeT) (i j k : Int) : Out RangeT := do
  let b0 ← i32 (r.b0 + i)
  let b1 ← i32 (r.b1 + j)
  let b2 ← i32 (r.b2 + k)
  .ok ⟨b0, r.s0, b1, r.s1, b2, r.s2⟩

/-- PointData_3D.hpp:71-83.  The operands of `||` are evaluated left to right. -/
def is_overlap (chk : Bool) (a r : RangeT) : Out Bool := do
  let b0 ← a.begin_ chk 0
  let re0 ← r.end_ chk 0
  if b0 ≥ re0 then .ok false else
    let e0 ← a.end_ chk 0
    let rb0 ← r.begin_ chk 0
    if e0 ≤ rb0 then .ok false else
      let b1 ← a.begin_ chk 1
      let re1 ← r.end_ chk 1
      if b1 ≥ re1 then .ok false else
        let e1 ← a.end_ chk 1
        let rb1 ← r.begin_ chk 1
        if e1 ≤ rb1 then .ok false else
          let b2 ← a.begin_ chk 2
          let re2 ← r.end_ chk 2
          if b2 ≥ re2 then .ok false else
            let e2 ← a.end_ chk 2
            let rb2 ← r.begin_ chk 2
            if e2 ≤ rb2 then .ok false else .ok true

/-- PointData_3D.hpp:84-101 -/
def overlap (chk : Bool) (a r : RangeT) : Out RangeT := do
  if chk then
    let t ← a.is_overlap chk r
    if !t then .err .overlapNotFound else rest
  else rest
where
  rest : Out RangeT := do
    let b0 ← a.begin_ chk 0
    let rb0 ← r.begin_ chk 0
    let bb0 := if b0 > rb0 then b0 else rb0
    let e0 ← a.end_ chk 0
    let re0 ← r.end_ chk 0
    let ee0 := if e0 < re0 then e0 else re0
    let b1 ← a.begin_ chk 1
    let rb1 ← r.begin_ chk 1
    let bb1 := if b1 > rb1 then b1 else rb1
    let e1 ← a.end_ chk 1
    let re1 ← r.end_ chk 1
    let ee1 := if e1 < re1 then e1 else re1
    let b2 ← a.begin_ chk 2
    let rb2 ← r.begin_ chk 2
    let bb2 := if b2 > rb2 then b2 else rb2
    let e2 ← a.end_ chk 2
    let re2 ← r.end_ chk 2
    let ee2 := if e2 < re2 then e2 else re2
    let w0 ← i32 (ee0 - bb0)
    let w1 ← i32 (ee1 - bb1)
    let w2 ← i32 (ee2 - bb2)
    .ok (RangeT.new bb0 (toU32 w0) bb1 (toU32 w1) bb2 (toU32 w2))

/-- PointData_3D.hpp:103-124 -/
def check_range (chk : Bool) (r : RangeT) (d : Nat) (loc : Loc) (ii offset : Int) : Out Unit := do
  if chk then
    check_d chk D d
    let b ← r.begin_ chk d
    let e ← r.end_ chk d
    check_range_core d loc ii offset b e
  else .ok ()

/-- the two-argument overload — PointData_3D.hpp:125 -/
def check_range' (chk : Bool) (r : RangeT) (d : Nat) (ii : Int) : Out Unit :=
  r.check_range chk d .center ii 0

/-- PointData_3D.hpp:127-137 -/
def disp (chk : Bool) (r : RangeT) : Out String := do
  let b0 ← r.begin_ chk 0
  let l0 ← r.last chk 0
  let s0 ← r.size chk 0
  let b1 ← r.begin_ chk 1
  let l1 ← r.last chk 1
  let s1 ← r.size chk 1
  let b2 ← r.begin_ chk 2
  let l2 ← r.last chk 2
  let s2 ← r.size chk 2
  .ok ("range[0] = [" ++ toString b0 ++ " , " ++ toString l0 ++ "]  " ++ "size[0] = " ++ toString s0 ++ "    "
    ++ "range[1] = [" ++ toString b1 ++ " , " ++ toString l1 ++ "]  " ++ "size[1] = " ++ toString s1 ++ "    "
    ++ "range[2] = [" ++ toString b2 ++ " , " ++ toString l2 ++ "]  " ++ "size[2] = " ++ toString s2)

end RangeT

/-! ## Loops -/
section Loops
variable {σ T : Type}

/-- PointData_3D.hpp:140-159 -/
def PD_For_3D (chk : Bool) (r : RangeT) (fn : Int → Int → Int → M σ Unit) : M σ Unit := do
  let b0 ← r.begin_ chk 0
  let e0 ← r.end_ chk 0
  let b1 ← r.begin_ chk 1
  let e1 ← r.end_ chk 1
  let b2 ← r.begin_ chk 2
  let e2 ← r.end_ chk 2
  forI b0 e0 fun i => forI b1 e1 fun j => forI b2 e2 fun k => fn i j k

/-- PointData_3D.hpp:161-183 -/
def PD_For_N_3D (chk : Bool) (N_b N_e : Nat) (r : RangeT)
    (fn : Nat → Int → Int → Int → M σ Unit) : M σ Unit := do
  let b0 ← r.begin_ chk 0
  let e0 ← r.end_ chk 0
  let b1 ← r.begin_ chk 1
  let e1 ← r.end_ chk 1
  let b2 ← r.begin_ chk 2
  let e2 ← r.end_ chk 2
  forU N_b N_e fun n => forI b0 e0 fun i => forI b1 e1 fun j => forI b2 e2 fun k => fn n i j k

/-- PointData_3D.hpp:185-206 -/
def PD_Reduce_3D (chk : Bool) (r : RangeT) (ans : Ref σ T) (reduce : T → T → M σ T)
    (fn : Int → Int → Int → M σ T) : M σ Unit := do
  let t0 ← ans.read
  let b0 ← r.begin_ chk 0
  let e0 ← r.end_ chk 0
  let b1 ← r.begin_ chk 1
  let e1 ← r.end_ chk 1
  let b2 ← r.begin_ chk 2
  let e2 ← r.end_ chk 2
  let temp ← forIAcc b0 e0 t0 (fun i t => forIAcc b1 e1 t (fun j t => forIAcc b2 e2 t (fun k t => do let x ← fn i j k; reduce x t)))
  let a ← ans.read
  let a ← reduce temp a
  ans.write a

/-- PointData_3D.hpp:208-232 -/
def PD_Reduce_N_3D (chk : Bool) (N_b N_e : Nat) (r : RangeT) (ans : Ref σ T)
    (reduce : T → T → M σ T) (fn : Nat → Int → Int → Int → M σ T) : M σ Unit := do
  let t0 ← ans.read
  let b0 ← r.begin_ chk 0
  let e0 ← r.end_ chk 0
  let b1 ← r.begin_ chk 1
  let e1 ← r.end_ chk 1
  let b2 ← r.begin_ chk 2
  let e2 ← r.end_ chk 2
  let temp ← forUAcc N_b N_e t0 (fun n t =>
    forIAcc b0 e0 t (fun i t => forIAcc b1 e1 t (fun j t => forIAcc b2 e2 t (fun k t => do let x ← fn n i j k; reduce x t))))
  let a ← ans.read
  let a ← reduce temp a
  ans.write a

/-- PointData_3D.hpp:234-248 -/
def PD_For_2D (chk : Bool) (d0 d1 : Nat) (r : RangeT) (fn : Int → Int → M σ Unit) : M σ Unit := do
  let b0 ← r.begin_ chk d0
  let e0 ← r.end_ chk d0
  let b1 ← r.begin_ chk d1
  let e1 ← r.end_ chk d1
  forI b0 e0 fun i => forI b1 e1 fun j => fn i j

/-- PointData_3D.hpp:250-267 -/
def PD_For_N_2D (chk : Bool) (N_b N_e : Nat) (d0 d1 : Nat) (r : RangeT)
    (fn : Nat → Int → Int → M σ Unit) : M σ Unit := do
  let b0 ← r.begin_ chk d0
  let e0 ← r.end_ chk d0
  let b1 ← r.begin_ chk d1
  let e1 ← r.end_ chk d1
  forU N_b N_e fun n => forI b0 e0 fun i => forI b1 e1 fun j => fn n i j

/-- PointData_3D.hpp:269-285 -/
def PD_Reduce_2D (chk : Bool) (d0 d1 : Nat) (r : RangeT) (ans : Ref σ T) (reduce : T → T → M σ T)
    (fn : Int → Int → M σ T) : M σ Unit := do
  let t0 ← ans.read
  let b0 ← r.begin_ chk d0
  let e0 ← r.end_ chk d0
  let b1 ← r.begin_ chk d1
  let e1 ← r.end_ chk d1
  let temp ← forIAcc b0 e0 t0 (fun i t => forIAcc b1 e1 t (fun j t => do let x ← fn i j; reduce x t))
  let a ← ans.read
  let a ← reduce temp a
  ans.write a

/-- PointData_3D.hpp:287-306 -/
def PD_Reduce_N_2D (chk : Bool) (N_b N_e : Nat) (d0 d1 : Nat) (r : RangeT) (ans : Ref σ T)
    (reduce : T → T → M σ T) (fn : Nat → Int → Int → M σ T) : M σ Unit := do
  let t0 ← ans.read
  let b0 ← r.begin_ chk d0
  let e0 ← r.end_ chk d0
  let b1 ← r.begin_ chk d1
  let e1 ← r.end_ chk d1
  let temp ← forUAcc N_b N_e t0 (fun n t =>
    forIAcc b0 e0 t (fun i t => forIAcc b1 e1 t (fun j t => do let x ← fn n i j; reduce x t)))
  let a ← ans.read
  let a ← reduce temp a
  ans.write a

/-- PointData_3D.hpp:308-317 -/
def PD_For_1D (chk : Bool) (d0 : Nat) (r : RangeT) (fn : Int → M σ Unit) : M σ Unit := do
  let b0 ← r.begin_ chk d0
  let e0 ← r.end_ chk d0
  forI b0 e0 fun i => fn i

/-- PointData_3D.hpp:319-331 -/
def PD_For_N_1D (chk : Bool) (N_b N_e : Nat) (d0 : Nat) (r : RangeT)
    (fn : Nat → Int → M σ Unit) : M σ Unit := do
  let b0 ← r.begin_ chk d0
  let e0 ← r.end_ chk d0
  forU N_b N_e fun n => forI b0 e0 fun i => fn n i

/-- PointData_3D.hpp:333-344 -/
def PD_Reduce_1D (chk : Bool) (d0 : Nat) (r : RangeT) (ans : Ref σ T) (reduce : T → T → M σ T)
    (fn : Int → M σ T) : M σ Unit := do
  let t0 ← ans.read
  let b0 ← r.begin_ chk d0
  let e0 ← r.end_ chk d0
  let temp ← forIAcc b0 e0 t0 (fun i t => do let x ← fn i; reduce x t)
  let a ← ans.read
  let a ← reduce temp a
  ans.write a

/-- PointData_3D.hpp:346-360 -/
def PD_Reduce_N_1D (chk : Bool) (N_b N_e : Nat) (d0 : Nat) (r : RangeT) (ans : Ref σ T)
    (reduce : T → T → M σ T) (fn : Nat → Int → M σ T) : M σ Unit := do
  let t0 ← ans.read
  let b0 ← r.begin_ chk d0
  let e0 ← r.end_ chk d0
  let temp ← forUAcc N_b N_e t0 (fun n t =>
    forIAcc b0 e0 t (fun i t => do let x ← fn n i; reduce x t))
  let a ← ans.read
  let a ← reduce temp a
  ans.write a

end Loops

/-- `SizeT` — PointData_3D.hpp:362-376 -/
structure SizeT where
  in0 : Int := 0
  n0 : Int := 0
  p0 : Int := 0
  in1 : Int := 0
  n1 : Int := 0
  p1 : Int := 0
  in2 : Int := 0
  n2 : Int := 0
  p2 : Int := 0
  deriving DecidableEq, Repr

namespace SizeT

/-- `SizeT(in0, iin0, ip0, in1, iin1, ip1, in2, iin2, ip2)` — PointData_3D.hpp:371-376; per
dimension: virtual points in front, interior, virtual points behind -/
def new (n0 i0 p0 n1 i1 p1 n2 i2 p2 : Nat) : SizeT :=
  ⟨toI32 i0, toI32 n0, toI32 p0, toI32 i1, toI32 n1, toI32 p1, toI32 i2, toI32 n2, toI32 p2⟩

/-- PointData_3D.hpp:378 -/
def in' (chk : Bool) (s : SizeT) (d : Nat) : Out Int := do
  check_d chk D d; sel s.in0 s.in1 s.in2 d
/-- PointData_3D.hpp:379 -/
def n (chk : Bool) (s : SizeT) (d : Nat) : Out Int := do
  check_d chk D d; sel s.n0 s.n1 s.n2 d
/-- PointData_3D.hpp:380 -/
def p (chk : Bool) (s : SizeT) (d : Nat) : Out Int := do
  check_d chk D d; sel s.p0 s.p1 s.p2 d

/-- PointData_3D.hpp:382, 384, 386, 388 -/
def begin_ (chk : Bool) (s : SizeT) (d : Nat) : RA → Out Int
  | .ALL => do check_d chk D d; let n ← sel s.n0 s.n1 s.n2 d; i32 (-n)
  | .IN => do check_d chk D d; .ok 0
  | .N => do check_d chk D d; let n ← sel s.n0 s.n1 s.n2 d; i32 (-n)
  | .P => do check_d chk D d; sel s.in0 s.in1 s.in2 d
/-- PointData_3D.hpp:383, 385, 387, 389 -/
def end_ (chk : Bool) (s : SizeT) (d : Nat) : RA → Out Int
  | .ALL => do check_d chk D d; let i ← sel s.in0 s.in1 s.in2 d; let p ← sel s.p0 s.p1 s.p2 d; i32 (i + p)
  | .IN => do check_d chk D d; sel s.in0 s.in1 s.in2 d
  | .N => do check_d chk D d; .ok 0
  | .P => do check_d chk D d; let i ← sel s.in0 s.in1 s.in2 d; let p ← sel s.p0 s.p1 s.p2 d; i32 (i + p)
/-- PointData_3D.hpp:390-391 (`unsigned` result) -/
def size (chk : Bool) (s : SizeT) (d : Nat) (r : RA) : Out Nat := do
  let e ← s.end_ chk d r
  let b ← s.begin_ chk d r
  let w ← i32 (e - b)
  .ok (toU32 w)
/-- PointData_3D.hpp:392-393 -/
def last (chk : Bool) (s : SizeT) (d : Nat) (r : RA) : Out Int := do
  let e ← s.end_ chk d r
  i32 (e - 1)
/-- PointData_3D.hpp:394-397 -/
def bound (chk : Bool) (s : SizeT) (d : Nat) (r : RA) : Side → Out Int
  | .N => s.begin_ chk d r
  | .P => s.last chk d r

/-- PointData_3D.hpp:399-400 -/
def mirror (chk : Bool) (s : SizeT) (d : Nat) (fl : Side) (ii : Int) : Out Int := do
  let bd ← s.bound chk d .IN fl
  let t ← i32 (2 * bd)
  i32 (t - ii)
/-- PointData_3D.hpp:401-402 -/
def periodic (chk : Bool) (s : SizeT) (d : Nat) (fl : FL) (ii : Int) : Out Int := do
  let l ← s.last chk d .IN
  let t ← i32 (-fl.sign * l)
  i32 (t + ii)

/-- PointData_3D.hpp:404-410 -/
def range (chk : Bool) (s : SizeT) (r0 r1 r2 : RA) : Out RangeT := do
  let b0 ← s.begin_ chk 0 r0
  let z0 ← s.size chk 0 r0
  let b1 ← s.begin_ chk 1 r1
  let z1 ← s.size chk 1 r1
  let b2 ← s.begin_ chk 2 r2
  let z2 ← s.size chk 2 r2
  .ok (RangeT.new b0 z0 b1 z1 b2 z2)

/-- PointData_3D.hpp:412-419 -/
def disp (s : SizeT) : String :=
  "size[0] = [" ++ toString s.n0 ++ " " ++ toString s.in0 ++ " " ++ toString s.p0 ++ "]" ++ "  "
    ++ "size[1] = [" ++ toString s.n1 ++ " " ++ toString s.in1 ++ " " ++ toString s.p1 ++ "]" ++ "  "
    ++ "size[2] = [" ++ toString s.n2 ++ " " ++ toString s.in2 ++ " " ++ toString s.p2 ++ "]"

/-- one `if` of `check` -/
def checkDim (d : Nat) (i n p : Int) : Out Unit := do
  if i = 0 then
    let t ← i32 (n + p)
    if t ≠ 0 then .err (.sizeIn d) else .ok ()
  else .ok ()

/-- PointData_3D.hpp:421-435 -/
def check (s : SizeT) : Out Unit := do
  checkDim 0 s.in0 s.n0 s.p0
  checkDim 1 s.in1 s.n1 s.p1
  checkDim 2 s.in2 s.n2 s.p2

end SizeT

/-- The data members of `PointData` — PointData_3D.hpp:448-452.
`pt0` is the C array `pt0[_N]`; entries `n ≥ _N` do not exist and are never used. -/
structure PD where
  size : SizeT := {}
  data : Ptr := .null
  pt0 : Nat → Ptr := fun _ => .null
  pt1 : Ptr := .null
  pt2 : Ptr := .null

namespace PD
variable {V : Type}

/-- reading `pt0[n]` -/
def pt0At {σ : Type} (N : Nat) (o : PD) (n : Nat) : M σ Ptr :=
  if n < N then pure (o.pt0 n) else M.undef .oob

/-- assignment `pt0[n] = q` -/
def setPt0 (N n : Nat) (q : Ptr) : M (St V PD) Unit :=
  if n < N then St.modObj (fun o => { o with pt0 := fun m => if m = n then q else o.pt0 m })
  else M.undef .oob

/-- `check_n` — PointData_3D.hpp:532-542 -/
def check_n (chk : Bool) (N n : Nat) : Out Unit :=
  if chk = true ∧ N ≤ n then .err (.nRange n N) else .ok ()

/-- the two `if`s of `check_flag` for dimension `d` -/
def checkFlagDim (chk : Bool) (d : Nat) (L : Loc) (f : FL) : Out Unit :=
  if chk = true ∧ L = .center ∧ f ≠ .C then .err (.flagCenter d)
  else if chk = true ∧ L = .half ∧ f = .C then .err (.flagHalf d)
  else .ok ()

/-- `check_flag` — PointData_3D.hpp:544-573 -/
def check_flag (chk : Bool) (L0 L1 L2 : Loc) (f0 f1 f2 : FL) : Out Unit := do
  checkFlagDim chk 0 L0 f0
  checkFlagDim chk 1 L1 f1
  checkFlagDim chk 2 L2 f2

/-- `check_data` — PointData_3D.hpp:575-583 -/
def check_data (chk : Bool) (o : PD) : Out Unit :=
  if chk = true ∧ o.data = .null then .err .noData else .ok ()

/-- the lvalue `pt0[n][i][j][k]` -/
def elem (N : Nat) (o : PD) (n : Nat) (i j k : Int) : M (Heap V) Ptr := do
  let p ← pt0At N o n
  let q ← Heap.idx p i
  let p ← Heap.loadP q
  let q ← Heap.idx p j
  let p ← Heap.loadP q
  Heap.idx p k

/-- `operator()` (both overloads) — PointData_3D.hpp:476-497.  The result is the reference,
i.e. the address of the element. -/
def at_ (chk : Bool) (N : Nat) (L0 L1 L2 : Loc) (o : PD) (n : Nat) (i j k : Int) (f0 f1 f2 : FL) :
    M (Heap V) Ptr := do
  check_data chk o
  check_n chk N n
  check_flag chk L0 L1 L2 f0 f1 f2
  let r ← o.size.range chk .ALL .ALL .ALL
  r.check_range chk 0 L0 i f0.offset
  let r ← o.size.range chk .ALL .ALL .ALL
  r.check_range chk 1 L1 j f1.offset
  let r ← o.size.range chk .ALL .ALL .ALL
  r.check_range chk 2 L2 k f2.offset
  let a ← i32 (i + f0.offset)
  let b ← i32 (j + f1.offset)
  let c ← i32 (k + f2.offset)
  elem N o n a b c

/-- `data_pt` — PointData_3D.hpp:499-500 -/
def data_pt (chk : Bool) (N : Nat) (o : PD) (n : Nat) : M (Heap V) Ptr := do
  check_n chk N n
  let p ← pt0At N o n
  let s0 ← o.size.n chk 0
  let m0 ← i32 (-s0)
  let q ← Heap.idx p m0
  let p ← Heap.loadP q
  let s1 ← o.size.n chk 1
  let m1 ← i32 (-s1)
  let q ← Heap.idx p m1
  let p ← Heap.loadP q
  let s2 ← o.size.n chk 2
  Heap.padd p (-s2)

/-- body of the loop over `jj` in `alloc` — PointData_3D.hpp:656-659; `w0`, `w1`, `w2` are the
unsigned values `s.size(d, RA::ALL) + _LOCd` -/
def allocCell (chk : Bool) (N : Nat) (s : SizeT) (w0 w1 w2 : Nat) (m ii jj : Nat) :
    M (St V PD) Unit := do
  let o ← St.obj
  let p0 ← pt0At N o m
  let c ← St.heap (Heap.idx p0 ii)
  let row ← St.heap (Heap.loadP c)
  let c ← St.heap (Heap.idx row jj)
  let q ← St.heap (Heap.padd o.data (u32 (u32 (u32 (m * w0) * w1) * w2)))
  let q ← St.heap (Heap.padd q (u32 (u32 (ii * w1) * w2)))
  let q ← St.heap (Heap.padd q (u32 (jj * w2)))
  St.heap (Heap.storeP c q)
  let c ← St.heap (Heap.idx p0 ii)
  let row ← St.heap (Heap.loadP c)
  let c ← St.heap (Heap.idx row jj)
  let q ← St.heap (Heap.loadP c)
  let n2 ← s.n chk 2
  let q ← St.heap (Heap.padd q n2)
  St.heap (Heap.storeP c q)

/-- body of the loop over `ii` in `alloc` — PointData_3D.hpp:652-661 -/
def allocRow (chk : Bool) (N : Nat) (s : SizeT) (w0 w1 w2 : Nat) (m ii : Nat) :
    M (St V PD) Unit := do
  let o ← St.obj
  let p0 ← pt0At N o m
  let c ← St.heap (Heap.idx p0 ii)
  let q ← St.heap (Heap.padd o.pt2 (u32 (u32 (m * w0) * w1)))
  let q ← St.heap (Heap.padd q (u32 (ii * w1)))
  St.heap (Heap.storeP c q)
  forU 0 w1 fun jj => allocCell chk N s w0 w1 w2 m ii jj
  let c ← St.heap (Heap.idx p0 ii)
  let q ← St.heap (Heap.loadP c)
  let n1 ← s.n chk 1
  let q ← St.heap (Heap.padd q n1)
  St.heap (Heap.storeP c q)

/-- body of the loop over `n` in `alloc` — PointData_3D.hpp:649-663 -/
def allocComp (chk : Bool) (N : Nat) (s : SizeT) (w0 w1 w2 : Nat) (m : Nat) :
    M (St V PD) Unit := do
  let o ← St.obj
  let q ← St.heap (Heap.padd o.pt1 (u32 (m * w0)))
  setPt0 N m q
  forU 0 w0 fun ii => allocRow chk N s w0 w1 w2 m ii
  let o ← St.obj
  let p0 ← pt0At N o m
  let n0 ← s.n chk 0
  let q ← St.heap (Heap.padd p0 n0)
  setPt0 N m q

/-- the `try` block of `alloc` — PointData_3D.hpp:642-664 -/
def allocMem (chk : Bool) (N : Nat) (s : SizeT) (w0 w1 w2 : Nat) : M (St V PD) Unit := do
  let d ← St.heap (Heap.newVals (u32 (u32 (u32 (w0 * w1) * w2) * N)))
  St.modObj (fun o => { o with data := d })
  St.modObj (fun o => { o with size := s })
  let q ← St.heap (Heap.newPtrs (u32 (N * w0)))
  St.modObj (fun o => { o with pt1 := q })
  let q ← St.heap (Heap.newPtrs (u32 (u32 (N * w0) * w1)))
  St.modObj (fun o => { o with pt2 := q })
  forU 0 N fun m => allocComp chk N s w0 w1 w2 m

/-- `alloc` — PointData_3D.hpp:624-676 -/
def alloc (chk : Bool) (N : Nat) (L0 L1 L2 : Loc) (n0 i0 p0 n1 i1 p1 n2 i2 p2 : Nat) : M (St V PD) Unit := do
  let o ← St.obj
  if o.data ≠ .null then M.throw .notEmpty
  else
    let s := SizeT.new n0 i0 p0 n1 i1 p1 n2 i2 p2
    s.check
    let z0 ← s.size chk 0 .ALL
    let w0 := u32 (z0 + L0.toNat)
    let z1 ← s.size chk 1 .ALL
    let w1 := u32 (z1 + L1.toNat)
    let z2 ← s.size chk 2 .ALL
    let w2 := u32 (z2 + L2.toNat)
    let size_point := u32 (u32 (w0 * w1) * w2)
    if size_point ≠ 0 then tryAlloc (allocMem chk N s w0 w1 w2)
    else pure ()

/-- `clear` — PointData_3D.hpp:688-705 -/
def clear : M (St V PD) Unit := do
  let o ← St.obj
  if o.data = .null then M.throw .isEmpty
  else
    St.heap (Heap.delArr o.data)
    St.modObj (fun o => { o with data := .null })
    St.heap (Heap.delArr o.pt1)
    St.modObj (fun o => { o with pt1 := .null })
    St.heap (Heap.delArr o.pt2)
    St.modObj (fun o => { o with pt2 := .null })
    St.modObj (fun o => { o with size := {} })

/-- `realloc` — PointData_3D.hpp:678-686 -/
def realloc (chk : Bool) (N : Nat) (L0 L1 L2 : Loc) (n0 i0 p0 n1 i1 p1 n2 i2 p2 : Nat) : M (St V PD) Unit := do
  (SizeT.new n0 i0 p0 n1 i1 p1 n2 i2 p2).check
  clear
  alloc chk N L0 L1 L2 n0 i0 p0 n1 i1 p1 n2 i2 p2

/-- default constructor — PointData_3D.hpp:586-597, member initialisers 448-452.
`pt0` is indeterminate before the loop: the state before is the object with default
member initialisers and arbitrary `pt0`. -/
def ctor0 (N : Nat) : M (St V PD) Unit := do
  if N = 0 then M.throw .nZero
  else
    St.modObj (fun o => { o with size := {}, data := .null, pt1 := .null, pt2 := .null })
    forU 0 N fun m => setPt0 N m .null

/-- sizing constructor — PointData_3D.hpp:599-613 -/
def ctor (chk : Bool) (N : Nat) (L0 L1 L2 : Loc) (n0 i0 p0 n1 i1 p1 n2 i2 p2 : Nat) : M (St V PD) Unit := do
  ctor0 N
  alloc chk N L0 L1 L2 n0 i0 p0 n1 i1 p1 n2 i2 p2

/-- destructor — PointData_3D.hpp:615-622 -/
def dtor : M (St V PD) Unit := do
  let o ← St.obj
  if o.data ≠ .null then clear else pure ()

/-- one assignment of the innermost loop of `copy_from` — PointData_3D.hpp:787 -/
def copyElem (N : Nat) (o pd : PD) (n : Nat) (II JJ KK ddi ddj ddk : Int) : M (Heap V) Unit := do
  let i ← i32 (II + ddi)
  let j ← i32 (JJ + ddj)
  let k ← i32 (KK + ddk)
  let src ← elem N pd n i j k
  let v ← Heap.loadV src
  let dst ← elem N o n II JJ KK
  Heap.storeV dst v

/-- `copy_from(pd, R, r_, I, J, K, i, j, k)` — PointData_3D.hpp:750-792.  `same` is
the value of `&pd == this`. -/
def copy_from (chk : Bool) (N : Nat) (L0 L1 L2 : Loc) (o pd : PD) (same : Bool)
    (R r_ : RangeT) (I J K i j k : Int) : M (Heap V) Unit := do
  let t0 ← i32 (I - i)
  let t1 ← i32 (J - j)
  let t2 ← i32 (K - k)
  let r ← r_.tran t0 t1 t2
  let ov ← R.overlap chk r
  if chk then
    let u0 ← i32 (i - I)
    let u1 ← i32 (j - J)
    let u2 ← i32 (k - K)
    let RR ← R.tran u0 u1 u2
    let RR ← RR.cut_tail (-L0.toNat) (-L1.toNat) (-L2.toNat)
    let RR ← RR.cut_head (-L0.toNat) (-L1.toNat) (-L2.toNat)
    if same then
      let t ← RR.is_overlap chk ov
      if t then M.throw .copyOverlap else pure ()
    else pure ()
  else pure ()
  let ov ← ov.cut_tail (-L0.toNat) (-L1.toNat) (-L2.toNat)
  let ddi ← i32 (i - I)
  let ddj ← i32 (j - J)
  let ddk ← i32 (k - K)
  let begin0 ← ov.begin_ chk 0
  let end0 ← ov.end_ chk 0
  let begin1 ← ov.begin_ chk 1
  let end1 ← ov.end_ chk 1
  let begin2 ← ov.begin_ chk 2
  let end2 ← ov.end_ chk 2
  forI begin0 end0 fun II => forI begin1 end1 fun JJ => forI begin2 end2 fun KK =>
    forU 0 N fun n => copyElem N o pd n II JJ KK ddi ddj ddk

/-- `copy_from(pd, tags, tags, ints)` — PointData_3D.hpp:505-509 -/
def copy_from_tag (chk : Bool) (N : Nat) (L0 L1 L2 : Loc) (o pd : PD) (same : Bool)
    (R0 R1 R2 r0 r1 r2 : RA) (I J K i j k : Int) : M (Heap V) Unit := do
  let R ← o.size.range chk R0 R1 R2
  let r ← pd.size.range chk r0 r1 r2
  copy_from chk N L0 L1 L2 o pd same R r I J K i j k

/-- `copy_from(pd, R, r_, flags)` — PointData_3D.hpp:510-514 -/
def copy_from_fl (chk : Bool) (N : Nat) (L0 L1 L2 : Loc) (o pd : PD) (same : Bool)
    (R r_ : RangeT) (fl0 fl1 fl2 : Side) : M (Heap V) Unit := do
  let I ← R.bound chk 0 fl0
  let J ← R.bound chk 1 fl1
  let K ← R.bound chk 2 fl2
  let i ← r_.bound chk 0 fl0
  let j ← r_.bound chk 1 fl1
  let k ← r_.bound chk 2 fl2
  copy_from chk N L0 L1 L2 o pd same R r_ I J K i j k

/-- `copy_from(pd, tags, tags, flags)` — PointData_3D.hpp:515-524 -/
def copy_from_tag_fl (chk : Bool) (N : Nat) (L0 L1 L2 : Loc) (o pd : PD) (same : Bool)
    (R0 R1 R2 r0 r1 r2 : RA) (fl0 fl1 fl2 : Side) : M (Heap V) Unit := do
  let R ← o.size.range chk R0 R1 R2
  let r ← pd.size.range chk r0 r1 r2
  let I ← o.size.bound chk 0 R0 fl0
  let J ← o.size.bound chk 1 R1 fl1
  let K ← o.size.bound chk 2 R2 fl2
  let i ← pd.size.bound chk 0 r0 fl0
  let j ← pd.size.bound chk 1 r1 fl1
  let k ← pd.size.bound chk 2 r2 fl2
  copy_from chk N L0 L1 L2 o pd same R r I J K i j k

/-- `disp` — PointData_3D.hpp:707-718; `ty` is `typeid(_NUMT).name()` -/
def disp (N : Nat) (L0 L1 L2 : Loc) (ty : String) (o : PD) : String :=
  "dimension:" ++ toString D
    ++ "  location:[" ++ locStr L0 ++ ", " ++ locStr L1 ++ ", " ++ locStr L2 ++ "]"
    ++ "  type:[" ++ ty ++ "]"
    ++ "  N = " ++ toString N
    ++ "  " ++ o.size.disp
where
  locStr : Loc → String
    | .center => "center"
    | .half => "half"

/-- `disp_data` — PointData_3D.hpp:720-748.  The output stream is the state's second component,
a list of printed items (newest last); `fmt` prints a value (`none`: an indeterminate
value, whose text is arbitrary). -/
def disp_data (chk : Bool) (N : Nat) (L0 L1 L2 : Loc) (fmt : Option V → String) (o : PD) :
    M (St V (List String)) Unit := do
  let begin0 ← o.size.begin_ chk 0 .ALL
  let e0 ← o.size.end_ chk 0 .ALL
  let end0 ← i32 (e0 + L0.toNat)
  let begin1 ← o.size.begin_ chk 1 .ALL
  let e1 ← o.size.end_ chk 1 .ALL
  let end1 ← i32 (e1 + L1.toNat)
  let begin2 ← o.size.begin_ chk 2 .ALL
  let e2 ← o.size.end_ chk 2 .ALL
  let end2 ← i32 (e2 + L2.toNat)
  forU 0 N fun n => do
    St.modObj (fun out => out ++ ["N = ", toString n, "\n"])
    forI begin0 end0 fun i => do
      St.modObj (fun out => out ++ ["i = ", toString i, "\n"])
      forI begin1 end1 fun j => do
        forI begin2 end2 fun k => do
          let v ← St.heap (do let q ← elem N o n i j k; Heap.loadV q)
          St.modObj (fun out => out ++ [fmt v, ", "])
        St.modObj (fun out => out ++ ["\n"])
    St.modObj (fun out => out ++ ["\n"])

end PD

end Verif.D3
