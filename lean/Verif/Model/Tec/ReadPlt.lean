import Verif.Model.Api
import Verif.Model.Tec.File
/-!
# `PointData::read_plt` — PointData_1D.hpp:504-574, PointData_2D.hpp:646-724, PointData_3D.hpp:795-881

Simplifications.
* The `char` buffer lives in a free store of bytes of its own, the array in its free store
  of numbers; both have an arbitrary allocation oracle.
* `reinterpret_cast<float *>(buf)` reads four bytes as a little endian number; the
  assignment converts it to `_NUMT` by a parameter of the model, which may be undefined
  (a `double` outside the range of an integral `_NUMT`).
* An `std::ifstream` that could be opened sees the whole content the file has; the stream is
  closed by its destructor at the latest.
-/
namespace Verif

/-- conversion of `float` and `double` (as bit patterns) to `_NUMT` by assignment; `none`: undefined -/
structure Num (V : Type) where
  f32 : BitVec 32 → Option V
  f64 : BitVec 64 → Option V

/-- use of a converted value -/
def Num.use {V : Type} : Option V → Out V
  | some v => .ok v
  | none => .ub .overflow

/-- the free store of the arrays and the free store of the buffer -/
structure RSt (V : Type) where
  h : Heap V
  b : Heap Tec.Byte

variable {V : Type}

namespace RSt
variable {α : Type}
/-- an action on the arrays -/
def arr (m : M (Heap V) α) : M (RSt V) α := fun s =>
  match m s.h with
  | .ok a h => .ok a { s with h := h }
  | .err e h => .err e { s with h := h }
  | .ub u => .ub u
/-- an action on the buffer -/
def bytes (m : M (Heap Tec.Byte) α) : M (RSt V) α := fun s =>
  match m s.b with
  | .ok a b => .ok a { s with b := b }
  | .err e b => .err e { s with b := b }
  | .ub u => .ub u
end RSt

namespace Tec

/-- `TEC_ZONE_BASE::Real_Max_C` — ordered_tec.h:160; `DIM - 1 - d` is computed in `unsigned` -/
def ZoneLog.Real_Max_C (z : ZoneLog) (dim d : Nat) : Out Int := z.Real_Max.get (u32 (dim + 4294967296 - 1 - d))

/-- what `read_plt` is told besides the array: the file system, the arguments `root`, `teclog`, `zone`, `name` -/
structure ReadArgs where
  fs : Str → Option Str
  root : Str
  log : FileLog
  zone : Nat
  name : Str

namespace ReadArgs

/-- `zone >= teclog.Zones.size()` — PointData_1D.hpp:509-512 -/
def zoneLog (A : ReadArgs) : Out ZoneLog :=
  if A.log.Zones.length ≤ A.zone then .err (.text (lit "zone number is too big"))
  else match A.log.Zones[A.zone]? with
    | some z => .ok z
    | none => .ub .oob

/-- the search for the variable — PointData_1D.hpp:519-523 -/
def findVar (A : ReadArgs) : Out Nat :=
  let vv := A.log.Variables.findIdx (· == A.name)
  if vv = A.log.Variables.length then
    .err (.text (lit "error when finding variables " ++ A.name ++ lit " in: " ++ A.log.FileName))
  else .ok vv

/-- `teclog.Zones[zone].Data[vv]` -/
def dataLog (z : ZoneLog) (vv : Nat) : Out DataLog :=
  match z.Data[vv]? with
  | some d => .ok d
  | none => .ub .oob

/-- `plt_file_name` — PointData_1D.hpp:525 -/
def path (A : ReadArgs) : Str := A.root ++ lit "/" ++ A.log.FileName ++ lit ".plt"

/-- opening the file and moving to the position: the bytes from there on — PointData_1D.hpp:526-532.
Moving before the start of a file fails, moving behind its end does not. -/
def openAt (A : ReadArgs) (d : DataLog) : Out Str :=
  match d.file_pt with
  | none => .ub .uninit
  | some pt =>
    match A.fs (cstr A.path) with
    | none => .err (.text (lit "error when opening file: " ++ A.path))
    | some c =>
      if pt < 0 then .err (.text (lit "error when opening file: " ++ A.path))
      else .ok (c.drop pt.toNat)

/-- `new char[n]`: a request for more than half of the address space fails without asking -/
def newChars (n : Nat) : M (Heap Byte) Ptr := fun h =>
  if n < 9223372036854775808 then Heap.newVals n h else .err .badAlloc h

/-- `istream::read(p, n)` with the given bytes left in the stream: whether all could be read -/
def readInto (p : Ptr) (n : Nat) (rest : Str) : M (Heap Byte) Bool := fun h =>
  match p with
  | .null => if n = 0 then .ok true h else .ub .null
  | .at b o =>
    match h.blk b with
    | some (.vals len cell) =>
      if o + n ≤ len then
        .ok (decide (n ≤ rest.length)) (h.upd b (some (.vals len fun k =>
          if o ≤ k ∧ k < o + n ∧ k - o < rest.length then rest[k - o]? else cell k)))
      else .ub .oob
    | some (.ptrs _ _) => .ub .uninit
    | none => .ub .dangling

/-- the buffer with the bytes of the variable; `cnt` elements — PointData_1D.hpp:533-550 -/
def readBuf (A : ReadArgs) (d : DataLog) (cnt : Nat) (rest : Str) : M (Heap Byte) Ptr := do
  let buf ← tryAlloc (newChars (u64 (cnt * d.size)))
  let good ← readInto buf (u64 (cnt * d.size)) rest
  if good then pure buf
  else do
    Heap.delArr buf
    M.throw (.text (lit "error when reading file " ++ A.path))

end ReadArgs

/-- `temp[i]` converted to `_NUMT`; `temp` is the buffer as `double *` or as `float *` -/
def tempVal (C : Num V) (dbl : Bool) (buf : Ptr) (i : Nat) : M (RSt V) V :=
  if dbl then do
    let n ← RSt.bytes (loadElem .double buf i)
    let v ← Num.use (C.f64 (BitVec.ofNat 64 n))
    pure v
  else do
    let n ← RSt.bytes (loadElem .float buf i)
    let v ← Num.use (C.f32 (BitVec.ofNat 32 n))
    pure v

/-- `if (type == 1) ... else if (type == 2) ... else ...; delete[] buf;` — PointData_1D.hpp:552-573; the
argument of `loop` tells whether `temp` is a `double *` -/
def byType (d : DataLog) (buf : Ptr) (loop : Bool → M (RSt V) Unit) : M (RSt V) Unit :=
  if d.type.code = 1 then do
    loop false
    RSt.bytes (Heap.delArr buf)
  else if d.type.code = 2 then do
    loop true
    RSt.bytes (Heap.delArr buf)
  else do
    RSt.bytes (Heap.delArr buf)
    M.throw (.text (lit "tec_file data type error"))

/-- everything after the test of the sizes — PointData_1D.hpp:519-573; `cnt` is the number of points -/
def ReadArgs.load (A : ReadArgs) (z : ZoneLog) (cnt : Nat) (loop : Ptr → Bool → M (RSt V) Unit) : M (RSt V) Unit := do
  let vv ← A.findVar
  let d ← dataLog z vv
  let rest ← A.openAt d
  let buf ← RSt.bytes (A.readBuf d cnt rest)
  byType d buf (loop buf)

end Tec

open Tec

/-- body of the loop — PointData_1D.hpp:557, 565 -/
def D1.PD.readPt (N : Nat) (C : Num V) (nn : Nat) (o : PD) (buf : Ptr) (dbl : Bool) (ii : Nat) : M (RSt V) Unit := do
  let v ← tempVal C dbl buf ii
  let p ← RSt.arr (elem N o nn ii)
  RSt.arr (Heap.storeV p (some v))

/-- `read_plt` — PointData_1D.hpp:504-574 -/
def D1.PD.read_plt (chk : Bool) (N : Nat) (C : Num V) (A : ReadArgs) (nn : Nat) (o : PD) : M (RSt V) Unit := do
  check_n chk N nn
  let z ← A.zoneLog
  let r0 ← z.Real_Max_C D 0
  let N0_file := toU32 r0
  if N0_file > toU32 o.size.in_ ∨ N0_file = 0 then
    M.throw (.text (lit "N_file is bigger than N_in or equal to 0"))
  else do
    A.load z N0_file fun buf dbl =>
      forU 0 N0_file fun ii => readPt N C nn o buf dbl ii

/-- body of the loops — PointData_2D.hpp:703, 714 -/
def D2.PD.readPt (N : Nat) (C : Num V) (nn : Nat) (o : PD) (buf : Ptr) (dbl : Bool) (N1_file ii jj : Nat) : M (RSt V) Unit := do
  let v ← tempVal C dbl buf (u32 (u32 (ii * N1_file) + jj))
  let p ← RSt.arr (elem N o nn ii jj)
  RSt.arr (Heap.storeV p (some v))

/-- `read_plt` — PointData_2D.hpp:646-724 -/
def D2.PD.read_plt (chk : Bool) (N : Nat) (C : Num V) (A : ReadArgs) (nn : Nat) (o : PD) : M (RSt V) Unit := do
  check_n chk N nn
  let z ← A.zoneLog
  let r0 ← z.Real_Max_C D 0
  let r1 ← z.Real_Max_C D 1
  let N0_file := toU32 r0
  let N1_file := toU32 r1
  if N0_file > toU32 o.size.in0 ∨ N0_file = 0 ∨ N1_file > toU32 o.size.in1 ∨ N1_file = 0 then
    M.throw (.text (lit "N_file is bigger than N_in or equal to 0"))
  else do
    A.load z (u32 (N0_file * N1_file)) fun buf dbl =>
      forU 0 N0_file fun ii => forU 0 N1_file fun jj => readPt N C nn o buf dbl N1_file ii jj

/-- body of the loops — PointData_3D.hpp:856, 870 -/
def D3.PD.readPt (N : Nat) (C : Num V) (nn : Nat) (o : PD) (buf : Ptr) (dbl : Bool) (N1_file N2_file ii jj kk : Nat) :
    M (RSt V) Unit := do
  let v ← tempVal C dbl buf (u32 (u32 (u32 (u32 (ii * N1_file) * N2_file) + u32 (jj * N2_file)) + kk))
  let p ← RSt.arr (elem N o nn ii jj kk)
  RSt.arr (Heap.storeV p (some v))

/-- `read_plt` — PointData_3D.hpp:795-881 -/
def D3.PD.read_plt (chk : Bool) (N : Nat) (C : Num V) (A : ReadArgs) (nn : Nat) (o : PD) : M (RSt V) Unit := do
  check_n chk N nn
  let z ← A.zoneLog
  let r0 ← z.Real_Max_C D 0
  let r1 ← z.Real_Max_C D 1
  let r2 ← z.Real_Max_C D 2
  let N0_file := toU32 r0
  let N1_file := toU32 r1
  let N2_file := toU32 r2
  if N0_file > toU32 o.size.in0 ∨ N0_file = 0 ∨ N1_file > toU32 o.size.in1 ∨ N1_file = 0
      ∨ N2_file > toU32 o.size.in2 ∨ N2_file = 0 then
    M.throw (.text (lit "N_file is bigger than N_in or equal to 0"))
  else do
    A.load z (u32 (u32 (N0_file * N1_file) * N2_file)) fun buf dbl =>
      forU 0 N0_file fun ii => forU 0 N1_file fun jj => forU 0 N2_file fun kk =>
        readPt N C nn o buf dbl N1_file N2_file ii jj kk

/-- `x.read_plt(root, teclog, zone, name, nn)` -/
def Obj.read_plt (chk : Bool) (k : Kind) (C : Num V) (A : ReadArgs) (nn : Nat) (o : Obj) : M (RSt V) Unit :=
  match o with
  | .d1 o => D1.PD.read_plt chk k.N C A nn o
  | .d2 o => D2.PD.read_plt chk k.N C A nn o
  | .d3 o => D3.PD.read_plt chk k.N C A nn o

/-- the call on the object named `x`; the second component of the state is the free store of buffers -/
def World.read_plt (chk : Bool) (C : Num V) (A : ReadArgs) (x nn : Nat) : M (World V × Heap Byte) Unit := fun s =>
  match s.1.objs x with
  | none => .ub .dangling
  | some (k, o) =>
    match o.read_plt chk k C A nn ⟨s.1.h, s.2⟩ with
    | .ok a t => .ok a ({ s.1 with h := t.h }, t.b)
    | .err e t => .err e ({ s.1 with h := t.h }, t.b)
    | .ub u => .ub u

end Verif
