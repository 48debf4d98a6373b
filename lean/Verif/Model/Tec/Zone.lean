import Verif.Model.Tec.Basic
/-!
# `TEC_DATA`, `TEC_ZONE` and their logs — ordered_tec.cpp:802-1319, ordered_tec.h

Simplification: `TEC_ZONE` hides the members `Real_Max`, `Real_Dim`, `noskip`, `noexc` of its
base class behind members of the same name; the base members of a `TEC_ZONE` are never
used and not modelled.  The members a `TEC_ZONE_LOG` copies from them are assigned in
`wrtie_plt_pre` before any use.
-/
namespace Verif.Tec

/-- `TEC_DATA_BASE::TEC_TYPE` — ordered_tec.h:169-177 -/
inductive TecType | null | float | double | longint | shortint | byte
  deriving DecidableEq, Repr

/-- the enum value -/
def TecType.code : TecType → Int
  | .null => 0
  | .float => 1
  | .double => 2
  | .longint => 3
  | .shortint => 4
  | .byte => 5

/-- `TEC_DATA` — ordered_tec.h:163-181, 498-517 -/
structure TecData where
  type : TecType := .null
  size : Nat := 0
  DataP : Ptr := .null
  buf : Ptr := .null

/-- `TEC_DATA_LOG` — ordered_tec.h:163-181, 324-333; `none`: not initialised -/
structure DataLog where
  type : TecType
  size : Nat
  file_pt : Option Int := none
  min : Option F64 := none
  max : Option F64 := none

/-- `TEC_ZONE` — ordered_tec.h:90-105, 418-442; `Echo_Mode` is the list of its bits, bit 0 first -/
structure Zone where
  ZoneName : Str
  StrandId : Int
  SolutionTime : F64
  Max : I3
  Skip : I3
  Begin : I3
  End : I3
  Dim : Int
  Real_Max : I3
  Real_Dim : Int
  noskip : Bool
  noexc : Bool
  needreal : Bool
  Auxiliary : AuxMap
  Data : List TecData
  Echo_Mode : List Bool

/-- `TEC_ZONE_LOG` — ordered_tec.h:90-105, 257-266; `Size` is kept in bytes (the code stores
`double(bytes)/1024/1024`), `none`: not initialised -/
structure ZoneLog where
  ZoneName : Str
  StrandId : Int
  SolutionTime : F64
  Max : I3
  Skip : I3
  Begin : I3
  End : I3
  Dim : Int
  Real_Max : I3
  Real_Dim : Int
  noskip : Bool
  noexc : Bool
  Auxiliary : AuxMap
  Data : List DataLog := []
  Size : Option Nat := none
  Echo_Text : List Str := []
  Json_Text : List Str := []
  Xml_Text : List Str := []

/-- `TEC_ZONE_LOG(const TEC_ZONE &)` — ordered_tec.cpp:296 -/
def ZoneLog.ofZone (z : Zone) : ZoneLog where
  ZoneName := z.ZoneName
  StrandId := z.StrandId
  SolutionTime := z.SolutionTime
  Max := z.Max
  Skip := z.Skip
  Begin := z.Begin
  End := z.End
  Dim := z.Dim
  Real_Max := z.Real_Max
  Real_Dim := z.Real_Dim
  noskip := z.noskip
  noexc := z.noexc
  Auxiliary := z.Auxiliary

/-- `TEC_DATA_LOG(const TEC_DATA &)` — ordered_tec.cpp:536 -/
def DataLog.ofData (d : TecData) : DataLog := { type := d.type, size := d.size }

/-! ## `std::bitset<N>(std::string)` and echo modes -/

/-- `std::bitset<n>(s)` as a list of bits, bit 0 first; `none`: `std::invalid_argument`.
`strict` tells whether characters after the first `n` are examined: the standard says
so, libstdc++ ignores them. -/
def bitset (strict : Bool) (n : Nat) (s : Str) : Option (List Bool) :=
  let used := s.take n
  let checked := if strict then s else used
  if checked.all (fun c => c == 48 || c == 49) then
    some ((used.reverse.map (· == 49)) ++ List.replicate (n - used.length) false)
  else none

/-- the code chosen by `TEC_ZONE::echo_mode` — ordered_tec.cpp:860-876 -/
def zoneEchoCode (e : Str) : Str :=
  if e = lit "brief" then lit "000001001"
  else if e = lit "full" then lit "111111111"
  else if e = lit "simple" then lit "000000001"
  else if e = lit "none" then lit "000000000"
  else e

/-- `TEC_ZONE::echo_mode` — ordered_tec.cpp:858-885 -/
def Zone.echo_mode (strict : Bool) (e : Str) : M Zone Unit := fun z =>
  match bitset strict 9 (zoneEchoCode e) with
  | some b => .ok () { z with Echo_Mode := b }
  | none => .err (.text (lit "Zone(" ++ z.ZoneName ++ lit "): echo code wrong")) z

/-- `TEC_ZONE(name)` — ordered_tec.cpp:802-823; `Dim`, `Real_Max`, `Real_Dim` are not
initialised, `junk` stands for their content -/
def Zone.new (name : Str) (junk : Int) : Zone where
  ZoneName := name
  StrandId := -1
  SolutionTime := 0
  Max := ⟨1, 1, 1⟩
  Skip := ⟨1, 1, 1⟩
  Begin := ⟨0, 0, 0⟩
  End := ⟨0, 0, 0⟩
  Dim := junk
  Real_Max := ⟨junk, junk, junk⟩
  Real_Dim := junk
  noskip := true
  noexc := true
  needreal := false
  Auxiliary := []
  Data := []
  Echo_Mode := [true, false, false, true, false, false, false, false, false]

/-- `TEC_ZONE::add_auxiliary_data(name, value)` — ordered_tec.cpp:843-849 -/
def Zone.add_auxiliary_data (name value : Str) : M Zone Bool := fun z =>
  let r := z.Auxiliary.insert name value
  .ok r.2 { z with Auxiliary := r.1 }

/-- `TEC_ZONE_BASE::get_auxiliary_data` — ordered_tec.h:114-125; the conversion
`std::istringstream >> data` is the parameter `parse text old = new` -/
def Zone.get_auxiliary_data {T : Type} (parse : Str → T → T) (z : Zone) (name : Str) (data : T) : Out T :=
  match z.Auxiliary.find name with
  | none => .err (.text (lit "can not find data [" ++ name ++ lit "] in auxiliary data of zone [" ++ z.ZoneName ++ lit "]"))
  | some v => .ok (parse v data)

/-! ## Sizes -/

/-- `index[i]` — ordered_tec.cpp:891 -/
def index3 (i : Nat) : Byte := if i = 0 then 73 else if i = 1 then 74 else 75

/-- body of the first loop of `gather_real_size` — ordered_tec.cpp:891-903 -/
def Zone.checkDim (z : Zone) (i : Nat) : Out Unit := do
  let max ← z.Max.get i
  if max = 0 then
    .err (.text (lit "Zone(" ++ z.ZoneName ++ lit "): " ++ [index3 i] ++ lit "Max connot be zero"))
  else
    let skip ← z.Skip.get i
    if skip = 0 then
      .err (.text (lit "Zone(" ++ z.ZoneName ++ lit "): " ++ [index3 i] ++ lit "Skip must be positive"))
    else
      let b ← z.Begin.get i
      let e ← z.End.get i
      let s ← i32 (b + e)
      if max ≤ s then
        .err (.text (lit "Zone(" ++ z.ZoneName ++ lit "): sum of " ++ [index3 i] ++ lit "Begin and " ++ [index3 i]
          ++ lit "End is not smaller than " ++ [index3 i] ++ lit "Max"))
      else .ok ()

/-- body of the second loop of `gather_real_size` — ordered_tec.cpp:909-912 -/
def Zone.orgDim (i : Nat) : M Zone Unit := do
  let z ← M.get
  let m ← z.Max.get i
  if m = 1 then M.modify fun z => { z with Dim := z.Dim - 1 } else pure ()

/-- body of the last loop of `gather_real_size` — ordered_tec.cpp:920-930 -/
def Zone.realDim (i : Nat) : M Zone Unit := do
  let z ← M.get
  let max ← z.Max.get i
  let b ← z.Begin.get i
  let e ← z.End.get i
  let skip ← z.Skip.get i
  let a ← i32 (max - b)
  let a ← i32 (a - e)
  let q ← cdiv a skip
  M.modify fun z => { z with Real_Max := z.Real_Max.set i q }
  let r ← cmod a skip
  if r ≠ 0 then
    let q ← i32 (q + 1)
    M.modify fun z => { z with Real_Max := z.Real_Max.set i q }
  else pure ()
  let z ← M.get
  let q ← z.Real_Max.get i
  if q = 1 then M.modify fun z => { z with Real_Dim := z.Real_Dim - 1 } else pure ()
  M.modify fun z => { z with noskip := z.noskip && skip == 1, noexc := z.noexc && b == 0 && e == 0 }

/-- `TEC_ZONE::gather_real_size` — ordered_tec.cpp:887-932 -/
def Zone.gather_real_size : M Zone Unit := do
  let z ← M.get
  z.checkDim 0
  z.checkDim 1
  z.checkDim 2
  M.modify fun z => { z with Dim := 3 }
  each [2, 1, 0] fun i => Zone.orgDim i
  M.modify fun z => { z with Real_Dim := 3, noskip := true, noexc := true }
  each [2, 1, 0] fun i => Zone.realDim i

/-- `get_real_max` — ordered_tec.cpp:825-829 -/
def Zone.get_real_max (d : Nat) : M Zone Int := do
  Zone.gather_real_size
  let z ← M.get
  z.Real_Max.get d

/-- `get_real_max_C` — ordered_tec.cpp:831-835; `DIM - 1 - d` is `unsigned` -/
def Zone.get_real_max_C (DIM d : Nat) : M Zone Int := do
  Zone.gather_real_size
  let z ← M.get
  z.Real_Max.get (toU32 ((DIM : Int) - 1 - d))

/-- `get_real_dim` — ordered_tec.cpp:837-841 -/
def Zone.get_real_dim : M Zone Int := do
  Zone.gather_real_size
  let z ← M.get
  pure z.Real_Dim

/-! ## Buffers -/

/-- `Real_Max[0]*Real_Max[1]*Real_Max[2]` as `int` -/
def Zone.realProd (z : Zone) : Out Int := do
  let a ← i32 (z.Real_Max.x * z.Real_Max.y)
  i32 (a * z.Real_Max.z)

/-- assignment to the `buf` member of the `i`-th element of `Data` -/
def Zone.setBuf (i : Nat) (p : Ptr) : M (St Byte Zone) Unit :=
  St.modObj fun z => { z with Data := z.Data.modify i fun d => { d with buf := p } }

/-- `i->buf = new byte[...]` with its `catch` — ordered_tec.cpp:950-957, 975-982.  Only
`std::bad_alloc` (`.badAlloc`) can occur here. -/
def Zone.newBuf (i : Nat) (d : TecData) : M (St Byte Zone) Ptr := do
  let z ← St.obj
  let p ← z.realProd
  let b ← M.catchAs (fun _ => true)
    (fun _ => .text (lit "maybe out of memory: std::bad_alloc"))
    (St.heap (Heap.newVals (u64 (toU64 p * d.size))))
  Zone.setBuf i b
  pure b

/-- one `memcpy` of the branch without skips — ordered_tec.cpp:962-963 -/
def copyRow (z : Zone) (size : Nat) (buf datap : Ptr) (sj sk : Int) : M (Heap Byte) Unit := do
  let a ← i32 (sj - z.Begin.y)
  let a ← i32 (z.Real_Max.x * a)
  let a ← cdiv a z.Skip.y
  let r ← i32 (z.Real_Max.x * z.Real_Max.y)
  let c ← i32 (sk - z.Begin.z)
  let c ← i32 (r * c)
  let c ← cdiv c z.Skip.z
  let o ← i32 (a + c)
  let dst ← Heap.padd buf (u64 (toU64 o * size) : Nat)
  let b ← i32 (z.Max.x * sj)
  let b ← i32 (z.Begin.x + b)
  let m ← i32 (z.Max.x * z.Max.y)
  let m ← i32 (m * sk)
  let b ← i32 (b + m)
  let src ← Heap.padd datap (u64 (toU64 b * size) : Nat)
  memcpy dst src (u64 (toU64 z.Real_Max.x * size))

/-- one `memcpy` of the general branch — ordered_tec.cpp:989-990 -/
def copyPoint (z : Zone) (size : Nat) (buf datap : Ptr) (si sj sk : Int) : M (Heap Byte) Unit := do
  let f ← i32 (si - z.Begin.x)
  let f ← cdiv f z.Skip.x
  let a ← i32 (sj - z.Begin.y)
  let a ← i32 (z.Real_Max.x * a)
  let a ← cdiv a z.Skip.y
  let fa ← i32 (f + a)
  let r ← i32 (z.Real_Max.x * z.Real_Max.y)
  let c ← i32 (sk - z.Begin.z)
  let c ← i32 (r * c)
  let c ← cdiv c z.Skip.z
  let o ← i32 (fa + c)
  let dst ← Heap.padd buf (u64 (toU64 o * size) : Nat)
  let b ← i32 (z.Max.x * sj)
  let b ← i32 (si + b)
  let m ← i32 (z.Max.x * z.Max.y)
  let m ← i32 (m * sk)
  let b ← i32 (b + m)
  let src ← Heap.padd datap (u64 (toU64 b * size) : Nat)
  memcpy dst src size

/-- the loops of one variable, branch without skips — ordered_tec.cpp:958-965 -/
def fillRows (z : Zone) (size : Nat) (buf datap : Ptr) : M (Heap Byte) Unit := do
  let ek ← i32 (z.Max.z - z.End.z)
  forS z.Begin.z ek z.Skip.z fun sk => do
    let ej ← i32 (z.Max.y - z.End.y)
    forS z.Begin.y ej z.Skip.y fun sj => copyRow z size buf datap sj sk

/-- the loops of one variable, general branch — ordered_tec.cpp:983-993 -/
def fillPoints (z : Zone) (size : Nat) (buf datap : Ptr) : M (Heap Byte) Unit := do
  let ek ← i32 (z.Max.z - z.End.z)
  forS z.Begin.z ek z.Skip.z fun sk => do
    let ej ← i32 (z.Max.y - z.End.y)
    forS z.Begin.y ej z.Skip.y fun sj => do
      let ei ← i32 (z.Max.x - z.End.x)
      forS z.Begin.x ei z.Skip.x fun si => copyPoint z size buf datap si sj sk

/-- body of the loop over the variables in the two copying branches -/
def Zone.fillBuf (i : Nat) (d : TecData) : M (St Byte Zone) Unit := do
  let b ← Zone.newBuf i d
  let z ← St.obj
  St.heap (if z.noskip then fillRows z d.size b d.DataP else fillPoints z d.size b d.DataP)

/-- `TEC_ZONE::make_buf` — ordered_tec.cpp:934-997 -/
def Zone.make_buf : M (St Byte Zone) Unit := do
  let z ← St.obj
  if z.noskip && z.noexc then
    eachIdx (fun i d => Zone.setBuf i d.DataP) 0 z.Data
    St.modObj fun z => { z with needreal := false }
  else
    eachIdx (fun i d => Zone.fillBuf i d) 0 z.Data
    St.modObj fun z => { z with needreal := true }

/-- `TEC_ZONE::realise_buf` — ordered_tec.cpp:999-1016 -/
def Zone.realise_buf : M (St Byte Zone) Unit := do
  let z ← St.obj
  if z.needreal then
    each z.Data fun d => St.heap (Heap.delArr d.buf)
    St.modObj fun z => { z with needreal := false }
  else
    eachIdx (fun i _ => Zone.setBuf i .null) 0 z.Data

/-! ## Minimum and maximum -/

/-- state of the loop in `get_minmax`: `min`, `max` -/
def minmaxStep {σ T : Type} (gt lt : T → T → Bool) (data : Nat → M σ T) (i : Nat) (mm : T × T) : M σ (T × T) := do
  let a ← data (2 * i)
  let b ← data (2 * i + 1)
  let (loc_min, loc_max) := if gt a b then (b, a) else (a, b)
  let min := if lt loc_min mm.1 then loc_min else mm.1
  let max := if gt loc_max mm.2 then loc_max else mm.2
  pure (min, max)

/-- `for (size_t i = 0; i != n; ++i)` with an accumulator -/
def loopZ {σ A : Type} (body : Nat → A → M σ A) : Nat → Nat → A → M σ A
  | 0, _, a => pure a
  | k + 1, i, a => do let a ← body i a; loopZ body k (i + 1) a

/-- `get_minmax` — ordered_tec.cpp:1214-1261; `data i` reads `data[i]`, `gt`, `lt` are the
comparison operators `>`, `<` of the element type -/
def get_minmax {σ T : Type} (gt lt : T → T → Bool) (data : Nat → M σ T) (N : Nat) : M σ (T × T) := do
  let m0 ← data 0
  let m1 ← data 0
  let n := if N % 2 ≠ 0 then (N - 1) / 2 else N / 2
  let mm ← loopZ (minmaxStep gt lt data) n 0 (m0, m1)
  if N % 2 ≠ 0 then
    let l ← data (N - 1)
    if lt l mm.1 then pure (l, mm.2)
    else if gt l mm.2 then pure (mm.1, l)
    else pure mm
  else pure mm

/-- `sizeof` of the element types used in `minmax` -/
def TecType.bytes : TecType → Nat
  | .null => 0
  | .float => 4
  | .double => 8
  | .longint => 4
  | .shortint => 2
  | .byte => 1

/-- two's complement value of a `k` byte pattern -/
def signed (k n : Nat) : Int := if n < 2 ^ (8 * k - 1) then n else (n : Int) - 2 ^ (8 * k)

/-- the order of non-NaN IEEE-754 numbers: sign and magnitude; both zeros are equal -/
def ieeeKey (w n : Nat) : Int := if n < 2 ^ (w - 1) then n else -((n : Int) - 2 ^ (w - 1))

/-- NaN: exponent all ones and non-zero fraction (`m` fraction bits of `w`) -/
def isNaN (w m n : Nat) : Bool := decide ((2 ^ (w - 1 - m) - 1) * 2 ^ m < n % 2 ^ (w - 1))

/-- the value of a pattern for comparisons; `none`: NaN -/
def TecType.key (t : TecType) (n : Nat) : Option Int :=
  match t with
  | .float => if isNaN 32 23 n then none else some (ieeeKey 32 n)
  | .double => if isNaN 64 52 n then none else some (ieeeKey 64 n)
  | t => some (signed t.bytes n)

/-- `a < b` on bit patterns -/
def TecType.lt (t : TecType) (a b : Nat) : Bool :=
  match t.key a, t.key b with
  | some x, some y => decide (x < y)
  | _, _ => false

/-- conversion of an `int` to `double` (exact) -/
def f64OfInt (x : Int) : F64 :=
  if x = 0 then 0
  else
    let m := x.natAbs
    let e := m.log2
    BitVec.ofNat 64 ((if x < 0 then 2 ^ 63 else 0) + (1023 + e) * 2 ^ 52 + (m * 2 ^ (52 - e) - 2 ^ 52))

/-- conversion of a `float` pattern to `double` (exact) -/
def f64OfF32 (n : Nat) : F64 :=
  let s := n / 2 ^ 31
  let e := n / 2 ^ 23 % 256
  let f := n % 2 ^ 23
  BitVec.ofNat 64 (s * 2 ^ 63 +
    (if e = 255 then 2047 * 2 ^ 52 + f * 2 ^ 29
     else if e ≠ 0 then (e + 896) * 2 ^ 52 + f * 2 ^ 29
     else if f = 0 then 0
     else
       let k := f.log2
       (k + 874) * 2 ^ 52 + (f * 2 ^ (52 - k) - 2 ^ 52)))

/-- conversion of a pattern to `FLOAT64` -/
def TecType.toF64 (t : TecType) (n : Nat) : F64 :=
  match t with
  | .float => f64OfF32 n
  | .double => BitVec.ofNat 64 n
  | t => f64OfInt (signed t.bytes n)

/-- `data[i]` where `data` is `buf` cast to a pointer to the element type.  Alignment is
not modelled. -/
def loadElem (t : TecType) (buf : Ptr) (i : Nat) : M (Heap Byte) Nat := do
  let p ← Heap.padd buf (i * t.bytes : Nat)
  let l ← loadBytes t.bytes p
  pure (leVal l)

/-- `TEC_DATA::minmax` — ordered_tec.cpp:1263-1319 -/
def TecData.minmax (d : TecData) (N : Nat) : M (Heap Byte) (F64 × F64) :=
  if d.type = .null then M.throw (.runtime "data type error")
  else do
    let mm ← get_minmax (fun a b => d.type.lt b a) d.type.lt (loadElem d.type d.buf) N
    pure (d.type.toF64 mm.1, d.type.toF64 mm.2)

/-! ## Writing a zone -/

/-- a function of the zone only -/
def Zone.alone (m : M Zone Unit) : M (Zone × ZoneLog) Unit := fun s =>
  match m s.1 with
  | .ok a z => .ok a (z, s.2)
  | .err e z => .err e (z, s.2)
  | .ub u => .ub u

/-- body of the loop of `wrtie_plt_pre` — ordered_tec.cpp:1035-1044 -/
def Zone.preVar (vars : List Str) (i : Nat) (d : TecData) : M (Zone × ZoneLog) Unit := do
  M.modify fun (z, l) => (z, { l with Data := l.Data ++ [DataLog.ofData d] })
  let (z, _) ← M.get
  if d.DataP = .null ∨ d.type = .null ∨ d.size = 0 then
    match vars[i]? with
    | some v => M.throw (.text (lit "Zone(" ++ z.ZoneName ++ lit ").Variable(" ++ v ++ lit "): Data is unset"))
    | none => M.undef .oob
  else pure ()

/-- `TEC_ZONE::wrtie_plt_pre` — ordered_tec.cpp:1018-1045; `vars` is `thisfile.Variables`, the
state is the zone and its log -/
def Zone.wrtie_plt_pre (vars : List Str) : M (Zone × ZoneLog) Unit := do
  Zone.alone Zone.gather_real_size
  M.modify fun (z, l) => (z, { l with
    Dim := z.Dim, Real_Dim := z.Real_Dim, Real_Max := z.Real_Max, noskip := z.noskip, noexc := z.noexc })
  let (z, _) ← M.get
  if z.Data.length = 0 then
    M.throw (.text (lit "Zone(" ++ z.ZoneName ++ lit "): Data is empty"))
  else if z.Data.length ≠ vars.length then
    M.throw (.text (lit "Zone(" ++ z.ZoneName ++ lit "): the size of Data is not equal to the size of tec_file.Variables"))
  else
    eachIdx (Zone.preVar vars) 0 z.Data

/-- `TEC_ZONE::write_plt_head` — ordered_tec.cpp:1047-1070 -/
def Zone.write_plt_head (z : Zone) : M Str Unit := do
  W_FLOAT32 f299
  W_STRING z.ZoneName
  W_INT32 (-1)
  W_INT32 z.StrandId
  W_FLOAT64 z.SolutionTime
  W_INT32 (-1)
  W_INT32 0
  W_INT32 0
  W_INT32 0
  W_INT32 0
  W_INT32 z.Real_Max.x
  W_INT32 z.Real_Max.y
  W_INT32 z.Real_Max.z
  each z.Auxiliary fun j => do
    W_INT32 1
    W_STRING j.1
    W_INT32 0
    W_STRING j.2
  W_INT32 0

/-- state of `TEC_ZONE::write_plt_data`: free store, output file, standard output, the zone, its
log -/
structure ZSt where
  h : Heap Byte
  of : Str
  out : Str
  z : Zone
  l : ZoneLog

namespace ZSt
/-- file operations -/
def file {α : Type} (m : M Str α) : M ZSt α := fun s =>
  match m s.of with
  | .ok a x => .ok a { s with of := x }
  | .err e x => .err e { s with of := x }
  | .ub u => .ub u
/-- operations on the free store and the zone -/
def buf {α : Type} (m : M (St Byte Zone) α) : M ZSt α := fun s =>
  match m ⟨s.h, s.z⟩ with
  | .ok a t => .ok a { s with h := t.h, z := t.o }
  | .err e t => .err e { s with h := t.h, z := t.o }
  | .ub u => .ub u
/-- operations on the free store only -/
def heap {α : Type} (m : M (Heap Byte) α) : M ZSt α := fun s =>
  match m s.h with
  | .ok a h => .ok a { s with h := h }
  | .err e h => .err e { s with h := h }
  | .ub u => .ub u
/-- `if (echo) { std::printf(...); }` -/
def print (echo : Bool) (t : Str) : M ZSt Unit :=
  if echo then M.modify fun s => { s with out := s.out ++ t } else pure ()
/-- `zone_log.Echo_Text.push_back(t)` -/
def push (t : Str) : M ZSt Unit :=
  M.modify fun s => { s with l := { s.l with Echo_Text := s.l.Echo_Text ++ [t] } }
/-- `*(zone_log.Echo_Text.end() - 1) += t` -/
def append (t : Str) : M ZSt Unit := fun s =>
  match s.l.Echo_Text.reverse with
  | [] => .ub .oob
  | last :: rest => .ok () { s with l := { s.l with Echo_Text := rest.reverse ++ [last ++ t] } }
/-- `zone_log.Data[i]` is assigned -/
def modData (i : Nat) (f : DataLog → DataLog) : M ZSt Unit := fun s =>
  if i < s.l.Data.length then .ok () { s with l := { s.l with Data := s.l.Data.modify i f } }
  else .ub .oob
end ZSt

/-- `Echo_Mode.test(k)` -/
def test (b : List Bool) (k : Nat) : Bool := b.getD k false

/-- the `sprintf`/`printf`/`+=` body of the loops over `dd` — ordered_tec.cpp:1104-1106 -/
def Zone.echoNum (echo : Bool) (a : I3) (dd : Nat) : M ZSt Unit := do
  let v ← a.get dd
  let b ← sprintf 100 (lit " " ++ dec v)
  ZSt.print echo b
  ZSt.append b

/-- the part of `write_plt_data` that reports the sizes — ordered_tec.cpp:1096-1170; `le` is `%le` -/
def Zone.echoInfo (le : F64 → Str) (echo : Bool) : M ZSt Unit := do
  let s ← M.get
  let z := s.z
  ifB (test z.Echo_Mode 3) do
    let b ← sprintf 100 (lit "     Dim = " ++ dec z.Real_Dim ++ lit "   Real_Max = [")
    ZSt.print echo b
    ZSt.push b
    forI 0 z.Real_Dim fun dd => Zone.echoNum echo z.Real_Max dd.toNat
    ZSt.print echo (lit " ]\n")
    ZSt.append (lit " ]")
  ifB (test z.Echo_Mode 4) do
    ZSt.print echo (lit "     Org_Max = [")
    ZSt.push (lit "     Org_Max = [")
    each [0, 1, 2] fun dd => Zone.echoNum echo z.Max dd
    ZSt.print echo (lit " ]\n")
    ZSt.append (lit " ]")
  ifB (test z.Echo_Mode 5) do
    ZSt.print echo (lit "     Skip = [")
    ZSt.push (lit "     Skip = [")
    each [0, 1, 2] fun dd => Zone.echoNum echo z.Skip dd
    ZSt.print echo (lit " ]\n")
    ZSt.append (lit " ]")
  ifB (test z.Echo_Mode 6) do
    ZSt.print echo (lit "     Begin = [")
    ZSt.push (lit "     Begin = [")
    each [0, 1, 2] fun dd => Zone.echoNum echo z.Begin dd
    ZSt.print echo (lit " ]")
    ZSt.append (lit " ]")
    ZSt.print echo (lit "   End = [")
    ZSt.append (lit " End = [")
    each [0, 1, 2] fun dd => Zone.echoNum echo z.End dd
    ZSt.print echo (lit " ]\n")
    ZSt.append (lit " ]")
  ifB (test z.Echo_Mode 7 && z.StrandId != -1) do
    let b ← sprintf 100 (lit "     StrandId = " ++ dec z.StrandId ++ lit " SolutionTime = " ++ le z.SolutionTime)
    ZSt.print echo (b ++ lit "\n")
    ZSt.push b

/-- body of the loop that writes minima and maxima — ordered_tec.cpp:1089-1093 -/
def Zone.writeMinMax (i : Nat) (d : TecData) : M ZSt Unit := do
  let s ← M.get
  let p ← s.z.realProd
  let mm ← ZSt.heap (d.minmax (toU64 p))
  ZSt.file (W_FLOAT64 mm.1)
  ZSt.file (W_FLOAT64 mm.2)
  ZSt.modData i fun l => { l with min := some mm.1 }
  ZSt.modData i fun l => { l with max := some mm.2 }

/-- body of the loop that writes the data — ordered_tec.cpp:1179-1185 -/
def Zone.writeVar (echo : Bool) (vars : List Str) (i : Nat) (d : TecData) : M ZSt Unit := do
  let s ← M.get
  ZSt.modData i fun l => { l with file_pt := some s.of.length }
  let p ← s.z.realProd
  let b ← ZSt.heap (loadBytes (d.size * toU64 p) d.buf)
  ZSt.file (emit b)
  ifB (test s.z.Echo_Mode 2) do
    match vars[i]? with
    | none => M.undef .oob
    | some v => do
      ZSt.print echo (lit " <" ++ cstr v ++ lit ">")
      ZSt.append (lit " <" ++ v ++ lit ">")

/-- `%.1lf` of `bytes/1024/1024`, rounded half to even -/
def fmtMB (bytes : Nat) : Str :=
  let q := bytes * 10 / 1048576
  let r := bytes * 10 % 1048576
  let t := if 2 * r > 1048576 ∨ (2 * r = 1048576 ∧ q % 2 = 1) then q + 1 else q
  decNat (t / 10) ++ [46] ++ decNat (t % 10)

/-- `TEC_ZONE::write_plt_data` — ordered_tec.cpp:1072-1204 -/
def Zone.write_plt_data (le : F64 → Str) (vars : List Str) (echo : Bool) : M ZSt Unit := do
  let s0 ← M.get
  ZSt.file (W_FLOAT32 f299)
  each s0.z.Data fun j => ZSt.file (W_INT32 j.type.code)
  ZSt.file (W_INT32 0)
  ZSt.file (W_INT32 0)
  ZSt.file (W_INT32 (-1))
  ZSt.buf Zone.make_buf
  let s ← M.get
  eachIdx (fun i d => Zone.writeMinMax i d) 0 s.z.Data
  Zone.echoInfo le echo
  ifB (test s.z.Echo_Mode 2) do
    ZSt.print echo (lit "     write variables:")
    ZSt.push (lit "     write variables:")
  eachIdx (fun i d => Zone.writeVar echo vars i d) 0 s.z.Data
  ifB (test s.z.Echo_Mode 2) (ZSt.print echo (lit "\n"))
  ZSt.buf Zone.realise_buf
  let s1 ← M.get
  M.modify fun s => { s with l := { s.l with Size := some (s1.of.length - s0.of.length) } }
  ifB (test s.z.Echo_Mode 8) do
    let b ← sprintf 100 (lit "     zone size: " ++ fmtMB (s1.of.length - s0.of.length) ++ lit "MB")
    ZSt.print echo (b ++ lit "\n")
    ZSt.push b

end Verif.Tec
