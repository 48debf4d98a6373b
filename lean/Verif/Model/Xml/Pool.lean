import Verif.Base
/-!
# `DynArray` and `MemPoolT` — tinyxml2.h:186-446

`TIXMLASSERT` does nothing (tinyxml2.h:94, builds without `DEBUG`).  A request for memory may fail: `room n` says whether the `n`-th one succeeds; a failed one
throws `std::bad_alloc`.  Not modelled: `Trace`, `ItemSize`, `Mem`.
-/
namespace Verif.Xml

/-! ## `DynArray` -/
namespace Dyn

/-- A `DynArray<T, INITIAL_SIZE>` with the arrays it has got from `new[]` — tinyxml2.h:305-308.  A cell without a value has never been assigned. -/
structure DA (V : Type) where
  /-- `_pool`; its length is `INITIAL_SIZE` -/
  pool : List (Option V)
  /-- the arrays that are alive -/
  heap : Nat → Option (List (Option V))
  /-- number of requests for memory so far -/
  asked : Nat
  /-- `_mem`: null stands for `_pool` -/
  mem : Option Nat
  allocated : Int
  size : Int

variable {V : Type}

/-- the constructor — tinyxml2.h:195-200 -/
def make (n : Nat) : DA V := ⟨List.replicate n none, fun _ => none, 0, none, n, 0⟩

/-- the array `_mem` points to, if it is alive -/
def DA.cells (s : DA V) : Option (List (Option V)) :=
  match s.mem with
  | none => some s.pool
  | some b => s.heap b

/-- `_mem[i]`, also `operator[]`, read — tinyxml2.h:243-251: outside of the array or without a value it is undefined -/
def load (i : Int) : M (DA V) V := fun s =>
  match s.cells with
  | none => .ub .dangling
  | some l =>
    if 0 ≤ i ∧ i < l.length then
      match l[i.toNat]? with
      | some (some v) => .ok v s
      | _ => .ub .uninit
    else .ub .oob

/-- `_mem[i] = v` -/
def store (i : Int) (v : V) : M (DA V) Unit := fun s =>
  match s.cells with
  | none => .ub .dangling
  | some l =>
    if 0 ≤ i ∧ i < l.length then
      match s.mem with
      | none => .ok () { s with pool := l.set i.toNat (some v) }
      | some b => .ok () { s with heap := fun q => if q = b then some (l.set i.toNat (some v)) else s.heap q }
    else .ub .oob

/-- `new T[n]`: the number of the new array -/
def newArr (room : Nat → Bool) (n : Int) : M (DA V) Nat := fun s =>
  if n < 0 ∨ room s.asked = false then .err .badAlloc { s with asked := s.asked + 1 }
  else .ok s.asked { s with heap := (fun q => if q = s.asked then some (List.replicate n.toNat none) else s.heap q), asked := s.asked + 1 }

/-- `memcpy( newMem, _mem, sizeof(T)*_size )` -/
def copyTo (b : Nat) : M (DA V) Unit := fun s =>
  match s.cells, s.heap b with
  | some l, some l' =>
    if 0 ≤ s.size ∧ s.size ≤ l.length ∧ s.size ≤ l'.length then
      .ok () { s with heap := fun q => if q = b then some (l.take s.size.toNat ++ l'.drop s.size.toNat) else s.heap q }
    else .ub .oob
  | _, _ => .ub .dangling

/-- `if ( _mem != _pool ) { delete [] _mem; }` -/
def drop : M (DA V) Unit := fun s =>
  match s.mem with
  | none => .ok () s
  | some b =>
    match s.heap b with
    | none => .ub .badFree
    | some _ => .ok () { s with heap := fun q => if q = b then none else s.heap q }

/-- `EnsureCapacity` — tinyxml2.h:289-303 -/
def EnsureCapacity (room : Nat → Bool) (cap : Int) : M (DA V) Unit := do
  let s ← M.get
  if cap > s.allocated then do
    let newAllocated ← (i32 (cap * 2) : Out Int)
    let b ← newArr room newAllocated
    copyTo b
    drop
    M.modify fun s => { s with mem := some b, allocated := newAllocated }
  else pure ()

/-- `Clear` — tinyxml2.h:208-210 -/
def Clear : M (DA V) Unit := M.modify fun s => { s with size := 0 }

/-- `Push` — tinyxml2.h:212-217 -/
def Push (room : Nat → Bool) (t : V) : M (DA V) Unit := do
  let s ← M.get
  let c ← (i32 (s.size + 1) : Out Int)
  EnsureCapacity room c
  let s ← M.get
  store s.size t
  let c ← (i32 (s.size + 1) : Out Int)
  M.modify fun s => { s with size := c }

/-- `PushArr`; the result is the index of the first new cell — tinyxml2.h:219-226 -/
def PushArr (room : Nat → Bool) (count : Int) : M (DA V) Int := do
  let s ← M.get
  let c ← (i32 (s.size + count) : Out Int)
  EnsureCapacity room c
  let s ← M.get
  let c ← (i32 (s.size + count) : Out Int)
  M.modify fun s => { s with size := c }
  pure s.size

/-- `Pop` — tinyxml2.h:228-232 -/
def Pop : M (DA V) V := do
  let s ← M.get
  let c ← (i32 (s.size - 1) : Out Int)
  M.modify fun s => { s with size := c }
  load c

/-- `PopArr` — tinyxml2.h:234-237 -/
def PopArr (count : Int) : M (DA V) Unit := do
  let s ← M.get
  let c ← (i32 (s.size - count) : Out Int)
  M.modify fun s => { s with size := c }

/-- `Empty`, `Size`, `Capacity` — tinyxml2.h:239-241, 258-266 -/
def Empty : M (DA V) Bool := fun s => .ok (s.size == 0) s
def Size : M (DA V) Int := fun s => .ok s.size s
def Capacity : M (DA V) Int := fun s => .ok s.allocated s

/-- `PeekTop` — tinyxml2.h:253-256 -/
def PeekTop : M (DA V) V := do
  let s ← M.get
  let c ← (i32 (s.size - 1) : Out Int)
  load c

/-- `SwapRemove` — tinyxml2.h:268-273 -/
def SwapRemove (i : Int) : M (DA V) Unit := do
  let s ← M.get
  let c ← (i32 (s.size - 1) : Out Int)
  let t ← load c
  store i t
  let s ← M.get
  let c ← (i32 (s.size - 1) : Out Int)
  M.modify fun s => { s with size := c }

/-- the destructor — tinyxml2.h:202-206 -/
def destroy : M (DA V) Unit := drop

end Dyn

/-! ## `MemPoolT` -/
namespace Pool

/-- an item: a block and an index in it -/
abbrev Item := Nat × Nat

/-- `union Item`: the pointer `next`, or the bytes of the object that was made there (here one number) — tinyxml2.h:431-434 -/
inductive Cell where
  | link (p : Option Item)
  | data (v : Nat)
  deriving DecidableEq

/-- A `MemPoolT<ITEM_SIZE>` with its blocks — tinyxml2.h:435-444.  Blocks are numbered in the order of the requests for them. -/
structure MP where
  /-- `_blockPtrs` -/
  ptrs : Dyn.DA Nat
  /-- the blocks that are alive -/
  live : Nat → Bool
  /-- number of requests for blocks so far -/
  asked : Nat
  item : Item → Cell
  root : Option Item
  cur : Int
  n : Int
  max : Int
  untracked : Int

/-- the constructor — tinyxml2.h:337; `_blockPtrs` has room for 10 — tinyxml2.h:438 -/
def make : MP := ⟨Dyn.make 10, fun _ => false, 0, fun _ => .data 0, none, 0, 0, 0, 0⟩

/-- an operation on `_blockPtrs` -/
def onPtrs {α : Type} (m : M (Dyn.DA Nat) α) : M MP α := fun s =>
  match m s.ptrs with
  | .ok a d => .ok a { s with ptrs := d }
  | .err e d => .err e { s with ptrs := d }
  | .ub u => .ub u

/-- the cell at `it`; `per` is `ITEMS_PER_BLOCK` -/
def rdItem (per : Nat) (it : Item) : M MP Cell := fun s =>
  if s.live it.1 = false then .ub .dangling
  else if per ≤ it.2 then .ub .oob
  else .ok (s.item it) s

/-- `it->next`; the bytes of an object are no pointer -/
def rdNext (per : Nat) (it : Item) : M MP (Option Item) := do
  let c ← rdItem per it
  match c with
  | .link p => pure p
  | .data _ => M.undef .uninit

/-- `it->next = p`, and the making of an object at `it` -/
def wrItem (per : Nat) (it : Item) (c : Cell) : M MP Unit := fun s =>
  if s.live it.1 = false then .ub .dangling
  else if per ≤ it.2 then .ub .oob
  else .ok () { s with item := fun q => if q = it then c else s.item q }

/-- `new Block()`; its items are linked at once, so that what is in them is left open — tinyxml2.h:365 -/
def newBlock (room : Nat → Bool) : M MP Nat := fun s =>
  if room s.asked = false then .err .badAlloc { s with asked := s.asked + 1 }
  else .ok s.asked { s with asked := s.asked + 1, live := fun q => if q = s.asked then true else s.live q }

/-- the loop that links the items of a block, from index `i` on, `m` passes — tinyxml2.h:369-371 -/
def linkItems (per b : Nat) : Nat → Nat → M MP Unit
  | 0, _ => pure ()
  | m + 1, i => do
    wrItem per (b, i) (.link (some (b, i + 1)))
    linkItems per b m (i + 1)

/-- a new block — tinyxml2.h:364-373; `room` is for blocks, `roomP` for the array of their addresses -/
def addBlock (per : Nat) (room roomP : Nat → Bool) : M MP Unit := do
  let b ← newBlock room
  onPtrs (Dyn.Push roomP b)
  linkItems per b (per - 1) 0
  wrItem per (b, per - 1) (.link none)
  M.modify fun s => { s with root := some (b, 0) }

/-- the rest of `Alloc` — tinyxml2.h:375-385 -/
def takeItem (per : Nat) : M MP Item := do
  let s ← M.get
  match s.root with
  | none => M.undef .null
  | some result => do
    let nx ← rdNext per result
    let c ← (i32 (s.cur + 1) : Out Int)
    let a ← (i32 (s.n + 1) : Out Int)
    let u ← (i32 (s.untracked + 1) : Out Int)
    M.modify fun s => { s with root := nx, cur := c, max := (if c > s.max then c else s.max), n := a, untracked := u }
    pure result

/-- `Alloc` — tinyxml2.h:362-386 -/
def Alloc (per : Nat) (room roomP : Nat → Bool) : M MP Item := do
  let s ← M.get
  match s.root with
  | none => do
    addBlock per room roomP
    takeItem per
  | some _ => takeItem per

/-- `Free` — tinyxml2.h:388-399, without `DEBUG` -/
def Free (per : Nat) (mem : Option Item) : M MP Unit := do
  match mem with
  | none => pure ()
  | some it => do
    let s ← M.get
    let c ← (i32 (s.cur - 1) : Out Int)
    wrItem per it (.link s.root)
    M.modify fun s => { s with root := some it, cur := c }

/-- `CurrentAllocs`, `Untracked` — tinyxml2.h:358-360, 410-412 -/
def CurrentAllocs : M MP Int := fun s => .ok s.cur s
def Untracked : M MP Int := fun s => .ok s.untracked s

/-- `SetTracked` — tinyxml2.h:406-408 -/
def SetTracked : M MP Unit := do
  let s ← M.get
  let c ← (i32 (s.untracked - 1) : Out Int)
  M.modify fun s => { s with untracked := c }

/-- the owner of an item writes an object there, or reads it -/
def write (per : Nat) (it : Item) (v : Nat) : M MP Unit := wrItem per it (.data v)
def read (per : Nat) (it : Item) : M MP Nat := do
  let c ← rdItem per it
  match c with
  | .data v => pure v
  | .link _ => M.undef .uninit

/-- `delete lastBlock` -/
def deleteBlock (b : Nat) : M MP Unit := fun s =>
  if s.live b = false then .ub .badFree else .ok () { s with live := fun q => if q = b then false else s.live q }

/-- the loop of `Clear` — tinyxml2.h:344-347; the argument bounds the number of passes -/
def deleteBlocks : Nat → M MP Unit
  | 0 => M.undef .overflow
  | k + 1 => do
    let e ← onPtrs Dyn.Empty
    if e then pure ()
    else do
      let b ← onPtrs Dyn.Pop
      deleteBlock b
      deleteBlocks k

/-- `Clear` — tinyxml2.h:342-353 -/
def Clear (k : Nat) : M MP Unit := do
  deleteBlocks k
  M.modify fun s => { s with root := none, cur := 0, n := 0, max := 0, untracked := 0 }

/-- the destructor: `Clear`, then the one of `_blockPtrs` — tinyxml2.h:338-340 -/
def destroy (k : Nat) : M MP Unit := do
  Clear k
  onPtrs Dyn.destroy

end Pool
end Verif.Xml
