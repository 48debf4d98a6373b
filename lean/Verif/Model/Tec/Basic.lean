import Mathlib.Data.Nat.Digits.Defs
import Verif.Model.Heap
/-!
# Base of the Tecplot writer model: texts, numbers as bytes, files

`std::string` is a list of bytes.  `FLOAT32` and `FLOAT64` values are their bit
patterns.  Byte order is little endian, `char` is signed, `int` has 32 bits,
`size_t` and `long` have 64 bits (the platforms the library names in
lion_snippets.hpp:62-75).
-/
namespace Verif.Tec

/-- a byte -/
abbrev Byte := UInt8
/-- `std::string`, and the content of a file -/
abbrev Str := List UInt8

/-- an ASCII literal of the source -/
def lit (s : String) : Str := s.toList.map fun c => UInt8.ofNat c.toNat

/-- `s.c_str()` used as a C string: the text ends at the first NUL -/
def cstr (s : Str) : Str := s.takeWhile (· ≠ 0)

/-- decimal digits of a natural number -/
def decNat (n : Nat) : Str :=
  if n = 0 then [48] else (Nat.digits 10 n).reverse.map fun d => UInt8.ofNat (48 + d)

/-- `%i`, `%li` -/
def dec (x : Int) : Str := if x < 0 then 45 :: decNat x.natAbs else decNat x.natAbs

/-- `sprintf(buf, ...)` into `char buf[cap]`; `s` is the text produced.  The
terminating NUL needs a byte of its own. -/
def sprintf (cap : Nat) (s : Str) : Out Str :=
  if s.length + 1 ≤ cap then .ok s else .ub .oob

/-! ## Numbers -/

/-- low `k` bytes of a number, least significant first -/
def leBytes : Nat → Nat → Str
  | 0, _ => []
  | k + 1, n => UInt8.ofNat n :: leBytes k (n / 256)

/-- the number in a list of bytes, least significant first -/
def leVal : Str → Nat
  | [] => 0
  | b :: l => b.toNat + 256 * leVal l

/-- a `FLOAT64` as its bit pattern -/
abbrev F64 := BitVec 64

/-- conversion of an integer to `size_t` -/
def toU64 (i : Int) : Nat := (i % 18446744073709551616).toNat
/-- reduction of a `size_t` result -/
def u64 (n : Nat) : Nat := n % 18446744073709551616

/-- `a / b` of `int` operands -/
def cdiv (a b : Int) : Out Int := if b = 0 then .ub .divZero else i32 (a.tdiv b)
/-- `a % b` of `int` operands; undefined where `a / b` is -/
def cmod (a b : Int) : Out Int :=
  if b = 0 then .ub .divZero
  else if InI32 (a.tdiv b) then .ok (a.tmod b) else .ub .overflow

/-- three `INT32` values (the C arrays `Max[3]`, `Skip[3]`, ...) -/
structure I3 where
  x : Int
  y : Int
  z : Int
  deriving DecidableEq, Repr

/-- `a[i]` for `i < 3` -/
def I3.get (a : I3) : Nat → Out Int
  | 0 => .ok a.x
  | 1 => .ok a.y
  | 2 => .ok a.z
  | _ => .ub .oob

/-- `a[i] = v` for `i < 3` -/
def I3.set (a : I3) (i : Nat) (v : Int) : I3 :=
  match i with
  | 0 => { a with x := v }
  | 1 => { a with y := v }
  | _ => { a with z := v }

/-! ## Writing -/

/-- `fwrite` to a file opened with "wb": bytes are appended and `ftell` is the length.
Simplification: writing never fails (the code ignores the result of `fwrite`). -/
def emit (b : Str) : M Str Unit := M.modify (· ++ b)

/-- `W_INT32` — ordered_tec.cpp:25-29 -/
def W_INT32 (a : Int) : M Str Unit := emit (leBytes 4 (toU32 a))
/-- `W_FLOAT32` — ordered_tec.cpp:31-35; the argument is the bit pattern -/
def W_FLOAT32 (bits : Nat) : M Str Unit := emit (leBytes 4 bits)
/-- `W_FLOAT64` — ordered_tec.cpp:37-41 -/
def W_FLOAT64 (a : F64) : M Str Unit := emit (leBytes 8 a.toNat)

/-- the value of a (signed) `char` -/
def charVal (c : Byte) : Int := if c.toNat < 128 then c.toNat else (c.toNat : Int) - 256

/-- `for` over the elements of a container -/
def each {σ α : Type} (l : List α) (f : α → M σ Unit) : M σ Unit :=
  match l with
  | [] => pure ()
  | a :: l => do f a; each l f

/-- `for` over the elements of a container with their positions `i - begin()` -/
def eachIdx {σ α : Type} (f : Nat → α → M σ Unit) : Nat → List α → M σ Unit
  | _, [] => pure ()
  | i, a :: l => do f i a; eachIdx f (i + 1) l

/-- `if (b) { m }` -/
def ifB {σ : Type} (b : Bool) (m : M σ Unit) : M σ Unit := if b then m else pure ()

/-- `W_STRING` — ordered_tec.cpp:43-50 -/
def W_STRING (a : Str) : M Str Unit := do
  each a fun c => W_INT32 (charVal c)
  W_INT32 0

/-- the float markers: 299.0f, 357.0f, 799.0f as IEEE-754 single bit patterns -/
def f299 : Nat := 0x43958000
def f357 : Nat := 0x43B28000
def f799 : Nat := 0x4447C000

/-! ## `std::map<std::string, std::string>` -/

/-- ordered by key; iteration is in this order -/
abbrev AuxMap := List (Str × Str)

/-- `std::string` comparison: bytes as unsigned values, lexicographic -/
def strLt : Str → Str → Bool
  | [], [] => false
  | [], _ :: _ => true
  | _ :: _, [] => false
  | a :: s, b :: t => if a.toNat < b.toNat then true else if b.toNat < a.toNat then false else strLt s t

/-- `map::insert`: the map and whether the element was inserted -/
def AuxMap.insert (m : AuxMap) (k v : Str) : AuxMap × Bool :=
  match m with
  | [] => ([(k, v)], true)
  | (k', v') :: m' =>
    if strLt k k' then ((k, v) :: (k', v') :: m', true)
    else if strLt k' k then
      let r := AuxMap.insert m' k v
      ((k', v') :: r.1, r.2)
    else ((k', v') :: m', false)

/-- `map::find` -/
def AuxMap.find (m : AuxMap) (k : Str) : Option Str := (m.find? fun e => e.1 == k).map (·.2)

/-! ## Byte memory -/

/-- `memcpy(dst, src, n)`: both ranges must lie inside live blocks and must not overlap -/
def memcpy (dst src : Ptr) (n : Nat) : M (Heap Byte) Unit := fun h =>
  match dst, src with
  | .at d o, .at s i =>
    match h.blk d, h.blk s with
    | some (.vals dl dc), some (.vals sl sc) =>
      if o + n ≤ dl ∧ i + n ≤ sl ∧ (d ≠ s ∨ o + n ≤ i ∨ i + n ≤ o) then
        .ok () (h.upd d (some (.vals dl fun k => if o ≤ k ∧ k < o + n then sc (k - o + i) else dc k)))
      else .ub .oob
    | none, _ => .ub .dangling
    | _, none => .ub .dangling
    | _, _ => .ub .uninit
  | _, _ => .ub .null

/-- `n` initialised bytes starting at a pointer -/
def loadBytes : Nat → Ptr → M (Heap Byte) Str
  | 0, _ => pure []
  | n + 1, p => do
    let q ← Heap.lval p
    let v ← Heap.loadV q
    match v with
    | none => M.undef .uninit
    | some b => do
      let p' ← Heap.padd p 1
      let l ← loadBytes n p'
      pure (b :: l)

/-- `for (INT32 s = b; s < e; s += k) body(s);` with at most `2^32 + 1` tests of the
condition: a loop with `k ≠ 0` ends, or overflows, before. -/
def loopS {σ : Type} (body : Int → M σ Unit) (e k : Int) : Nat → Int → M σ Unit
  | 0, _ => M.undef .overflow
  | f + 1, s =>
    if s < e then do
      body s
      let s' ← i32 (s + k)
      loopS body e k f s'
    else pure ()

def forS {σ : Type} (b e k : Int) (body : Int → M σ Unit) : M σ Unit := loopS body e k 4294967297 b

end Verif.Tec
