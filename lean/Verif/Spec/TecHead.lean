import Verif.Base
/-!
# Specification: reading the header of a .plt file

A reader of the header of Tecplot's binary format (version 112, ordered zones), written from the description of
that format, independent of the code that writes it.
-/
namespace Verif.Spec

abbrev Bytes := List UInt8

/-- the number stored in bytes, least significant first -/
def little : Bytes → Nat
  | [] => 0
  | b :: l => b.toNat + 256 * little l

/-- the next `n` bytes -/
def next (n : Nat) (l : Bytes) : Option (Bytes × Bytes) := if n ≤ l.length then some (l.take n, l.drop n) else none

/-- the next 32-bit word -/
def word (l : Bytes) : Option (Nat × Bytes) := (next 4 l).map fun p => (little p.1, p.2)

/-- the next 32-bit two's complement number -/
def int32 (l : Bytes) : Option (Int × Bytes) :=
  (word l).map fun p => (if p.1 < 2147483648 then (p.1 : Int) else (p.1 : Int) - 4294967296, p.2)

/-- the bits of the next 64-bit number -/
def bits64 (l : Bytes) : Option (Nat × Bytes) := (next 8 l).map fun p => (little p.1, p.2)

/-- a given word -/
def expect (n : Nat) (l : Bytes) : Option Bytes := (word l).bind fun p => if p.1 = n then some p.2 else none

/-- a text: one word for each character, then a zero word -/
def text : Bytes → Option (Bytes × Bytes)
  | a :: b :: c :: d :: r => if little [a, b, c, d] = 0 then some ([], r) else (text r).map fun p => (a :: p.1, p.2)
  | _ => none

/-- `n` texts -/
def texts : Nat → Bytes → Option (List Bytes × Bytes)
  | 0, l => some ([], l)
  | n + 1, l => do
    let (a, l) ← text l
    let (as, l) ← texts n l
    some (a :: as, l)

/-- name, format (0), value -/
def pair (l : Bytes) : Option ((Bytes × Bytes) × Bytes) := do
  let (a, l) ← text l
  let l ← expect 0 l
  let (b, l) ← text l
  some ((a, b), l)

/-- items that begin with the word `mark`, until the next word is different; at most `n` -/
def many {α : Type} (mark : Nat) (item : Bytes → Option (α × Bytes)) : Nat → Bytes → Option (List α × Bytes)
  | 0, l => some ([], l)
  | n + 1, l =>
    match expect mark l with
    | none => some ([], l)
    | some l' => do
      let (a, l) ← item l'
      let (as, l) ← many mark item n l
      some (a :: as, l)

structure ZoneHead where
  name : Bytes
  strand : Int
  /-- bits of the solution time -/
  time : Nat
  size : Int × Int × Int
  aux : List (Bytes × Bytes)
  deriving DecidableEq, Repr

/-- a zone after its marker 299.0 -/
def zoneHead (l : Bytes) : Option (ZoneHead × Bytes) := do
  let (name, l) ← text l
  let l ← expect 4294967295 l
  let (strand, l) ← int32 l
  let (time, l) ← bits64 l
  let l ← expect 4294967295 l
  let l ← expect 0 l
  let l ← expect 0 l
  let l ← expect 0 l
  let l ← expect 0 l
  let (x, l) ← int32 l
  let (y, l) ← int32 l
  let (z, l) ← int32 l
  let (aux, l) ← many 1 pair l.length l
  let l ← expect 0 l
  some (⟨name, strand, time, (x, y, z), aux⟩, l)

structure Head where
  fileType : Int
  title : Bytes
  vars : List Bytes
  zones : List ZoneHead
  aux : List (Bytes × Bytes)
  deriving DecidableEq, Repr

/-- the whole header up to and with the marker 357.0: "#!TDV112", the number 1, the type of the file, the title,
the names of the variables, the zones (299.0), the auxiliary data (799.0) -/
def readHead (l : Bytes) : Option (Head × Bytes) := do
  let (magic, l) ← next 8 l
  if magic = [35, 33, 84, 68, 86, 49, 49, 50] then do
    let l ← expect 1 l
    let (fileType, l) ← int32 l
    let (title, l) ← text l
    let (n, l) ← word l
    let (vars, l) ← texts n l
    let (zones, l) ← many 0x43958000 zoneHead l.length l
    let (aux, l) ← many 0x4447C000 pair l.length l
    let l ← expect 0x43B28000 l
    some (⟨fileType, title, vars, zones, aux⟩, l)
  else none

end Verif.Spec
