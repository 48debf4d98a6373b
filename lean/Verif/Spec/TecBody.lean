import Verif.Spec.TecHead
/-!
# Specification: reading a whole .plt file

The data section follows the header: for every zone the marker 299.0, the types of the variables, three numbers
that say that no variable is passive, no variable is shared and no connectivity is shared, the minimum and the
maximum of every variable as 64-bit numbers, then the values of every variable, one after the other.  Written from
the description of the format, independent of the code that writes it.
-/
namespace Verif.Spec

/-- `n` items -/
def times {α : Type} (item : Bytes → Option (α × Bytes)) : Nat → Bytes → Option (List α × Bytes)
  | 0, l => some ([], l)
  | n + 1, l => do
    let (a, l) ← item l
    let (as, l) ← times item n l
    some (a :: as, l)

/-- a number of `w` bytes -/
def number (w : Nat) (l : Bytes) : Option (Nat × Bytes) := (next w l).map fun p => (little p.1, p.2)

/-- bytes of a value: 1 float, 2 double, 3 32-bit integer, 4 16-bit integer, 5 byte -/
def width : Nat → Option Nat
  | 1 => some 4
  | 2 => some 8
  | 3 => some 4
  | 4 => some 2
  | 5 => some 1
  | _ => none

/-- minimum and maximum -/
def range (l : Bytes) : Option ((Nat × Nat) × Bytes) := do
  let (a, l) ← bits64 l
  let (b, l) ← bits64 l
  some ((a, b), l)

/-- the values of variables of the given types at `points` points -/
def columns (points : Nat) : List Nat → Bytes → Option (List (List Nat) × Bytes)
  | [], l => some ([], l)
  | t :: ts, l => do
    let w ← width t
    let (c, l) ← times (number w) points l
    let (cs, l) ← columns points ts l
    some (c :: cs, l)

/-- the data of a zone: for every variable the type, the bits of minimum and maximum, the bits of the values -/
structure ZoneBody where
  types : List Nat
  ranges : List (Nat × Nat)
  values : List (List Nat)
  deriving DecidableEq, Repr

def zoneBody (vars points : Nat) (l : Bytes) : Option (ZoneBody × Bytes) := do
  let l ← expect 0x43958000 l
  let (types, l) ← times word vars l
  let l ← expect 0 l
  let l ← expect 0 l
  let l ← expect 4294967295 l
  let (ranges, l) ← times range vars l
  let (values, l) ← columns points types l
  some (⟨types, ranges, values⟩, l)

/-- the data of all zones -/
def bodies (vars : Nat) : List ZoneHead → Bytes → Option (List ZoneBody × Bytes)
  | [], l => some ([], l)
  | h :: hs, l => do
    let (b, l) ← zoneBody vars (h.size.1 * h.size.2.1 * h.size.2.2).toNat l
    let (bs, l) ← bodies vars hs l
    some (b :: bs, l)

/-- a whole file: the header, the data, nothing else -/
def readWhole (l : Bytes) : Option (Head × List ZoneBody) := do
  let (h, l) ← readHead l
  let (b, l) ← bodies h.vars.length h.zones l
  if l = [] then some (h, b) else none

end Verif.Spec
