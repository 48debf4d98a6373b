import Verif.Model.Tec.Basic
/-!
# Specification of echo codes
-/
namespace Verif.Tec

/-- a text of `0` and `1` -/
def IsBits (s : Str) : Prop := ∀ c ∈ s, c = 48 ∨ c = 49

/-- the bits a code stands for: bit `k` is the `k`-th character from the right of the first `n` characters;
bits beyond the code are off -/
def bitOf (n : Nat) (code : Str) (k : Nat) : Bool := (code.take n).reverse[k]? == some 49

/-- the named modes of a file — documentation in ordered_tec.h:384-398: brief has file_head, file_end, variable and time
(bits 0, 1, 2, 5), simple has file_head and time -/
def fileNamed : List (Str × List Nat) :=
  [(lit "brief", [0, 1, 2, 5]), (lit "full", [0, 1, 2, 3, 4, 5, 6]), (lit "simple", [0, 5]), (lit "none", [])]

/-- the named modes of a zone — brief has zone_head and max_real (bits 0 and 3), simple has zone_head -/
def zoneNamed : List (Str × List Nat) :=
  [(lit "brief", [0, 3]), (lit "full", [0, 1, 2, 3, 4, 5, 6, 7, 8]), (lit "simple", [0]), (lit "none", [])]

/-- the accepted texts: named modes and codes.  `strict`: every character of a code is checked (as the standard
says of `std::bitset`), otherwise only the first `n` (as libstdc++ does). -/
def Accepted (strict : Bool) (named : List (Str × List Nat)) (n : Nat) (e : Str) : Prop :=
  e ∈ named.map (·.1) ∨ IsBits (if strict then e else e.take n)

/-- the bits of an accepted text, bit 0 first -/
def maskOf (named : List (Str × List Nat)) (n : Nat) (e : Str) : List Bool :=
  (List.range n).map fun k =>
    match named.find? (fun m => m.1 == e) with
    | some m => m.2.contains k
    | none => bitOf n e k

end Verif.Tec
