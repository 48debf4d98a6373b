import Verif.Base
import Verif.Model.Tec.Basic
/-!
# Specification: JSON texts — the grammar of RFC 8259

Texts are bytes; bytes above 127 stand for themselves (whether they are UTF-8 is not looked at).  A
number is its token, a string is what its characters stand for.
-/
namespace Verif.Spec
open Tec

/-- JSON values -/
inductive JVal where
  | null
  | bool (b : Bool)
  | num (token : Str)
  | str (s : Str)
  | arr (l : List JVal)
  | obj (l : List (Str × JVal))

/-- white space: space, tab, line feed, carriage return -/
def JBlank (s : Str) : Prop := ∀ b ∈ s, b = 32 ∨ b = 9 ∨ b = 10 ∨ b = 13

def JDigit (b : UInt8) : Prop := 48 ≤ b ∧ b ≤ 57
def JDigits (s : Str) : Prop := s ≠ [] ∧ ∀ b ∈ s, JDigit b

instance : DecidablePred JBlank := fun s => inferInstanceAs (Decidable (∀ b ∈ s, _))
instance : DecidablePred JDigit := fun _ => inferInstanceAs (Decidable (_ ∧ _))
instance : DecidablePred JDigits := fun s => inferInstanceAs (Decidable (_ ∧ _))

/-- `int`: one zero, or digits of which the first is not zero -/
def JInt (s : Str) : Prop := s = lit "0" ∨ (JDigits s ∧ s.head? ≠ some 48)

/-- `[ frac ]` -/
def JFrac (s : Str) : Prop := s = [] ∨ ∃ d, s = lit "." ++ d ∧ JDigits d

/-- `[ exp ]` -/
def JExp (s : Str) : Prop := s = [] ∨ ∃ e g d, s = e ++ g ++ d ∧ (e = lit "e" ∨ e = lit "E") ∧ (g = [] ∨ g = lit "+" ∨ g = lit "-") ∧ JDigits d

/-- `number = [ minus ] int [ frac ] [ exp ]` -/
def JNumber (s : Str) : Prop := ∃ m i f e, s = m ++ i ++ f ++ e ∧ (m = [] ∨ m = lit "-") ∧ JInt i ∧ JFrac f ∧ JExp e

/-- the value of a hexadecimal digit -/
def hexVal (b : UInt8) : Option Nat :=
  if 48 ≤ b ∧ b ≤ 57 then some (b.toNat - 48) else if 97 ≤ b ∧ b ≤ 102 then some (b.toNat - 87) else if 65 ≤ b ∧ b ≤ 70 then some (b.toNat - 55) else none

/-- four hexadecimal digits and their value -/
def JHex (s : Str) (n : Nat) : Prop := ∃ a b c d p q r t, s = [a, b, c, d] ∧ hexVal a = some p ∧ hexVal b = some q ∧ hexVal c = some r ∧ hexVal d = some t ∧
  n = 4096 * p + 256 * q + 16 * r + t

/-- UTF-8 -/
def utf8 (n : Nat) : Str :=
  if n < 128 then [UInt8.ofNat n]
  else if n < 2048 then [UInt8.ofNat (192 + n / 64), UInt8.ofNat (128 + n % 64)]
  else if n < 65536 then [UInt8.ofNat (224 + n / 4096), UInt8.ofNat (128 + n / 64 % 64), UInt8.ofNat (128 + n % 64)]
  else [UInt8.ofNat (240 + n / 262144), UInt8.ofNat (128 + n / 4096 % 64), UInt8.ofNat (128 + n / 64 % 64), UInt8.ofNat (128 + n % 64)]

/-- the byte that follows a backslash, and what the two stand for -/
def escVal (b : UInt8) : Option UInt8 :=
  if b = 34 then some 34 else if b = 92 then some 92 else if b = 47 then some 47 else if b = 98 then some 8 else if b = 102 then some 12
  else if b = 110 then some 10 else if b = 114 then some 13 else if b = 116 then some 9 else none

/-- the characters between the quotes of a string, and what they stand for.  A surrogate that is not part of a pair stands for nothing. -/
inductive JChars : Str → Str → Prop
  | nil : JChars [] []
  | byte {b : UInt8} {t s : Str} : 32 ≤ b → b ≠ 34 → b ≠ 92 → JChars t s → JChars (b :: t) (b :: s)
  | esc {b c : UInt8} {t s : Str} : escVal b = some c → JChars t s → JChars (92 :: b :: t) (c :: s)
  | code {h t s : Str} {n : Nat} : JHex h n → n < 55296 ∨ 57344 ≤ n → JChars t s → JChars (92 :: 117 :: (h ++ t)) (utf8 n ++ s)
  | pair {h h' t s : Str} {n n' : Nat} : JHex h n → 55296 ≤ n ∧ n < 56320 → JHex h' n' → 56320 ≤ n' ∧ n' < 57344 → JChars t s →
      JChars (92 :: 117 :: (h ++ (92 :: 117 :: (h' ++ t)))) (utf8 (65536 + 1024 * (n - 55296) + (n' - 56320)) ++ s)

mutual

/-- the text of a value -/
inductive JValue : JVal → Str → Prop
  | null : JValue .null (lit "null")
  | tru : JValue (.bool true) (lit "true")
  | fls : JValue (.bool false) (lit "false")
  | num {t : Str} : JNumber t → JValue (.num t) t
  | str {t s : Str} : JChars t s → JValue (.str s) (34 :: (t ++ [34]))
  | arr0 {w : Str} : JBlank w → JValue (.arr []) (91 :: (w ++ [93]))
  | arr {l : List JVal} {t : Str} : JElems l t → JValue (.arr l) (91 :: (t ++ [93]))
  | obj0 {w : Str} : JBlank w → JValue (.obj []) (123 :: (w ++ [125]))
  | obj {l : List (Str × JVal)} {t : Str} : JMembers l t → JValue (.obj l) (123 :: (t ++ [125]))

/-- values separated by commas -/
inductive JElems : List JVal → Str → Prop
  | one {v : JVal} {a t b : Str} : JBlank a → JValue v t → JBlank b → JElems [v] (a ++ (t ++ b))
  | cons {v : JVal} {l : List JVal} {a t b r : Str} : JBlank a → JValue v t → JBlank b → JElems l r → JElems (v :: l) (a ++ (t ++ (b ++ 44 :: r)))

/-- names and values separated by commas -/
inductive JMembers : List (Str × JVal) → Str → Prop
  | one {k : Str} {v : JVal} {a n b c t d : Str} : JBlank a → JChars n k → JBlank b → JBlank c → JValue v t → JBlank d →
      JMembers [(k, v)] (a ++ (34 :: (n ++ 34 :: (b ++ 58 :: (c ++ (t ++ d))))))
  | cons {k : Str} {v : JVal} {l : List (Str × JVal)} {a n b c t d r : Str} : JBlank a → JChars n k → JBlank b → JBlank c → JValue v t → JBlank d →
      JMembers l r → JMembers ((k, v) :: l) (a ++ (34 :: (n ++ 34 :: (b ++ 58 :: (c ++ (t ++ (d ++ 44 :: r)))))))

end

/-- a JSON text: a value between white space -/
def IsJson (v : JVal) (t : Str) : Prop := ∃ a s b, t = a ++ s ++ b ∧ JBlank a ∧ JValue v s ∧ JBlank b

end Verif.Spec
