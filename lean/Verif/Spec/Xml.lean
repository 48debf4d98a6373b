import Verif.Model.Xml.Tiny
/-!
# Texts that show a tree

Which texts stand for a tree of elements, texts and comments: the subset of XML without entities, CDATA sections and processing
instructions.  Nothing of the reader is used here, only the type of its trees.
-/
namespace Verif.Spec
open Tec Xml

/-- white space: space, tab, newline, vertical tab, form feed, carriage return -/
def White (b : UInt8) : Prop := b = 32 ∨ (9 ≤ b ∧ b ≤ 13)

instance (b : UInt8) : Decidable (White b) := by unfold White; infer_instance

/-- nothing but white space -/
def Blank (s : Str) : Prop := ∀ b ∈ s, White b

/-- letters, `_`, `:` and bytes of other alphabets may start a name -/
def NameStart (b : UInt8) : Prop := (65 ≤ b ∧ b ≤ 90) ∨ (97 ≤ b ∧ b ≤ 122) ∨ b = 58 ∨ b = 95 ∨ 128 ≤ b

/-- digits, `.` and `-` may follow -/
def NameByte (b : UInt8) : Prop := NameStart b ∨ (48 ≤ b ∧ b ≤ 57) ∨ b = 46 ∨ b = 45

instance (b : UInt8) : Decidable (NameStart b) := by unfold NameStart; infer_instance
instance (b : UInt8) : Decidable (NameByte b) := by unfold NameByte; infer_instance

/-- a name -/
def IsName : Str → Prop
  | [] => False
  | b :: l => NameStart b ∧ ∀ c ∈ l, NameByte c

instance (s : Str) : Decidable (IsName s) := by
  cases s <;> unfold IsName <;> infer_instance

/-- text that stands for itself: no NUL, no carriage return, no `&`, no `<` -/
def Plain (s : Str) : Prop := ∀ b ∈ s, b ≠ 0 ∧ b ≠ 13 ∧ b ≠ 38 ∧ b ≠ 60

/-- text that stands for itself between double quotes -/
def Quotable (s : Str) : Prop := ∀ b ∈ s, b ≠ 0 ∧ b ≠ 13 ∧ b ≠ 38 ∧ b ≠ 34

/-- the text has a character other than white space -/
def Visible (s : Str) : Prop := ∃ b ∈ s, ¬ White b

instance (s : Str) : Decidable (Plain s) := by unfold Plain; infer_instance
instance (s : Str) : Decidable (Quotable s) := by unfold Quotable; infer_instance
instance (s : Str) : Decidable (Visible s) := by unfold Visible; infer_instance
instance (s : Str) : Decidable (Blank s) := by unfold Blank; infer_instance

/-- a character that has a meaning in xml is written as an entity -/
def escapeByte (b : UInt8) : Str :=
  if b = 38 then lit "&amp;" else if b = 60 then lit "&lt;" else if b = 62 then lit "&gt;" else if b = 34 then lit "&quot;"
  else if b = 39 then lit "&apos;" else [b]

/-- a text with all such characters escaped -/
def escape (s : Str) : Str := s.flatMap escapeByte

/-- ` name="value"` for every attribute -/
def attrsText (as : List (Str × Str)) : Str := as.flatMap fun a => lit " " ++ a.1 ++ lit "=\"" ++ a.2 ++ lit "\""

/-- attributes that can be written like this -/
def AttrsOk (as : List (Str × Str)) : Prop := (∀ a ∈ as, IsName a.1 ∧ Quotable a.2) ∧ (as.map (·.1)).Nodup

mutual

/-- the text shows the node -/
inductive Shows : Node → Str → Prop
  /-- `<!--v-->` -/
  | comment {v : Str} (plain : ∀ b ∈ v, b ≠ 0 ∧ b ≠ 13 ∧ b ≠ 45) : Shows (.comment v) (lit "<!--" ++ v ++ lit "-->")
  /-- `<n a="x"/>` -/
  | sealed {n : Str} {as : List (Str × Str)} (name : IsName n) (attrs : AttrsOk as) :
      Shows (.elem n as []) (lit "<" ++ n ++ attrsText as ++ lit "/>")
  /-- `<n a="x">v</n>` -/
  | leaf {n : Str} {as : List (Str × Str)} {v : Str} (name : IsName n) (attrs : AttrsOk as) (plain : Plain v) (visible : Visible v) :
      Shows (.elem n as [.text false v]) (lit "<" ++ n ++ attrsText as ++ lit ">" ++ v ++ lit "</" ++ n ++ lit ">")
  /-- `<n a="x">`, the children, white space, `</n>` -/
  | node {n : Str} {as : List (Str × Str)} {cs : List Node} {t w : Str} (name : IsName n) (attrs : AttrsOk as) (inner : ShowsAll cs t)
      (blank : Blank w) : Shows (.elem n as cs) (lit "<" ++ n ++ attrsText as ++ lit ">" ++ t ++ w ++ lit "</" ++ n ++ lit ">")

/-- the text shows the nodes one after the other, white space before each of them -/
inductive ShowsAll : List Node → Str → Prop
  | nil : ShowsAll [] []
  | cons {x : Node} {l : List Node} {w s t : Str} (blank : Blank w) (head : Shows x s) (tail : ShowsAll l t) : ShowsAll (x :: l) (w ++ s ++ t)

end

end Verif.Spec
