import Verif.Spec.Xml
/-!
# Texts that show a document

Which texts stand for a document with everything tinyxml2 has: declarations, elements with attributes, text between the elements, CDATA
sections, comments, unknown nodes, entities.  Nothing of the reader or the printer is used here, only the type of their trees.
-/
namespace Verif.Spec
open Tec Xml

/-- the entities and what they stand for -/
def entityTable : List (Str × UInt8) := [(lit "&quot;", 34), (lit "&amp;", 38), (lit "&apos;", 39), (lit "&lt;", 60), (lit "&gt;", 62)]

/-- `n` with `rest` behind it is one newline: CR LF, LF CR, or one of them alone -/
def Newline (n rest : Str) : Prop := n = [13, 10] ∨ n = [10, 13] ∨ n = [13] ∧ rest.head? ≠ some 10 ∨ n = [10] ∧ rest.head? ≠ some 13

instance (n rest : Str) : Decidable (Newline n rest) := by unfold Newline; infer_instance

/-- the digits of base 16 and their values -/
def digitTable : List (UInt8 × Nat) := (lit "0123456789abcdef").zip (List.range 16) ++ (lit "ABCDEF").zip [10, 11, 12, 13, 14, 15]

/-- a numeral of a base and the number that it shows -/
inductive Numeral (base : Nat) : Str → Nat → Prop
  | nil : Numeral base [] 0
  | digit {s : Str} {n : Nat} {c : UInt8} {d : Nat} (start : Numeral base s n) (h : (c, d) ∈ digitTable) (small : d < base) : Numeral base (s ++ [c]) (base * n + d)

/-- a reference to the character with number `n`: `&#65;` or `&#x41;` -/
def RefText (e : Str) (n : Nat) : Prop :=
  ∃ s, s ≠ [] ∧ (Numeral 10 s n ∧ e = lit "&#" ++ s ++ lit ";" ∨ Numeral 16 s n ∧ e = lit "&#x" ++ s ++ lit ";")

/-- what is between `&#` or `&#x` and `;` is no numeral; what is before the last mark (`#` or `x`) does not count -/
def NoNumeral (base : Nat) (mark : UInt8) (s : Str) : Prop :=
  ∃ p q, s = p ++ q ∧ mark ∉ q ∧ (p = [] ∨ p.getLast? = some mark) ∧ ¬ ∃ n, Numeral base q n

/-- the text starts like a reference to a character, but is none -/
def WrongRef (raw : Str) : Prop :=
  ∃ s r, s ≠ [] ∧ (59 : UInt8) ∉ s ∧ (raw = lit "#" ++ s ++ lit ";" ++ r ∧ s.head? ≠ some 120 ∧ NoNumeral 10 35 s ∨ raw = lit "#x" ++ s ++ lit ";" ++ r ∧ NoNumeral 16 120 s)

/-- `raw` is a way to write `v`: any byte but NUL, carriage return, newline, `&` and `stop` stands for itself, every entity for its character, a
newline of any kind for `\n`, and a reference to a character, other than NUL, for the UTF-8 bytes of this character; an `&` stands for itself before a `#` that
does not start such a reference, and a reference to a number of 22 to 32 bits for nothing -/
inductive Escapes (stop : UInt8) : (raw v : Str) → Prop
  | nil : Escapes stop [] []
  | byte {b : UInt8} {raw v : Str} (h : b ≠ 0 ∧ b ≠ 10 ∧ b ≠ 13 ∧ b ≠ 38 ∧ b ≠ stop) (tail : Escapes stop raw v) : Escapes stop (b :: raw) (b :: v)
  | newline {n raw v : Str} (h : Newline n raw) (tail : Escapes stop raw v) : Escapes stop (n ++ raw) (10 :: v)
  | entity {e : Str} {b : UInt8} {raw v : Str} (h : (e, b) ∈ entityTable) (tail : Escapes stop raw v) : Escapes stop (e ++ raw) (b :: v)
  | ref {e : Str} {c : Char} {raw v : Str} (h : RefText e c.toNat) (h0 : c.toNat ≠ 0) (tail : Escapes stop raw v) : Escapes stop (e ++ raw) (String.utf8EncodeChar c ++ v)
  | dropped {e : Str} {n : Nat} {raw v : Str} (h : RefText e n) (hn : 0x200000 ≤ n ∧ n < 0x100000000) (tail : Escapes stop raw v) : Escapes stop (e ++ raw) v
  | wrong {raw v : Str} (h : WrongRef raw) (tail : Escapes stop raw v) : Escapes stop (38 :: raw) (38 :: v)

/-- newlines of all kinds become `\n` -/
def newlines : Str → Str
  | 13 :: 10 :: l => 10 :: newlines l
  | 13 :: l => 10 :: newlines l
  | 10 :: 13 :: l => 10 :: newlines l
  | b :: l => b :: newlines l
  | [] => []

/-- no NUL and no carriage return -/
def Clean (s : Str) : Prop := ∀ b ∈ s, b ≠ 0 ∧ b ≠ 13

instance (s : Str) : Decidable (Clean s) := by unfold Clean; infer_instance

/-- the values of the attributes written in one way or another -/
def WritesAttrs (raw as : List (Str × Str)) : Prop := List.Forall₂ (fun r a => r.1 = a.1 ∧ IsName a.1 ∧ Escapes 34 r.2 a.2) raw as ∧ (as.map (·.1)).Nodup

mutual

/-- the text shows the node, which is not a text between elements -/
inductive WritesNode : Node → Str → Prop
  /-- `<!--v-->` -/
  | comment {v : Str} (clean : Clean v) (ends : ¬ lit "-->" <:+: v) : WritesNode (.comment v) (lit "<!--" ++ v ++ lit "-->")
  /-- `<![CDATA[v]]>` -/
  | cdata {v : Str} (clean : Clean v) (ends : ¬ lit "]]>" <:+: v) : WritesNode (.text true v) (lit "<![CDATA[" ++ v ++ lit "]]>")
  /-- `<!v>` -/
  | unknown {v : Str} (clean : Clean v) (ends : ¬ lit ">" <:+: v) (other : ¬ lit "--" <+: v ∧ ¬ lit "[CDATA[" <+: v) : WritesNode (.unknown v) (lit "<!" ++ v ++ lit ">")
  /-- `<n a="x"/>` -/
  | sealed {n : Str} {raw as : List (Str × Str)} (name : IsName n) (attrs : WritesAttrs raw as) : WritesNode (.elem n as []) (lit "<" ++ n ++ attrsText raw ++ lit "/>")
  /-- `<n a="x">`, the children, `</n>` -/
  | node {n : Str} {raw as : List (Str × Str)} {cs : List Node} {t : Str} (name : IsName n) (attrs : WritesAttrs raw as) (inner : WritesAll false cs t) :
      WritesNode (.elem n as cs) (lit "<" ++ n ++ attrsText raw ++ lit ">" ++ t ++ lit "</" ++ n ++ lit ">")

/-- the text shows the nodes one after the other.  Behind a text between elements (`after`) white space would belong to
the text; elsewhere there may be white space. -/
inductive WritesAll : (after : Bool) → List Node → Str → Prop
  | nil {after : Bool} {w : Str} (blank : Blank w) (none : after = true → w = []) : WritesAll after [] w
  | node {after : Bool} {x : Node} {l : List Node} {w s t : Str} (blank : Blank w) (none : after = true → w = []) (head : WritesNode x s)
      (tail : WritesAll false l t) : WritesAll after (x :: l) (w ++ s ++ t)
  | text {raw v : Str} {l : List Node} {t : Str} (esc : Escapes 60 raw v) (visible : Visible raw) (tail : WritesAll true l t) :
      WritesAll false (.text false v :: l) (raw ++ t)

end

/-- texts between elements -/
def isText : Node → Bool
  | .text false _ => true
  | _ => false

/-- the last node is not a text -/
def LastNode (l : List Node) : Prop := ∀ x ∈ l.getLast?, isText x = false

instance (l : List Node) : Decidable (LastNode l) := by unfold LastNode; infer_instance

/-- the text shows the document: declarations, then other nodes, the last of them not a text -/
inductive WritesDoc : List Node → Str → Prop
  | decl {v : Str} {l : List Node} {w t : Str} (blank : Blank w) (clean : Clean v) (ends : ¬ lit "?>" <:+: v) (tail : WritesDoc l t) :
      WritesDoc (.decl v :: l) (w ++ lit "<?" ++ v ++ lit "?>" ++ t)
  | nodes {l : List Node} {t : Str} (last : LastNode l) (all : WritesAll false l t) : WritesDoc l t

/-- the byte order mark -/
def bomText (bom : Bool) : Str := if bom then [0xEF, 0xBB, 0xBF] else []

/-- a document whose first node is a text starts with this text: without a byte order mark before it, it must neither start with white space nor with
the bytes of the mark -/
def Starts (bom : Bool) (l : List Node) (t : Str) : Prop :=
  bom = false → (∃ x ∈ l.head?, isText x = true) → (∀ b ∈ t.head?, ¬ White b) ∧ ¬ bomText true <+: t

/-! ## Documents that can be written -/

/-- a text that the printer can write: no NUL, no carriage return, not longer than an `int` -/
def Sendable (v : Str) : Prop := Clean v ∧ v.length ≤ 2147483647

instance (s : Str) : Decidable (Sendable s) := by unfold Sendable; infer_instance

/-- both are texts between elements -/
def textsMeet : Node → List Node → Bool
  | x, y :: _ => isText x && isText y
  | _, [] => false

mutual

/-- the node can be written so that it can be read -/
def Printable : Node → Prop
  | .elem n as cs => IsName n ∧ (∀ a ∈ as, IsName a.1 ∧ Sendable a.2) ∧ (as.map (·.1)).Nodup ∧ PrintableAll cs
  | .text false v => Sendable v ∧ Visible v
  | .text true v => Clean v ∧ ¬ lit "]]>" <:+: v
  | .comment v => Clean v ∧ ¬ lit "-->" <:+: v
  | .decl _ => False
  | .unknown v => Clean v ∧ ¬ lit ">" <:+: v ∧ ¬ lit "--" <+: v ∧ ¬ lit "[CDATA[" <+: v

/-- so can the nodes one after the other: no two texts without a node between them -/
def PrintableAll : List Node → Prop
  | [] => True
  | x :: l => Printable x ∧ textsMeet x l = false ∧ PrintableAll l

end

/-- the document can be written so that it can be read: declarations first, no text outside of the elements, not empty -/
structure PrintableDoc (l : List Node) : Prop where
  few : l ≠ []
  parts : ∃ ds ns, l = ds ++ ns ∧ (∀ x ∈ ds, ∃ v, x = .decl v ∧ Clean v ∧ ¬ lit "?>" <:+: v) ∧ PrintableAll ns ∧ ∀ x ∈ ns, isText x = false

/-! ## What indentation does to texts -/

/-- spaces for one level of indentation -/
def tab (compact : Bool) : Nat := if compact then 0 else 4

/-- elements -/
def isElem : Node → Bool
  | .elem .. => true
  | _ => false

/-- the spaces that a text gets from what follows it: before an element `k` for every element around it -/
def padding (k d : Nat) : List Node → Str
  | x :: _ => if isElem x then List.replicate (k * d) 32 else []
  | [] => []

/-- a text with something behind it -/
def padText (pad : Str) : Node → Node
  | .text false v => .text false (v ++ pad)
  | x => x

mutual

/-- a node inside of `d` elements, with the texts in it padded -/
def indent (k d : Nat) : Node → Node
  | .elem n as cs => .elem n as (indentAll k (d + 1) cs)
  | .text c v => .text c v
  | .comment v => .comment v
  | .decl v => .decl v
  | .unknown v => .unknown v

/-- every text directly before an element gets `k` spaces for every element around it -/
def indentAll (k d : Nat) : List Node → List Node
  | [] => []
  | x :: l => padText (padding k d l) (indent k d x) :: indentAll k d l

end

/-- a text directly before an element -/
def textElem : Node → List Node → Bool
  | x, y :: _ => isText x && isElem y
  | _, [] => false

mutual

/-- nowhere in the node is a text directly before an element -/
def Apart : Node → Prop
  | .elem _ _ cs => ApartAll cs
  | _ => True

/-- nor in the nodes -/
def ApartAll : List Node → Prop
  | [] => True
  | x :: l => Apart x ∧ textElem x l = false ∧ ApartAll l

end

mutual

/-- no value of an attribute and no text in the node has a carriage return, no text is nothing but white space -/
def Tame : Node → Prop
  | .elem _ as cs => (∀ a ∈ as, (13 : UInt8) ∉ a.2) ∧ TameAll cs
  | .text false v => (13 : UInt8) ∉ v ∧ Visible v
  | _ => True

/-- nor in the nodes -/
def TameAll : List Node → Prop
  | [] => True
  | x :: l => Tame x ∧ TameAll l

end

end Verif.Spec
