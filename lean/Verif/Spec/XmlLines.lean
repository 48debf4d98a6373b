import Verif.Model.Xml.Lines
import Verif.Spec.Xml
/-!
# Where the things of an XML file stand and on which line
-/
namespace Verif.Xml.Lines
open Tec Spec

/-- the number of the line on which the byte number `o` of the text stands: one more than there are line feeds before it -/
def lineAt (text : Str) (o : Nat) : Nat := 1 + (text.take o).count 10

/-- what has a line number -/
inductive Item
  | elem (name : Str)
  | attr (name value : Str)
  | text (value : Str)
  | cdata (value : Str)
  | comment (value : Str)
  | decl (value : Str)
  | unknown (value : Str)
  deriving DecidableEq

mutual
/-- nodes and attributes with their line numbers, in the order of the text -/
def LNode.items : LNode → List (Nat × Item)
  | .elem k n as cs => (k, .elem n) :: (as.map fun a => (a.1, .attr a.2.1 a.2.2)) ++ items cs
  | .text k c v => [(k, if c then .cdata v else .text v)]
  | .comment k v => [(k, .comment v)]
  | .decl k v => [(k, .decl v)]
  | .unknown k v => [(k, .unknown v)]
def items : List LNode → List (Nat × Item)
  | [] => []
  | x :: l => x.items ++ items l
end

/-- white space only -/
def Spaces (w : Str) : Prop := ∀ b ∈ w, isSpace b = true

/-- `open`, a value, `close`; the value does not contain `close` -/
def Between (opens closes : Str) (after v : Str) : Prop :=
  ∃ raw r, after = opens ++ raw ++ closes ++ r ∧ ¬ closes <:+: raw ∧ v = value false raw

/-- the text is the beginning of the tag of an element of this name and `r` -/
def Opens (n r after : Str) : Prop :=
  IsName n ∧ ∃ w s, Spaces w ∧ (s = [] ∨ s = [47]) ∧ after = 60 :: w ++ s ++ n ++ r ∧ ∀ b ∈ r.head?, isNameChar b = false

/-- The thing stands at the place that divides the text into `before` and `after`.  A text stands where its first visible character is.
`</a/>` is an element to the code, as `<a/>`. -/
def Stands (before after : Str) : Item → Prop
  | .elem n => ∃ r, Opens n r after
  | .attr n v => IsName n ∧ ∃ w w' q raw r, Spaces w ∧ Spaces w' ∧ (q = 34 ∨ q = 39) ∧
      after = n ++ w ++ [61] ++ w' ++ [q] ++ raw ++ [q] ++ r ∧ q ∉ raw ∧ v = value true raw
  | .text v => ∃ w b raw r, w <:+ before ∧ Spaces w ∧ isSpace b = false ∧ after = b :: raw ++ 60 :: r ∧ 60 ∉ b :: raw ∧
      v = value true (w ++ b :: raw)
  | .cdata v => Between (lit "<![CDATA[") (lit "]]>") after v
  | .comment v => Between (lit "<!--") (lit "-->") after v
  | .decl v => Between (lit "<?") (lit "?>") after v
  | .unknown v => Between (lit "<!") (lit ">") after v

/-- what an error blames, given the text from the blamed place on -/
def Blames (after : Str) : Code → Prop
  | .parsingElement | .mismatchedElement => ∃ r, after = 60 :: r
  | .parsingAttribute => ∃ b r, after = b :: r ∧ isNameStart b = true
  | .parsingText => (∃ b r, after = b :: r ∧ isSpace b = false) ∧ 60 ∉ after
  | .parsingCdata => ∃ r, after = lit "<![CDATA[" ++ r ∧ ¬ lit "]]>" <:+: r
  | .parsingComment => ∃ r, after = lit "<!--" ++ r ∧ ¬ lit "-->" <:+: r
  | .parsingUnknown => ∃ r, after = lit "<!" ++ r ∧ ¬ lit ">" <:+: r
  | .parsingDeclaration => ∃ r, after = lit "<?" ++ r
  | .parsing => ∃ b r, after = b :: r ∧ isSpace b = false
  | _ => False

/-- attributes and white space, as in a tag behind the name -/
inductive Attrs : Str → Prop
  | done {w : Str} : Spaces w → Attrs w
  | attr {w n w1 w2 raw t : Str} {q : Byte} : Spaces w → IsName n → Spaces w1 → Spaces w2 → (q = 34 ∨ q = 39) → q ∉ raw → Attrs t →
      Attrs (w ++ (n ++ (w1 ++ ([61] ++ (w2 ++ ([q] ++ (raw ++ ([q] ++ t))))))))

/-- neither white space nor the beginning of an attribute or of `>` or `/>` -/
def Stray (p : Str) : Prop :=
  ∃ b r, p = b :: r ∧ isSpace b = false ∧ isNameStart b = false ∧ b ≠ 62 ∧ (b = 47 → r.head? ≠ some 62)

/-- what is said about an error that blames the byte number `o` of the text -/
def Tells (text : Str) (o : Nat) : Code → Option Str → Prop
  /- the name of the element that begins there, if the text ends in its tag; nothing, if there is something in its tag that has no place there -/
  | .parsingElement, told => ∃ n r, Opens n r (text.drop o) ∧
      (told = some (lit "XMLElement name=" ++ n) ∧ Attrs r ∨ told = none ∧ ∃ t p, r = t ++ p ∧ Attrs t ∧ Stray p)
  /- the name of the element that begins there -/
  | .mismatchedElement, told => ∃ n, Stands (text.take o) (text.drop o) (.elem n) ∧ told = some (lit "XMLElement name=" ++ n)
  /- the name of the element to which the attribute belongs -/
  | .parsingAttribute, told => ∃ n o' t, Opens n (t ++ text.drop o) (text.drop o') ∧ Attrs t ∧ told = some (lit "XMLElement name=" ++ n)
  /- the value of the declaration that begins there, if it has an end -/
  | .parsingDeclaration, told => told = none ∧ ¬ lit "?>" <:+: (text.drop o).drop 2 ∨
      ∃ v, Stands (text.take o) (text.drop o) (.decl v) ∧ told = some (lit "XMLDeclaration value=" ++ v)
  | _, told => told = none

end Verif.Xml.Lines
