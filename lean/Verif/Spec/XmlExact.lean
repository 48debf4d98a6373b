import Verif.Spec.XmlLog
/-!
# Logs whose xml loads back as their tree

What a text of a log has to avoid, because nothing is escaped when the xml is written.  `FileTidy` of Verif/Spec/XmlLog.lean forbids every
`&`; here only those are forbidden that tinyxml2 takes for the start of a reference.
-/
namespace Verif.Spec
open Tec Xml

/-- a decimal digit -/
def DecDigit (b : UInt8) : Prop := 48 ≤ b ∧ b ≤ 57

/-- a hexadecimal digit -/
def HexDigit (b : UInt8) : Prop := DecDigit b ∨ (97 ≤ b ∧ b ≤ 102) ∨ (65 ≤ b ∧ b ≤ 70)

/-- what follows an `&` that is replaced: the name of one of five characters, or a number.  tinyxml2 looks for the first `;` and reads the
digits before it backwards up to an `x` or a `#`, so other text may stand in between. -/
inductive Reference : Str → Prop
  | named {n : Str} (h : n ∈ [lit "quot", lit "amp", lit "apos", lit "lt", lit "gt"]) (r : Str) : Reference (n ++ (lit ";" ++ r))
  /-- `#` at the very end -/
  | hash : Reference (lit "#")
  /-- `#x…;` -/
  | hex {a d : Str} (one : 59 ∉ a) (mark : a = [] ∨ ∃ a', a = a' ++ [120]) (digits : ∀ c ∈ d, HexDigit c) (r : Str) :
      Reference (lit "#x" ++ (a ++ (d ++ (lit ";" ++ r))))
  /-- `#…;` -/
  | dec {a d : Str} (one : 59 ∉ a) (mark : a = [] ∨ ∃ a', a = a' ++ [35]) (other : a.head? ≠ some 120) (digits : ∀ c ∈ d, DecDigit c) (r : Str) :
      Reference (lit "#" ++ (a ++ (d ++ (lit ";" ++ r))))

/-- text that stands for itself: no NUL, no carriage return, no `&` that starts a reference -/
structure Literal (v : Str) : Prop where
  clean : ∀ b ∈ v, b ≠ 0 ∧ b ≠ 13
  amp : ∀ a b, v = a ++ 38 :: b → ¬ Reference b

/-- the content of an element: nothing but white space (then the element is empty), or literal text without `<` -/
def TextLoads (v : Str) : Prop := Blank v ∨ (60 ∉ v ∧ Literal v)

/-- the value of an attribute: literal text without `"` -/
def AttrLoads (v : Str) : Prop := 34 ∉ v ∧ Literal v

def AuxLoads (m : AuxMap) : Prop := ∀ e ∈ m, IsName e.1 ∧ TextLoads e.2

structure ZoneLoads (z : ZoneLog) : Prop where
  attr : AttrLoads z.ZoneName
  name : TextLoads z.ZoneName
  aux : AuxLoads z.Auxiliary
  data : ∀ d ∈ z.Data, d.size < 2147483648
  few : z.Data.length ≤ 2147483648

structure FileLoads (l : FileLog) : Prop where
  attr : AttrLoads l.FileName
  name : TextLoads (l.FileName ++ lit ".plt")
  path : TextLoads l.FilePath
  time : TextLoads l.Time_Begin
  title : TextLoads l.Title
  vars : ∀ v ∈ l.Variables, IsName v
  few : l.Variables.length ≤ 2147483648
  aux : AuxLoads l.Auxiliary
  zones : ∀ z ∈ l.Zones, ZoneLoads z

end Verif.Spec
