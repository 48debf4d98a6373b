import Verif.Model.Tec.Basic
/-!
# The reader of `tinyxml2` — tinyxml2.cpp, tinyxml2.h

The text is a list of bytes up to the first NUL; a pointer into it is the rest of the text from there on.

Simplifications.
* `XMLDocument` is constructed with its default arguments: entities are processed, white space is preserved.
* Names and values are cut out of the text buffer in place and processed when they are read first (`StrPair::GetStr`).
  The bytes that are overwritten lie before the position the reader has reached, so a value is a function of the bytes
  between its two ends (proved with `Verif.Model.Xml.InPlace`: property C99).
* Line numbers, the texts of errors, memory pools and the depth of recursion are left out; `TIXMLASSERT` does nothing.
* `isspace`, `isalpha`, `isdigit` are those of the "C" locale.
-/
namespace Verif.Xml
open Tec

/-- `XMLNode` and its subclasses.  Values are those that `Value()` returns, attributes and children are in the order of the text. -/
inductive Node where
  | elem (name : Str) (attrs : List (Str × Str)) (children : List Node)
  | text (cdata : Bool) (value : Str)
  | comment (value : Str)
  | decl (value : Str)
  | unknown (value : Str)

/-- `XMLError` — tinyxml2.h:510-533 -/
inductive Code
  | noAttribute | wrongAttributeType | fileNotFound | fileCouldNotBeOpened | fileReadError
  | parsingElement | parsingAttribute | parsingText | parsingCdata | parsingComment
  | parsingDeclaration | parsingUnknown | emptyDocument | mismatchedElement | parsing
  deriving DecidableEq, Repr

def Code.num : Code → Nat
  | .noAttribute => 1
  | .wrongAttributeType => 2
  | .fileNotFound => 3
  | .fileCouldNotBeOpened => 4
  | .fileReadError => 5
  | .parsingElement => 7
  | .parsingAttribute => 8
  | .parsingText => 10
  | .parsingCdata => 11
  | .parsingComment => 12
  | .parsingDeclaration => 13
  | .parsingUnknown => 14
  | .emptyDocument => 15
  | .mismatchedElement => 16
  | .parsing => 17

/-! ## Characters -/

/-- `XMLUtil::IsWhiteSpace` — tinyxml2.h:560-562 -/
def isSpace (b : Byte) : Bool := b == 32 || (9 ≤ b.toNat && b.toNat ≤ 13)

def isDigit (b : Byte) : Bool := 48 ≤ b.toNat && b.toNat ≤ 57

/-- `XMLUtil::IsNameStartChar` — tinyxml2.h:564-573 -/
def isNameStart (b : Byte) : Bool :=
  128 ≤ b.toNat || (65 ≤ b.toNat && b.toNat ≤ 90) || (97 ≤ b.toNat && b.toNat ≤ 122) || b == 58 || b == 95

/-- `XMLUtil::IsNameChar` — tinyxml2.h:575-580 -/
def isNameChar (b : Byte) : Bool := isNameStart b || isDigit b || b == 46 || b == 45

/-- `XMLUtil::SkipWhiteSpace` — tinyxml2.h:542-553 -/
def skipSpace (p : Str) : Str := p.dropWhile isSpace

/-- the rest of the text behind `pat`, if the text starts with `pat` -/
def strip (pat : Str) (p : Str) : Option Str :=
  match pat, p with
  | [], p => some p
  | _ :: _, [] => none
  | a :: pat, b :: p => if a = b then strip pat p else none

/-! ## Names and values -/

/-- `StrPair::ParseName` — tinyxml2.cpp:218-236: the name and the rest of the text -/
def parseName : Str → Option (Str × Str)
  | [] => none
  | b :: l => if isNameStart b then some (b :: l.takeWhile isNameChar, l.dropWhile isNameChar) else none

/-- `StrPair::ParseText` — tinyxml2.cpp:193-215: the bytes before the first occurrence of `tag` and the rest behind it -/
def parseText (tag : Str) : Str → Option (Str × Str)
  | [] => none
  | b :: l =>
    match strip tag (b :: l) with
    | some r => some ([], r)
    | none =>
      match parseText tag l with
      | some (v, r) => some (b :: v, r)
      | none => none

/-- `XMLUtil::ConvertUTF32ToUTF8` — tinyxml2.cpp:403-453 -/
def utf8 (n : Nat) : Str :=
  let low (k : Nat) : Byte := UInt8.ofNat (128 + k % 64)
  if n < 0x80 then [UInt8.ofNat n]
  else if n < 0x800 then [UInt8.ofNat ((n / 64) ||| 0xC0), low n]
  else if n < 0x10000 then [UInt8.ofNat ((n / 4096) ||| 0xE0), low (n / 64), low n]
  else if n < 0x200000 then [UInt8.ofNat ((n / 262144) ||| 0xF0), low (n / 4096), low (n / 64), low n]
  else []

/-- value of a digit of base 10 or 16 -/
def digitVal (hex : Bool) (b : Byte) : Option Nat :=
  if isDigit b then some (b.toNat - 48)
  else if hex && 97 ≤ b.toNat && b.toNat ≤ 102 then some (b.toNat - 87)
  else if hex && 65 ≤ b.toNat && b.toNat ≤ 70 then some (b.toNat - 55)
  else none

/-- the number of a character reference; digits from the last to the first, `unsigned` arithmetic — tinyxml2.cpp:486-511, 530-545 -/
def refNum (hex : Bool) : Str → (mult ucs : Nat) → Option Nat
  | [], _, ucs => some ucs
  | b :: l, mult, ucs =>
    match digitVal hex b with
    | none => none
    | some d => refNum hex l (u32 (mult * if hex then 16 else 10)) (ucs + u32 (mult * d))

/-- `XMLUtil::GetCharacterRef` — tinyxml2.cpp:456-549.  `l` is the text behind `&#`, not empty.  The number is read backwards
from the first `;` to the nearest `x` (`#`); result: the bytes of the character and the rest of the text. -/
def charRef (l : Str) : Option (Str × Str) :=
  match l with
  | [] => none
  | b :: l' =>
    if b = 120 then
      match parseText [59] l' with
      | none => none
      | some (v, r) => (refNum true (v.reverse.takeWhile (· ≠ 120)) 1 0).map fun n => (utf8 n, r)
    else
      match parseText [59] l with
      | none => none
      | some (v, r) => (refNum false (v.reverse.takeWhile (· ≠ 35)) 1 0).map fun n => (utf8 n, r)

/-- the table of entities — tinyxml2.cpp:128-135 -/
def entity (l : Str) : Option (Byte × Str) :=
  match strip (lit "quot;") l with
  | some r => some (34, r)
  | none =>
    match strip (lit "amp;") l with
    | some r => some (38, r)
    | none =>
      match strip (lit "apos;") l with
      | some r => some (39, r)
      | none =>
        match strip (lit "lt;") l with
        | some r => some (60, r)
        | none =>
          match strip (lit "gt;") l with
          | some r => some (62, r)
          | none => none

/-- `StrPair::GetStr` — tinyxml2.cpp:267-365.  `ent`: `NEEDS_ENTITY_PROCESSING`; `NEEDS_NEWLINE_NORMALIZATION` is always set.
`orig` are the bytes of the buffer, `out` the bytes written so far, the third argument the bytes still to read (at most as many as
the first argument).  For an unknown entity the code advances both pointers without copying: the byte that is in the
buffer at the position of the write pointer stays. -/
def cook (ent : Bool) (orig : Str) : Nat → Str → Str → Str
  | _, out, [] => out
  | 0, out, _ => out
  | f + 1, out, b :: l =>
    if b = 13 then
      match l with
      | 10 :: l' => cook ent orig f (out ++ [10]) l'
      | _ => cook ent orig f (out ++ [10]) l
    else if b = 10 then
      match l with
      | 13 :: l' => cook ent orig f (out ++ [10]) l'
      | _ => cook ent orig f (out ++ [10]) l
    else if ent = true ∧ b = 38 then
      match l with
      | 35 :: l' =>
        if l' = [] then cook ent orig f out l
        else
          match charRef l' with
          | none => cook ent orig f (out ++ [38]) l
          | some (v, r) => cook ent orig f (out ++ v) r
      | _ =>
        match entity l with
        | some (c, r) => cook ent orig f (out ++ [c]) r
        | none => cook ent orig f (out ++ [orig.getD out.length 0]) l
    else cook ent orig f (out ++ [b]) l

/-- the C string returned by `GetStr` for the bytes `v` -/
def value (ent : Bool) (v : Str) : Str := cstr (cook ent v v.length [] v)

/-! ## Attributes -/

/-- `XMLAttribute::ParseDeep` — tinyxml2.cpp:1342-1367 -/
def parseAttr (p : Str) : Option ((Str × Str) × Str) :=
  match parseName p with
  | none => none
  | some (n, p) =>
    match skipSpace p with
    | 61 :: p =>
      match skipSpace p with
      | q :: p =>
        if q = 34 ∨ q = 39 then
          match parseText [q] p with
          | some (v, r) => some ((n, value true v), r)
          | none => none
        else none
      | [] => none
    | _ => none

/-- how an element ends — `XMLElement::ElementClosingType`, tinyxml2.h:1586-1590 -/
inductive Closing | opened | closed | closing
  deriving DecidableEq, Repr

/-- `XMLElement::ParseAttributes` — tinyxml2.cpp:1801-1858: the attributes, whether the tag ends with `/>`, the rest of the text.
The first argument bounds the number of rounds. -/
def parseAttrs : Nat → List (Str × Str) → Str → Except Code (List (Str × Str) × Bool × Str)
  | 0, _, _ => .error .parsingElement
  | f + 1, as, p =>
    match skipSpace p with
    | [] => .error .parsingElement
    | b :: l =>
      if isNameStart b then
        match parseAttr (b :: l) with
        | none => .error .parsingAttribute
        | some (a, r) =>
          if as.any (fun x => x.1 == a.1) then .error .parsingAttribute
          else parseAttrs f (as ++ [a]) r
      else if b = 62 then .ok (as, false, l)
      else if b = 47 then
        match l with
        | 62 :: r => .ok (as, true, r)
        | _ => .error .parsingElement
      else .error .parsingElement

/-- the tag of an element, from behind `<` on — tinyxml2.cpp:1884-1908: name, attributes, closing type, rest -/
def parseTag (p : Str) : Except Code (Str × List (Str × Str) × Closing × Str) :=
  let p := skipSpace p
  let c := strip [47] p
  match parseName (c.getD p) with
  | none => .error .parsing
  | some (n, p) =>
    match parseAttrs (p.length + 1) [] p with
    | .error e => .error e
    | .ok (as, sealed, r) => .ok (n, as, if sealed then .closed else if c.isSome then .closing else .opened, r)

/-! ## Nodes -/

/-- the kinds of nodes that `XMLDocument::Identify` tells apart -/
inductive Kind | decl | comment | cdata | unknown | elem | text

/-- `XMLDocument::Identify` — tinyxml2.cpp:656-723: the kind of the next node and the text behind its header; `none` at the end -/
def identify (start : Str) : Option (Kind × Str) :=
  let p := skipSpace start
  if p = [] then none
  else
    match strip (lit "<?") p with
    | some r => some (.decl, r)
    | none =>
      match strip (lit "<!--") p with
      | some r => some (.comment, r)
      | none =>
        match strip (lit "<![CDATA[") p with
        | some r => some (.cdata, r)
        | none =>
          match strip (lit "<!") p with
          | some r => some (.unknown, r)
          | none =>
            match strip (lit "<") p with
            | some r => some (.elem, r)
            | none => some (.text, start)

/-- what reading the children of a node ends with -/
inductive Ended
  /-- the end of the text -/
  | atEnd (children : List Node)
  /-- an end tag -/
  | byTag (children : List Node) (name : Str) (rest : Str)
  /-- an error -/
  | failed (e : Code)

def Node.isDecl : Node → Bool
  | .decl _ => true
  | _ => false

/-- `XMLNode::ParseDeep` and the functions of the same name of its subclasses — tinyxml2.cpp:988-1086, 1133-1156, 1198-1206,
1247-1255, 1295-1303, 1884-1908.  `doc`: the node is the document; `cs` are the children so far.  The first argument bounds the
number of rounds: every round reads at least one byte. -/
def parseNodes : Nat → Bool → List Node → Str → Ended
  | 0, _, cs, _ => .atEnd cs
  | f + 1, doc, cs, p =>
    match identify p with
    | none => .atEnd cs
    | some (.comment, q) =>
      match parseText (lit "-->") q with
      | none => .failed .parsingComment
      | some (v, r) => parseNodes f doc (cs ++ [.comment (value false v)]) r
    | some (.decl, q) =>
      match parseText (lit "?>") q with
      | none => .failed .parsingDeclaration
      | some (v, r) =>
        if doc && cs.all Node.isDecl then parseNodes f doc (cs ++ [.decl (value false v)]) r
        else .failed .parsingDeclaration
    | some (.cdata, q) =>
      match parseText (lit "]]>") q with
      | none => .failed .parsingCdata
      | some (v, r) => parseNodes f doc (cs ++ [.text true (value false v)]) r
    | some (.unknown, q) =>
      match parseText (lit ">") q with
      | none => .failed .parsingUnknown
      | some (v, r) => parseNodes f doc (cs ++ [.unknown (value false v)]) r
    | some (.text, q) =>
      match parseText (lit "<") q with
      | none => .failed .parsingText
      | some (v, r) =>
        if r = [] then .failed .parsing
        else parseNodes f doc (cs ++ [.text false (value true v)]) (60 :: r)
    | some (.elem, q) =>
      match parseTag q with
      | .error e => .failed e
      | .ok (n, _, .closing, r) => .byTag cs n r
      | .ok (n, as, .closed, r) => parseNodes f doc (cs ++ [.elem n as []]) r
      | .ok (n, as, .opened, r) =>
        if r = [] then .failed .mismatchedElement
        else
          match parseNodes f false [] r with
          | .failed e => .failed e
          | .atEnd _ => .failed .parsing
          | .byTag ks m r' =>
            if m = n then parseNodes f doc (cs ++ [.elem n as ks]) r'
            else .failed .mismatchedElement

/-- `XMLDocument::Parse` — tinyxml2.cpp:2349-2363, with `XMLUtil::ReadBOM` (385-400).  An end tag at the top of the document ends
the reading without an error. -/
def parse (content : Str) : Except Code (List Node) :=
  let p := skipSpace (cstr content)
  let p := (strip [0xEF, 0xBB, 0xBF] p).getD p
  if p = [] then .error .emptyDocument
  else
    match parseNodes p.length true [] p with
    | .atEnd cs => .ok cs
    | .byTag cs _ _ => .ok cs
    | .failed e => .error e

/-- `XMLDocument::LoadFile` — tinyxml2.cpp:2152-2233; `none`: the file cannot be opened.  Reading never fails. -/
def loadFile : Option Str → Except Code (List Node)
  | none => .error .fileNotFound
  | some [] => .error .emptyDocument
  | some c => parse c

end Verif.Xml
