import Verif.Model.Xml.Tiny
/-!
# The reader of `tinyxml2` inside its character buffer — tinyxml2.cpp, tinyxml2.h

`Verif.Model.Xml.Tiny` reads a list of bytes.  The code reads an array of bytes: pointers move over it, names and values are
remembered as two pointers (`StrPair`) and are decoded at the place where they stand when they are asked for first, some of them
while the reading goes on.  Here a pointer is an index of the array and the array is the state; reading or writing outside of it is
undefined behaviour.

Simplifications.
* `XMLDocument` is constructed with its default arguments (`processEntities`, `PRESERVE_WHITESPACE`); `NEEDS_WHITESPACE_COLLAPSING`
  is in `Verif.Model.Xml.Collapse`.
* Line numbers, memory pools and the depth of recursion are left out; `TIXMLASSERT` does nothing.  Of the texts of errors only the
  name or value that they contain is read.
* The nodes that are deleted after an error are left out: after an error only its number is kept.
* Loops carry a bound on the number of rounds; reaching it is an outcome of its own (`UB.overflow`), which the theorems exclude.
* `strncmp` with `INT_MAX` compares to the end of the strings.
-/
namespace Verif.Xml.InPlace
open Tec

/-- statements on the array `_charBuffer` — tinyxml2.h:1860 -/
abbrev B (α : Type) := M Str α

/-- `*p` -/
def rd (p : Nat) : B Byte := fun b =>
  match b[p]? with
  | some c => .ok c b
  | none => .ub .oob

/-- `*p = c` -/
def wr (p : Nat) (c : Byte) : B Unit := fun b => if p < b.length then .ok () (b.set p c) else .ub .oob

/-- `memcpy( p, buf, len )` — tinyxml2.cpp:314 -/
def wrs (p : Nat) : Str → B Unit
  | [] => pure ()
  | c :: l => do wr p c; wrs (p + 1) l

/-- more rounds than there are bytes in the array -/
def rounds : B Nat := fun b => .ok (b.length + 1) b

/-- `XMLUtil::SkipWhiteSpace` — tinyxml2.h:542-553 -/
def skip : Nat → Nat → B Nat
  | 0, _ => M.undef .overflow
  | f + 1, p => do
    let c ← rd p
    if isSpace c then skip f (p + 1) else pure p

/-- `strncmp( p, pat, strlen( pat ) ) == 0` for a constant `pat`; `XMLUtil::StringEqual` — tinyxml2.h:582-590 -/
def equalAt : Str → Nat → B Bool
  | [], _ => pure true
  | a :: pat, p => do
    let c ← rd p
    if a = c then equalAt pat (p + 1) else pure false

/-- the loop of `StrPair::ParseText` — tinyxml2.cpp:204-213; also `strchr` for a `tag` of one byte: where `tag` is found -/
def textEnd (tag : Str) : Nat → Nat → B (Option Nat)
  | 0, _ => M.undef .overflow
  | f + 1, p => do
    let c ← rd p
    if c = 0 then pure none
    else do
      let e ← equalAt tag p
      if e then pure (some p) else textEnd tag f (p + 1)

/-- `StrPair` — tinyxml2.h:122-182.  `flush`: `NEEDS_FLUSH`, `ent`: `NEEDS_ENTITY_PROCESSING`, `nl`: `NEEDS_NEWLINE_NORMALIZATION` -/
structure StrPair where
  start : Nat
  stop : Nat
  flush : Bool
  ent : Bool
  nl : Bool
  deriving DecidableEq, Repr

/-- `StrPair::ParseText` — tinyxml2.cpp:193-215 -/
def parseTextB (tag : Str) (ent : Bool) (p : Nat) : B (Option (StrPair × Nat)) := do
  let f ← rounds
  let r ← textEnd tag f p
  match r with
  | none => pure none
  | some e => pure (some (⟨p, e, true, ent, true⟩, e + tag.length))

/-- the loop of `StrPair::ParseName` — tinyxml2.cpp:229-231 -/
def nameEnd : Nat → Nat → B Nat
  | 0, _ => M.undef .overflow
  | f + 1, p => do
    let c ← rd p
    if c ≠ 0 ∧ isNameChar c = true then nameEnd f (p + 1) else pure p

/-- `StrPair::ParseName` — tinyxml2.cpp:218-236 -/
def parseNameB (p : Nat) : B (Option (StrPair × Nat)) := do
  let c ← rd p
  if c = 0 then pure none
  else if isNameStart c then do
    let f ← rounds
    let e ← nameEnd f (p + 1)
    pure (some (⟨p, e, true, false, false⟩, e))
  else pure none

/-! ## Decoding -/

/-- the loops of `XMLUtil::GetCharacterRef` that go backwards — tinyxml2.cpp:486-511, 530-545 -/
def refBack (hex : Bool) : Nat → Nat → (mult ucs : Nat) → B (Option Nat)
  | 0, _, _, _ => M.undef .overflow
  | f + 1, q, mult, ucs => do
    let c ← rd q
    if c = (if hex then 120 else 35) then pure (some ucs)
    else
      match digitVal hex c with
      | none => pure none
      | some d =>
        if q = 0 then M.undef .oob
        else refBack hex f (q - 1) (u32 (mult * if hex then 16 else 10)) (ucs + u32 (mult * d))

/-- one branch of `XMLUtil::GetCharacterRef`: the number ends before the first `;` from `q` on — tinyxml2.cpp:469-511, 515-545 -/
def refFrom (hex : Bool) (q : Nat) : B (Option (Str × Nat)) := do
  let c ← rd q
  if c = 0 then pure none
  else do
    let f ← rounds
    let r ← textEnd [59] f q
    match r with
    | none => pure none
    | some e => do
      let n ← refBack hex f (e - 1) 1 0
      match n with
      | none => pure none
      | some n => pure (some (utf8 n, e + 1))

/-- `XMLUtil::GetCharacterRef` — tinyxml2.cpp:456-549: the bytes of the character and the pointer behind the reference -/
def charRefB (p : Nat) : B (Option (Str × Nat)) := do
  let c1 ← rd (p + 1)
  if c1 = 35 then do
    let c2 ← rd (p + 2)
    if c2 = 0 then pure (some ([], p + 1))
    else if c2 = 120 then refFrom true (p + 3)
    else refFrom false (p + 2)
  else pure (some ([], p + 1))

/-- the table of entities — tinyxml2.cpp:128-135 -/
def table : List (Str × Byte) := [(lit "quot", 34), (lit "amp", 38), (lit "apos", 39), (lit "lt", 60), (lit "gt", 62)]

/-- the loop over the table — tinyxml2.cpp:320-333 -/
def entityB (p : Nat) : List (Str × Byte) → B (Option (Byte × Nat))
  | [] => pure none
  | (pat, v) :: t => do
    let e ← equalAt pat (p + 1)
    if e then do
      let c ← rd (p + pat.length + 1)
      if c = 59 then pure (some (v, p + (pat.length + 2))) else entityB p t
    else entityB p t

/-- the loop of `StrPair::GetStr` — tinyxml2.cpp:276-350: `p` reads, `q` writes, `e` is `_end`; the last place of `q` -/
def cookB (ent nl : Bool) (e : Nat) : Nat → Nat → Nat → B Nat
  | 0, _, _ => M.undef .overflow
  | f + 1, p, q =>
    if p < e then do
      let c ← rd p
      if nl = true ∧ c = 13 then do
        let d ← rd (p + 1)
        wr q 10
        cookB ent nl e f (if d = 10 then p + 2 else p + 1) (q + 1)
      else if nl = true ∧ c = 10 then do
        let d ← rd (p + 1)
        wr q 10
        cookB ent nl e f (if d = 13 then p + 2 else p + 1) (q + 1)
      else if ent = true ∧ c = 38 then do
        let d ← rd (p + 1)
        if d = 35 then do
          let r ← charRefB p
          match r with
          | none => do
            let c ← rd p
            wr q c
            cookB ent nl e f (p + 1) (q + 1)
          | some (v, p') => do
            wrs q v
            cookB ent nl e f p' (q + v.length)
        else do
          let r ← entityB p table
          match r with
          | some (v, p') => do
            wr q v
            cookB ent nl e f p' (q + 1)
          | none => cookB ent nl e f (p + 1) (q + 1)
      else do
        wr q c
        cookB ent nl e f (p + 1) (q + 1)
    else pure q

/-- `StrPair::GetStr` — tinyxml2.cpp:267-365: the pair afterwards; the result is the C string at its `start` -/
def getStr (s : StrPair) : B StrPair :=
  if s.flush then do
    wr s.stop 0
    if s.ent || s.nl then do
      let f ← rounds
      let q ← cookB s.ent s.nl s.stop f s.start s.start
      wr q 0
      pure { s with flush := false, ent := false, nl := false }
    else pure { s with flush := false, ent := false, nl := false }
  else pure s

/-- reading the C string at `p` -/
def readC : Nat → Nat → B Str
  | 0, _ => M.undef .overflow
  | f + 1, p => do
    let c ← rd p
    if c = 0 then pure []
    else do
      let l ← readC f (p + 1)
      pure (c :: l)

/-- `Name()`, `Value()` — tinyxml2.cpp:763-769, 1332-1340: the pair afterwards and the string -/
def ask (s : StrPair) : B (StrPair × Str) := do
  let s ← getStr s
  let f ← rounds
  let v ← readC f s.start
  pure (s, v)

/-- `strcmp( p, q ) == 0`; `XMLUtil::StringEqual` — tinyxml2.h:582-590 -/
def strEq : Nat → Nat → Nat → B Bool
  | 0, _, _ => M.undef .overflow
  | f + 1, p, q => do
    let x ← rd p
    let y ← rd q
    if x ≠ y then pure false
    else if x = 0 then pure true
    else strEq f (p + 1) (q + 1)

/-! ## Attributes -/

/-- `XMLAttribute::ParseDeep` — tinyxml2.cpp:1342-1367 -/
def parseAttrB (p : Nat) : B (Option ((StrPair × StrPair) × Nat)) := do
  let r ← parseNameB p
  match r with
  | none => pure none
  | some (n, p) => do
    let c ← rd p
    if c = 0 then pure none
    else do
      let f ← rounds
      let p ← skip f p
      let c ← rd p
      if c ≠ 61 then pure none
      else do
        let p ← skip f (p + 1)
        let c ← rd p
        if c = 34 ∨ c = 39 then do
          let r ← parseTextB [c] true (p + 1)
          match r with
          | none => pure none
          | some (v, p) => pure (some ((n, v), p))
        else pure none

/-- `XMLElement::Attribute`, `FindAttribute` — tinyxml2.cpp:1501-1522: whether there is an attribute of the name at `k`, and the
attributes afterwards -/
def hasAttr (k : Nat) : List (StrPair × StrPair) → B (Bool × List (StrPair × StrPair))
  | [] => pure (false, [])
  | (n, v) :: as => do
    let n ← getStr n
    let f ← rounds
    let e ← strEq f n.start k
    if e then do
      let v ← getStr v
      pure (true, (n, v) :: as)
    else do
      let (r, as) ← hasAttr k as
      pure (r, (n, v) :: as)

/-- `SetError( e, …, "… %s", s.GetStr() )` — tinyxml2.cpp:2301-2322 -/
def failWith {α : Type} (e : Code) (s : StrPair) : B (Except Code α) := do
  let _ ← ask s
  pure (.error e)

/-- `XMLElement::ParseAttributes` — tinyxml2.cpp:1801-1858.  `name` is the `_value` of the element. -/
def parseAttrsB (name : StrPair) : Nat → List (StrPair × StrPair) → Nat → B (Except Code (List (StrPair × StrPair) × Bool × Nat))
  | 0, _, _ => M.undef .overflow
  | f + 1, as, p => do
    let g ← rounds
    let p ← skip g p
    let c ← rd p
    if c = 0 then failWith .parsingElement name
    else if isNameStart c then do
      let r ← parseAttrB p
      match r with
      | none => failWith .parsingAttribute name
      | some ((n, v), p) => do
        let n ← getStr n
        let (found, as) ← hasAttr n.start as
        if found then failWith .parsingAttribute name
        else parseAttrsB name f (as ++ [(n, v)]) p
    else if c = 62 then pure (.ok (as, false, p + 1))
    else if c = 47 then do
      let d ← rd (p + 1)
      if d = 62 then pure (.ok (as, true, p + 2)) else pure (.error .parsingElement)
    else pure (.error .parsingElement)

/-- the tag of an element, from behind `<` on — tinyxml2.cpp:1884-1904: name, attributes, closing type, pointer behind the tag -/
def parseTagB (p : Nat) : B (Except Code (StrPair × List (StrPair × StrPair) × Closing × Nat)) := do
  let f ← rounds
  let p ← skip f p
  let c ← rd p
  let r ← parseNameB (if c = 47 then p + 1 else p)
  match r with
  | none => pure (.error .parsing)
  | some (n, p) => do
    let r ← parseAttrsB n f [] p
    match r with
    | .error e => pure (.error e)
    | .ok (as, sealed, p) => pure (.ok (n, as, if sealed then .closed else if c = 47 then .closing else .opened, p))

/-! ## Nodes -/

/-- `XMLNode` and its subclasses, with something in the place of every name and value -/
inductive Tree (α : Type) where
  | elem (name : α) (attrs : List (α × α)) (children : List (Tree α))
  | text (cdata : Bool) (value : α)
  | comment (value : α)
  | decl (value : α)
  | unknown (value : α)

def Tree.isDecl {α : Type} : Tree α → Bool
  | .decl _ => true
  | _ => false

/-- `XMLDocument::Identify` — tinyxml2.cpp:656-723 -/
def identifyB (start : Nat) : B (Option (Kind × Nat)) := do
  let f ← rounds
  let p ← skip f start
  let c ← rd p
  if c = 0 then pure none
  else do
    let e ← equalAt (lit "<?") p
    if e then pure (some (.decl, p + 2))
    else do
      let e ← equalAt (lit "<!--") p
      if e then pure (some (.comment, p + 4))
      else do
        let e ← equalAt (lit "<![CDATA[") p
        if e then pure (some (.cdata, p + 9))
        else do
          let e ← equalAt (lit "<!") p
          if e then pure (some (.unknown, p + 2))
          else do
            let e ← equalAt (lit "<") p
            if e then pure (some (.elem, p + 1)) else pure (some (.text, start))

/-- what reading the children of a node ends with -/
inductive EndedB
  | atEnd (children : List (Tree StrPair))
  | byTag (children : List (Tree StrPair)) (name : StrPair) (p : Nat)
  | failed (e : Code)

/-- `XMLNode::ParseDeep` and the functions of the same name of its subclasses — tinyxml2.cpp:988-1086, 1133-1156, 1198-1206,
1247-1255, 1295-1303, 1884-1908.  `doc`: the node is the document; `cs` are the children so far. -/
def parseNodesB : Nat → Bool → List (Tree StrPair) → Nat → B EndedB
  | 0, _, _, _ => M.undef .overflow
  | f + 1, doc, cs, p => do
    let c ← rd p
    if c = 0 then pure (.atEnd cs)
    else do
      let k ← identifyB p
      match k with
      | none => pure (.atEnd cs)
      | some (.comment, p) => do
        let r ← parseTextB (lit "-->") false p
        match r with
        | none => pure (.failed .parsingComment)
        | some (v, p) => parseNodesB f doc (cs ++ [.comment v]) p
      | some (.decl, p) => do
        let r ← parseTextB (lit "?>") false p
        match r with
        | none => pure (.failed .parsingDeclaration)
        | some (v, p) =>
          if doc && cs.all Tree.isDecl then parseNodesB f doc (cs ++ [.decl v]) p
          else do
            let _ ← ask v
            pure (.failed .parsingDeclaration)
      | some (.cdata, p) => do
        let r ← parseTextB (lit "]]>") false p
        match r with
        | none => pure (.failed .parsingCdata)
        | some (v, p) => parseNodesB f doc (cs ++ [.text true v]) p
      | some (.unknown, p) => do
        let r ← parseTextB (lit ">") false p
        match r with
        | none => pure (.failed .parsingUnknown)
        | some (v, p) => parseNodesB f doc (cs ++ [.unknown v]) p
      | some (.text, p) => do
        let r ← parseTextB (lit "<") true p
        match r with
        | none => pure (.failed .parsingText)
        | some (v, p) => do
          let c ← rd p
          if c = 0 then pure (.failed .parsing) else parseNodesB f doc (cs ++ [.text false v]) (p - 1)
      | some (.elem, p) => do
        let r ← parseTagB p
        match r with
        | .error e => pure (.failed e)
        | .ok (n, _, .closing, p) => pure (.byTag cs n p)
        | .ok (n, as, .closed, p) => parseNodesB f doc (cs ++ [.elem n as []]) p
        | .ok (n, as, .opened, p) => do
          let c ← rd p
          if c = 0 then do
            let _ ← ask n
            pure (.failed .mismatchedElement)
          else do
            let r ← parseNodesB f false [] p
            match r with
            | .failed e => pure (.failed e)
            | .atEnd _ => pure (.failed .parsing)
            | .byTag ks m p => do
              let m ← getStr m
              let n ← getStr n
              let g ← rounds
              let e ← strEq g m.start n.start
              if e then parseNodesB f doc (cs ++ [.elem n as ks]) p
              else do
                let _ ← ask n
                pure (.failed .mismatchedElement)

/-- `XMLUtil::ReadBOM` — tinyxml2.cpp:385-400 -/
def readBOM (p : Nat) : B Nat := do
  let e ← equalAt [0xEF, 0xBB, 0xBF] p
  pure (if e then p + 3 else p)

/-- `XMLDocument::Parse` — tinyxml2.cpp:2349-2363 -/
def parseB : B (Except Code (List (Tree StrPair))) := do
  let f ← rounds
  let p ← skip f 0
  let p ← readBOM p
  let c ← rd p
  if c = 0 then pure (.error .emptyDocument)
  else do
    let r ← parseNodesB f true [] p
    match r with
    | .atEnd cs => pure (.ok cs)
    | .byTag cs _ _ => pure (.ok cs)
    | .failed e => pure (.error e)

/-- `XMLDocument::LoadFile` from the allocation of the buffer on — tinyxml2.cpp:2219-2231: the bytes of the file, a NUL behind them -/
def loadB (content : Str) : Res Str (Except Code (List (Tree StrPair))) := parseB (content ++ [0])

end Verif.Xml.InPlace
