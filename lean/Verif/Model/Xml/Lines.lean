import Verif.Model.Xml.Tiny
/-!
# Line numbers — tinyxml2.cpp, tinyxml2.h

`XMLDocument` counts lines while it reads: `_parseCurLineNum` goes up with every line feed that is passed, each node and each attribute
keeps its value at the beginning (`_parseLineNum`, returned by `GetLineNum`), and so does an error (`_errorLineNum`, returned by
`ErrorLineNum` and part of `ErrorStr`).  These functions are those of `Verif.Model.Xml.Tiny` with the counter and with what the reader
says about an error: the formatted third argument of `SetError`, `none` for a null pointer.

Simplification: the counter is a natural number; the code counts with `int`, so the file must have fewer than 2^31-1 line feeds.
-/
namespace Verif.Xml.Lines
open Tec

/-- nodes with their `_parseLineNum` — tinyxml2.h:934-935, 1148-1149 -/
inductive LNode where
  | elem (line : Nat) (name : Str) (attrs : List (Nat × Str × Str)) (children : List LNode)
  | text (line : Nat) (cdata : Bool) (value : Str)
  | comment (line : Nat) (value : Str)
  | decl (line : Nat) (value : Str)
  | unknown (line : Nat) (value : Str)

/-- `XMLUtil::SkipWhiteSpace` — tinyxml2.h:542-553 -/
def skipL : Str → Nat → Str × Nat
  | [], k => ([], k)
  | b :: l, k => if isSpace b then skipL l (if b = 10 then k + 1 else k) else (b :: l, k)

/-- `StrPair::ParseText` — tinyxml2.cpp:193-215 -/
def textL (tag : Str) : Str → Nat → Option (Str × Str × Nat)
  | [], _ => none
  | b :: l, k =>
    match strip tag (b :: l) with
    | some r => some ([], r, k)
    | none =>
      match textL tag l (if b = 10 then k + 1 else k) with
      | some (v, r, k') => some (b :: v, r, k')
      | none => none

/-- `XMLAttribute::ParseDeep` — tinyxml2.cpp:1342-1367 -/
def attrL (p : Str) (k : Nat) : Option ((Str × Str) × Str × Nat) :=
  match parseName p with
  | none => none
  | some (n, p) =>
    match skipL p k with
    | (61 :: p, k) =>
      match skipL p k with
      | (q :: p, k) =>
        if q = 34 ∨ q = 39 then
          match textL [q] p k with
          | some (v, r, k) => some ((n, value true v), r, k)
          | none => none
        else none
      | _ => none
    | _ => none

/-- `"XMLElement name=%s"` — tinyxml2.cpp:1078, 1809, 1824 -/
def ofElem (name : Str) : Option Str := some (lit "XMLElement name=" ++ name)

/-- `"XMLDeclaration value=%s"` — tinyxml2.cpp:1043 -/
def ofDecl (v : Str) : Option Str := some (lit "XMLDeclaration value=" ++ v)

/-- `XMLElement::ParseAttributes` — tinyxml2.cpp:1801-1858; `line` and `name` are those of the element -/
def attrsL (line : Nat) (name : Str) : Nat → List (Nat × Str × Str) → Str → Nat → Except (Code × Nat × Option Str) (List (Nat × Str × Str) × Bool × Str × Nat)
  | 0, _, _, _ => .error (.parsingElement, line, none)
  | f + 1, as, p, k =>
    match skipL p k with
    | ([], _) => .error (.parsingElement, line, ofElem name)
    | (b :: l, k) =>
      if isNameStart b then
        match attrL (b :: l) k with
        | none => .error (.parsingAttribute, k, ofElem name)
        | some (a, r, k') =>
          if as.any (fun x => x.2.1 == a.1) then .error (.parsingAttribute, k, ofElem name)
          else attrsL line name f (as ++ [(k, a)]) r k'
      else if b = 62 then .ok (as, false, l, k)
      else if b = 47 then
        match l with
        | 62 :: r => .ok (as, true, r, k)
        | _ => .error (.parsingElement, line, none)
      else .error (.parsingElement, line, none)

/-- the tag of an element, from behind `<` on — tinyxml2.cpp:1884-1908, 1021-1025 -/
def tagL (line : Nat) (p : Str) (k : Nat) : Except (Code × Nat × Option Str) (Str × List (Nat × Str × Str) × Closing × Str × Nat) :=
  match skipL p k with
  | (p, k) =>
    let c := strip [47] p
    match parseName (c.getD p) with
    | none => .error (.parsing, line, none)
    | some (n, p) =>
      match attrsL line n (p.length + 1) [] p k with
      | .error e => .error e
      | .ok (as, sealed, r, k) => .ok (n, as, if sealed then .closed else if c.isSome then .closing else .opened, r, k)

/-- `XMLDocument::Identify` — tinyxml2.cpp:656-723: the kind of the next node, its line, the text behind its header and the counter -/
def identifyL (start : Str) (k : Nat) : Option (Kind × Nat × Str × Nat) :=
  match skipL start k with
  | (p, line) =>
    if p = [] then none
    else
      match strip (lit "<?") p with
      | some r => some (.decl, line, r, line)
      | none =>
        match strip (lit "<!--") p with
        | some r => some (.comment, line, r, line)
        | none =>
          match strip (lit "<![CDATA[") p with
          | some r => some (.cdata, line, r, line)
          | none =>
            match strip (lit "<!") p with
            | some r => some (.unknown, line, r, line)
            | none =>
              match strip (lit "<") p with
              | some r => some (.elem, line, r, line)
              | none => some (.text, line, start, k)

/-- what reading the children of a node ends with -/
inductive EndedL
  | atEnd (children : List LNode)
  | byTag (children : List LNode) (name : Str) (rest : Str) (k : Nat)
  | failed (e : Code) (line : Nat) (told : Option Str)

def LNode.isDecl : LNode → Bool
  | .decl _ _ => true
  | _ => false

/-- `XMLNode::ParseDeep` and the functions of the same name of its subclasses — tinyxml2.cpp:988-1086, 1133-1156, 1198-1206,
1247-1255, 1295-1303, 1884-1908 -/
def nodesL : Nat → Bool → List LNode → Str → Nat → EndedL
  | 0, _, cs, _, _ => .atEnd cs
  | f + 1, doc, cs, p, k =>
    match identifyL p k with
    | none => .atEnd cs
    | some (.comment, line, q, k) =>
      match textL (lit "-->") q k with
      | none => .failed .parsingComment line none
      | some (v, r, k) => nodesL f doc (cs ++ [.comment line (value false v)]) r k
    | some (.decl, line, q, k) =>
      match textL (lit "?>") q k with
      | none => .failed .parsingDeclaration line none
      | some (v, r, k) =>
        if doc && cs.all LNode.isDecl then nodesL f doc (cs ++ [.decl line (value false v)]) r k
        else .failed .parsingDeclaration line (ofDecl (value false v))
    | some (.cdata, line, q, k) =>
      match textL (lit "]]>") q k with
      | none => .failed .parsingCdata line none
      | some (v, r, k) => nodesL f doc (cs ++ [.text line true (value false v)]) r k
    | some (.unknown, line, q, k) =>
      match textL (lit ">") q k with
      | none => .failed .parsingUnknown line none
      | some (v, r, k) => nodesL f doc (cs ++ [.unknown line (value false v)]) r k
    | some (.text, line, q, k) =>
      match textL (lit "<") q k with
      | none => .failed .parsingText line none
      | some (v, r, k) =>
        if r = [] then .failed .parsing line none
        else nodesL f doc (cs ++ [.text line false (value true v)]) (60 :: r) k
    | some (.elem, line, q, k) =>
      match tagL line q k with
      | .error (e, n, t) => .failed e n t
      | .ok (n, _, .closing, r, k) => .byTag cs n r k
      | .ok (n, as, .closed, r, k) => nodesL f doc (cs ++ [.elem line n as []]) r k
      | .ok (n, as, .opened, r, k) =>
        if r = [] then .failed .mismatchedElement line (ofElem n)
        else
          match nodesL f false [] r k with
          | .failed e n t => .failed e n t
          | .atEnd _ => .failed .parsing line none
          | .byTag ks m r' k =>
            if m = n then nodesL f doc (cs ++ [.elem line n as ks]) r' k
            else .failed .mismatchedElement line (ofElem n)

/-- `XMLDocument::Parse` — tinyxml2.cpp:2349-2363: the nodes, or the error, its `_errorLineNum` and what is said about it -/
def parseL (content : Str) : Except (Code × Nat × Option Str) (List LNode) :=
  match skipL (cstr content) 1 with
  | (p, k) =>
    let p := (strip [0xEF, 0xBB, 0xBF] p).getD p
    if p = [] then .error (.emptyDocument, 0, none)
    else
      match nodesL p.length true [] p k with
      | .atEnd cs => .ok cs
      | .byTag cs _ _ _ => .ok cs
      | .failed e n t => .error (e, n, t)

/-! ## The tree without line numbers -/

mutual
/-- the node without its line numbers -/
def LNode.node : LNode → Node
  | .elem _ n as cs => .elem n (as.map Prod.snd) (nodes cs)
  | .text _ c v => .text c v
  | .comment _ v => .comment v
  | .decl _ v => .decl v
  | .unknown _ v => .unknown v
def nodes : List LNode → List Node
  | [] => []
  | x :: l => x.node :: nodes l
end

end Verif.Xml.Lines
