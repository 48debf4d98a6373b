import Verif.Model.Xml.Printer
/-!
# Documents that leave entities as they are — `XMLDocument(false)`

The reader of `Verif.Model.Xml.Tiny` and the printer of `Verif.Model.Xml.Printer` for both values (`pe`) of the member `_processEntities`
(tinyxml2.h:1647, 1855, tinyxml2.cpp:1993-1996).  The simplifications are those made there.
-/
namespace Verif.Xml
open Tec

/-! ## Reading: the flags of attribute values (tinyxml2.cpp:1365, 1821) and texts (1143) -/

/-- `XMLAttribute::ParseDeep` — tinyxml2.cpp:1342-1367 -/
def parseAttrE (pe : Bool) (p : Str) : Option ((Str × Str) × Str) :=
  match parseName p with
  | none => none
  | some (n, p) =>
    match skipSpace p with
    | 61 :: p =>
      match skipSpace p with
      | q :: p =>
        if q = 34 ∨ q = 39 then
          match parseText [q] p with
          | some (v, r) => some ((n, value pe v), r)
          | none => none
        else none
      | [] => none
    | _ => none

/-- `XMLElement::ParseAttributes` — tinyxml2.cpp:1801-1858: the attributes, whether the tag ends with `/>`, the rest of the text.
The first argument bounds the number of rounds. -/
def parseAttrsE (pe : Bool) : Nat → List (Str × Str) → Str → Except Code (List (Str × Str) × Bool × Str)
  | 0, _, _ => .error .parsingElement
  | f + 1, as, p =>
    match skipSpace p with
    | [] => .error .parsingElement
    | b :: l =>
      if isNameStart b then
        match parseAttrE pe (b :: l) with
        | none => .error .parsingAttribute
        | some (a, r) =>
          if as.any (fun x => x.1 == a.1) then .error .parsingAttribute
          else parseAttrsE pe f (as ++ [a]) r
      else if b = 62 then .ok (as, false, l)
      else if b = 47 then
        match l with
        | 62 :: r => .ok (as, true, r)
        | _ => .error .parsingElement
      else .error .parsingElement

/-- the tag of an element, from behind `<` on — tinyxml2.cpp:1884-1908: name, attributes, closing type, rest -/
def parseTagE (pe : Bool) (p : Str) : Except Code (Str × List (Str × Str) × Closing × Str) :=
  let p := skipSpace p
  let c := strip [47] p
  match parseName (c.getD p) with
  | none => .error .parsing
  | some (n, p) =>
    match parseAttrsE pe (p.length + 1) [] p with
    | .error e => .error e
    | .ok (as, sealed, r) => .ok (n, as, if sealed then .closed else if c.isSome then .closing else .opened, r)

/-- `XMLNode::ParseDeep` and the functions of the same name of its subclasses — tinyxml2.cpp:988-1086, 1133-1156, 1198-1206,
1247-1255, 1295-1303, 1884-1908.  `doc`: the node is the document; `cs` are the children so far.  The first argument bounds the
number of rounds: every round reads at least one byte. -/
def parseNodesE (pe : Bool) : Nat → Bool → List Node → Str → Ended
  | 0, _, cs, _ => .atEnd cs
  | f + 1, doc, cs, p =>
    match identify p with
    | none => .atEnd cs
    | some (.comment, q) =>
      match parseText (lit "-->") q with
      | none => .failed .parsingComment
      | some (v, r) => parseNodesE pe f doc (cs ++ [.comment (value false v)]) r
    | some (.decl, q) =>
      match parseText (lit "?>") q with
      | none => .failed .parsingDeclaration
      | some (v, r) =>
        if doc && cs.all Node.isDecl then parseNodesE pe f doc (cs ++ [.decl (value false v)]) r
        else .failed .parsingDeclaration
    | some (.cdata, q) =>
      match parseText (lit "]]>") q with
      | none => .failed .parsingCdata
      | some (v, r) => parseNodesE pe f doc (cs ++ [.text true (value false v)]) r
    | some (.unknown, q) =>
      match parseText (lit ">") q with
      | none => .failed .parsingUnknown
      | some (v, r) => parseNodesE pe f doc (cs ++ [.unknown (value false v)]) r
    | some (.text, q) =>
      match parseText (lit "<") q with
      | none => .failed .parsingText
      | some (v, r) =>
        if r = [] then .failed .parsing
        else parseNodesE pe f doc (cs ++ [.text false (value pe v)]) (60 :: r)
    | some (.elem, q) =>
      match parseTagE pe q with
      | .error e => .failed e
      | .ok (n, _, .closing, r) => .byTag cs n r
      | .ok (n, as, .closed, r) => parseNodesE pe f doc (cs ++ [.elem n as []]) r
      | .ok (n, as, .opened, r) =>
        if r = [] then .failed .mismatchedElement
        else
          match parseNodesE pe f false [] r with
          | .failed e => .failed e
          | .atEnd _ => .failed .parsing
          | .byTag ks m r' =>
            if m = n then parseNodesE pe f doc (cs ++ [.elem n as ks]) r'
            else .failed .mismatchedElement

/-- `XMLDocument::Parse` — tinyxml2.cpp:2349-2363, with `XMLUtil::ReadBOM` (385-400).  An end tag at the top of the document ends
the reading without an error. -/
def parseE (pe : Bool) (content : Str) : Except Code (List Node) :=
  let p := skipSpace (cstr content)
  let p := (strip [0xEF, 0xBB, 0xBF] p).getD p
  if p = [] then .error .emptyDocument
  else
    match parseNodesE pe p.length true [] p with
    | .atEnd cs => .ok cs
    | .byTag cs _ _ => .ok cs
    | .failed e => .error e

/-- `XMLDocument::LoadFile` — tinyxml2.cpp:2152-2233; `none`: the file cannot be opened -/
def loadFileE (pe : Bool) : Option Str → Except Code (List Node)
  | none => .error .fileNotFound
  | some [] => .error .emptyDocument
  | some c => parseE pe c

/-! ## Saving: `_processEntities` of the printer, set by `VisitEnter(doc)` — tinyxml2.cpp:2733 -/

namespace Printer

/-- `PrintString` — tinyxml2.cpp:2449-2499.  Without `_processEntities` the pointer `q` is not moved (it is only inside of the `if` of line
2454): the rest that is flushed at the end, from `p` to `q` (2494-2498), has the length 0. -/
def stringE (pe restricted : Bool) (p : Str) : Str := if pe then string restricted [] p else p.take 0

/-- `PushAttribute(name, value)` — tinyxml2.cpp:2535-2543 -/
def pushAttributeE (pe : Bool) (s : Printer) (a : Str × Str) : Printer :=
  s.put (lit " " ++ a.1 ++ lit "=\"" ++ stringE pe false a.2 ++ lit "\"")

/-- `PushText(text, cdata)` — tinyxml2.cpp:2624-2637 -/
def pushTextE (pe : Bool) (s : Printer) (cdata : Bool) (text : Str) : Printer :=
  let s : Printer := { s with textDepth := s.depth - 1 }.sealed
  if cdata then s.put (lit "<![CDATA[" ++ text ++ lit "]]>") else s.put (stringE pe true text)

end Printer

mutual

/-- `Accept(printer)` of a node — tinyxml2.cpp:1179-1183, 1227-1231, 1277-1281, 1324-1328, 1952-1964, with `VisitEnter`, `VisitExit` and `Visit` of the
printer — tinyxml2.cpp:2741-2788 -/
def Node.acceptE (pe : Bool) : Node → Printer → Out Printer
  | .elem n as cs, s => do
    let s : Printer := as.foldl (Printer.pushAttributeE pe) (s.openElement n)
    let s ← acceptAllE pe cs s
    s.closeElement
  | .text cdata v, s => .ok (s.pushTextE pe cdata v)
  | .comment v, s => .ok (s.pushComment v)
  | .decl v, s => .ok (s.pushDeclaration v)
  | .unknown v, s => .ok (s.pushUnknown v)

/-- the children one after the other -/
def acceptAllE (pe : Bool) : List Node → Printer → Out Printer
  | [], s => .ok s
  | x :: l, s => do
    let s ← x.acceptE pe s
    acceptAllE pe l s

end

/-- the text that `SaveFile` and `Print` write for a document — tinyxml2.cpp:726-737, 2247-2255, 2289-2298, 2502-2511, 2731-2738 -/
def printedE (pe compact bom : Bool) (l : List Node) : Out Str := do
  let s ← acceptAllE pe l (if bom then (Printer.new compact).put [0xEF, 0xBB, 0xBF] else .new compact)
  return s.out

end Verif.Xml
