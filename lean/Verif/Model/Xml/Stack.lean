import Verif.Model.Xml.Tiny
import Verif.Model.Xml.Printer
/-!
# The reader on a stack of limited size — tinyxml2.cpp:988-1086, 1884-1908

`XMLNode::ParseDeep` calls `XMLElement::ParseDeep` for every element, which calls `XMLNode::ParseDeep` for the children if the tag is an
opening one.  Nothing limits the number of these calls.  The functions are those of `Verif.Model.Xml.Tiny` with a stack that has room
for a number of such calls inside of each other beyond the one of the document; `none`: the stack is exhausted, which is undefined.

Simplification: all calls need the same room; the stack is used for nothing else.
-/
namespace Verif.Xml.Stack
open Tec

/-- `XMLNode::ParseDeep` and the functions of the same name of its subclasses; the first argument is the room that is left -/
def nodesS : Nat → Nat → Bool → List Node → Str → Option Ended
  | _, 0, _, cs, _ => some (.atEnd cs)
  | d, f + 1, doc, cs, p =>
    match identify p with
    | none => some (.atEnd cs)
    | some (.comment, q) =>
      match parseText (lit "-->") q with
      | none => some (.failed .parsingComment)
      | some (v, r) => nodesS d f doc (cs ++ [.comment (value false v)]) r
    | some (.decl, q) =>
      match parseText (lit "?>") q with
      | none => some (.failed .parsingDeclaration)
      | some (v, r) =>
        if doc && cs.all Node.isDecl then nodesS d f doc (cs ++ [.decl (value false v)]) r
        else some (.failed .parsingDeclaration)
    | some (.cdata, q) =>
      match parseText (lit "]]>") q with
      | none => some (.failed .parsingCdata)
      | some (v, r) => nodesS d f doc (cs ++ [.text true (value false v)]) r
    | some (.unknown, q) =>
      match parseText (lit ">") q with
      | none => some (.failed .parsingUnknown)
      | some (v, r) => nodesS d f doc (cs ++ [.unknown (value false v)]) r
    | some (.text, q) =>
      match parseText (lit "<") q with
      | none => some (.failed .parsingText)
      | some (v, r) =>
        if r = [] then some (.failed .parsing)
        else nodesS d f doc (cs ++ [.text false (value true v)]) (60 :: r)
    | some (.elem, q) =>
      match parseTag q with
      | .error e => some (.failed e)
      | .ok (n, _, .closing, r) => some (.byTag cs n r)
      | .ok (n, as, .closed, r) => nodesS d f doc (cs ++ [.elem n as []]) r
      | .ok (n, as, .opened, r) =>
        if r = [] then some (.failed .mismatchedElement)
        else
          match d with
          | 0 => none
          | d' + 1 =>
            match nodesS d' f false [] r with
            | none => none
            | some (.failed e) => some (.failed e)
            | some (.atEnd _) => some (.failed .parsing)
            | some (.byTag ks m r') =>
              if m = n then nodesS (d' + 1) f doc (cs ++ [.elem n as ks]) r'
              else some (.failed .mismatchedElement)

/-- `XMLDocument::Parse` — tinyxml2.cpp:2349-2363 -/
def parseS (d : Nat) (content : Str) : Option (Except Code (List Node)) :=
  let p := skipSpace (cstr content)
  let p := (strip [0xEF, 0xBB, 0xBF] p).getD p
  if p = [] then some (.error .emptyDocument)
  else
    match nodesS d p.length true [] p with
    | none => none
    | some (.atEnd cs) => some (.ok cs)
    | some (.byTag cs _ _) => some (.ok cs)
    | some (.failed e) => some (.error e)

/-! ## Printing — tinyxml2.cpp:726-737, 1179-1183, 1227-1231, 1277-1281, 1324-1328, 1952-1964

`Accept` of an element calls `Accept` of its children.  The functions are those of `Verif.Model.Xml.Printer` with a stack that has room for a number of calls of
`Accept` in each other beyond the one of the document. -/

mutual
/-- `Accept(printer)` of a node -/
def acceptS : Nat → Node → Printer → Option (Out Printer)
  | 0, _, _ => none
  | d + 1, .elem n as cs, s =>
    match acceptAllS d cs (as.foldl Printer.pushAttribute (s.openElement n)) with
    | none => none
    | some o => some (o >>= Printer.closeElement)
  | _ + 1, .text cdata v, s => some (.ok (s.pushText cdata v))
  | _ + 1, .comment v, s => some (.ok (s.pushComment v))
  | _ + 1, .decl v, s => some (.ok (s.pushDeclaration v))
  | _ + 1, .unknown v, s => some (.ok (s.pushUnknown v))

/-- the children one after the other -/
def acceptAllS : Nat → List Node → Printer → Option (Out Printer)
  | _, [], s => some (.ok s)
  | d, x :: l, s =>
    match acceptS d x s with
    | none => none
    | some (.ok s') => acceptAllS d l s'
    | some o => some o
end

/-- the text that `XMLDocument::SaveFile(fp, compact)` writes — tinyxml2.cpp:2247-2255 -/
def printedS (d : Nat) (compact bom : Bool) (l : List Node) : Option (Out Str) :=
  match acceptAllS d l (if bom then (Printer.new compact).put [0xEF, 0xBB, 0xBF] else .new compact) with
  | none => none
  | some o => some (o >>= fun s => .ok s.out)

end Verif.Xml.Stack
