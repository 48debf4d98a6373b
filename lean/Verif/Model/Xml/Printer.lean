import Verif.Model.Xml.Tiny
/-!
# `XMLPrinter` and saving a document — tinyxml2.cpp:2258-2296, 2365-2790, tinyxml2.h:2139-2262

The printer as visitor of a document, as `XMLDocument::SaveFile` and `XMLDocument::Print` use it.

Simplifications.
* What is written (to a file or to the buffer) is a list of bytes; writing never fails.
* `_depth` and `_textDepth` do not overflow; the depth of recursion is left out.
* The overloads of `PushAttribute` and `PushText` for numbers are left out: the visitor does not use them.  `CompactMode` and `PrintSpace` are not overridden.
* `XMLDocument` is constructed with its default arguments, so entities are processed.
-/
namespace Verif.Xml
open Tec

/-- members of `XMLPrinter` — tinyxml2.h:2238-2256; `_processEntities` is always true -/
structure Printer where
  out : Str
  justOpened : Bool
  stack : List Str
  first : Bool
  depth : Int
  textDepth : Int
  compact : Bool

namespace Printer

/-- the constructor — tinyxml2.cpp:2365-2390 -/
def new (compact : Bool) : Printer := ⟨[], false, [], true, 0, -1, compact⟩

/-- `Write` and `Putc` — tinyxml2.cpp:2415-2438 -/
def put (s : Printer) (t : Str) : Printer := { s with out := s.out ++ t }

/-- `PrintSpace` — tinyxml2.cpp:2441-2446 -/
def printSpace (s : Printer) : Printer := s.put (List.replicate (4 * s.depth.toNat) 32)

/-- the name of the entity for a byte that has a flag — tinyxml2.cpp:128-135, 2376-2387 -/
def entityOf (restricted : Bool) (b : Byte) : Option Str :=
  if b = 38 then some (lit "amp")
  else if b = 60 then some (lit "lt")
  else if b = 62 then some (lit "gt")
  else if restricted then none
  else if b = 34 then some (lit "quot")
  else if b = 39 then some (lit "apos")
  else none

/-- `PrintString` — tinyxml2.cpp:2449-2499.  `run` are the bytes from `p` to `q`, not yet written.  Before an entity all of them
are written, at the end at most `INT_MAX`. -/
def string (restricted : Bool) : (run : Str) → Str → Str
  | run, [] => run.take 2147483647
  | run, b :: l =>
    match entityOf restricted b with
    | some e => run ++ lit "&" ++ e ++ lit ";" ++ string restricted [] l
    | none => string restricted (run ++ [b]) l

/-- `SealElementIfJustOpened` — tinyxml2.cpp:2614-2621 -/
def sealed (s : Printer) : Printer := if s.justOpened then { s with justOpened := false }.put (lit ">") else s

/-- the white space before a comment, a declaration or an unknown node — tinyxml2.cpp:2689-2693, 2704-2708, 2719-2723 -/
def newLine (s : Printer) : Printer :=
  let s : Printer := if s.textDepth < 0 ∧ ¬ s.first ∧ ¬ s.compact then (s.put (lit "\n")).printSpace else s
  { s with first := false }

/-- `OpenElement(name, compactMode)` — tinyxml2.cpp:2514-2532 -/
def openElement (s : Printer) (name : Str) : Printer :=
  let s : Printer := s.sealed
  let s : Printer := { s with stack := name :: s.stack }
  let s : Printer := if s.textDepth < 0 ∧ ¬ s.first ∧ ¬ s.compact then s.put (lit "\n") else s
  let s : Printer := if ¬ s.compact then s.printSpace else s
  let s : Printer := (s.put (lit "<")).put name
  { s with justOpened := true, first := false, depth := s.depth + 1 }

/-- `PushAttribute(name, value)` — tinyxml2.cpp:2535-2543 -/
def pushAttribute (s : Printer) (a : Str × Str) : Printer :=
  s.put (lit " " ++ a.1 ++ lit "=\"" ++ string false [] a.2 ++ lit "\"")

/-- `CloseElement(compactMode)` — tinyxml2.cpp:2586-2611.  With an empty stack `_stack.Pop()` reads outside of the array. -/
def closeElement (s : Printer) : Out Printer :=
  match s.stack with
  | [] => .ub .oob
  | name :: rest =>
    let s : Printer := { s with depth := s.depth - 1, stack := rest }
    let s :=
      if s.justOpened then s.put (lit "/>")
      else
        let s : Printer := if s.textDepth < 0 ∧ ¬ s.compact then (s.put (lit "\n")).printSpace else s
        s.put (lit "</" ++ name ++ lit ">")
    let s : Printer := if s.textDepth = s.depth then { s with textDepth := -1 } else s
    let s : Printer := if s.depth = 0 ∧ ¬ s.compact then s.put (lit "\n") else s
    .ok { s with justOpened := false }

/-- `PushText(text, cdata)` — tinyxml2.cpp:2624-2637 -/
def pushText (s : Printer) (cdata : Bool) (text : Str) : Printer :=
  let s : Printer := { s with textDepth := s.depth - 1 }.sealed
  if cdata then s.put (lit "<![CDATA[" ++ text ++ lit "]]>") else s.put (string true [] text)

/-- `PushComment` — tinyxml2.cpp:2686-2698 -/
def pushComment (s : Printer) (v : Str) : Printer := s.sealed.newLine.put (lit "<!--" ++ v ++ lit "-->")

/-- `PushDeclaration` — tinyxml2.cpp:2701-2713 -/
def pushDeclaration (s : Printer) (v : Str) : Printer := s.sealed.newLine.put (lit "<?" ++ v ++ lit "?>")

/-- `PushUnknown` — tinyxml2.cpp:2716-2728 -/
def pushUnknown (s : Printer) (v : Str) : Printer := s.sealed.newLine.put (lit "<!" ++ v ++ lit ">")

end Printer

mutual

/-- `Accept(printer)` of a node — tinyxml2.cpp:1179-1183, 1227-1231, 1277-1281, 1324-1328, 1952-1964, with `VisitEnter`, `VisitExit` and `Visit` of the
printer — tinyxml2.cpp:2741-2788 -/
def Node.accept : Node → Printer → Out Printer
  | .elem n as cs, s => do
    let s : Printer := as.foldl Printer.pushAttribute (s.openElement n)
    let s ← acceptAll cs s
    s.closeElement
  | .text cdata v, s => .ok (s.pushText cdata v)
  | .comment v, s => .ok (s.pushComment v)
  | .decl v, s => .ok (s.pushDeclaration v)
  | .unknown v, s => .ok (s.pushUnknown v)

/-- the children one after the other -/
def acceptAll : List Node → Printer → Out Printer
  | [], s => .ok s
  | x :: l, s => do
    let s ← x.accept s
    acceptAll l s

end

/-- `XMLDocument::Accept(printer)` — tinyxml2.cpp:726-737, with `VisitEnter(doc)` — tinyxml2.cpp:2731-2738 and `PushHeader(true, false)` —
tinyxml2.cpp:2502-2511.  `bom`: `HasBOM()`. -/
def acceptDoc (bom : Bool) (l : List Node) (s : Printer) : Out Printer :=
  acceptAll l (if bom then s.put [0xEF, 0xBB, 0xBF] else s)

/-- the text that `XMLDocument::SaveFile(fp, compact)` writes — tinyxml2.cpp:2247-2255, and that `Print` of a new printer holds — tinyxml2.cpp:2289-2298 -/
def printed (compact bom : Bool) (l : List Node) : Out Str := do
  let s ← acceptDoc bom l (.new compact)
  return s.out

/-- `XMLDocument::SaveFile(filename, compact)` — tinyxml2.cpp:2234-2244: the code returned, and the files -/
def saveFile (canOpen : Str → Bool) (compact bom : Bool) (l : List Node) (name : Str) (fs : Str → Option Str) : Out (Option Code × (Str → Option Str)) :=
  if canOpen (cstr name) then do
    let t ← printed compact bom l
    return (none, fun p => if p = cstr name then some t else fs p)
  else .ok (some .fileCouldNotBeOpened, fs)

end Verif.Xml
