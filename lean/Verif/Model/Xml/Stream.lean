import Verif.Model.Xml.Printer
import Verif.Model.Xml.Pool
/-!
# `XMLPrinter` without a document, and printing to memory — tinyxml2.cpp:2365-2728, tinyxml2.h:2139-2262

A program may call `OpenElement`, `PushAttribute`, `PushText` ... of a printer itself.  First the calls on the printer of
`Verif.Model.Xml.Printer`, whose output is a list of bytes; then the printer without a file, which writes into its `_buffer`, a
`DynArray<char, 20>` that holds the text and a null behind it.

Simplifications.
* `_stack` is a list (`C88`: a `DynArray` is one).
* `TIXMLASSERT` does nothing.  `CompactMode` and `PrintSpace` are not overridden; `_processEntities` is true.
* Texts are lists of bytes, so `strlen` is the length.
* The overloads for numbers are left out; they convert the number to a text (`C91`) and call the overloads here.
-/
namespace Verif.Xml
open Tec

/-- the calls of a program -/
inductive Call
  | header (bom dec : Bool)
  | open_ (name : Str) (compactMode : Bool)
  | attr (name value : Str)
  | text (cdata : Bool) (value : Str)
  | comment (value : Str)
  | decl (value : Str)
  | unknown (value : Str)
  | close (compactMode : Bool)
  deriving DecidableEq

namespace Printer

/-- `PushHeader` — tinyxml2.cpp:2502-2511 -/
def pushHeader (s : Printer) (bom dec : Bool) : Printer :=
  let s : Printer := if bom then s.put [0xEF, 0xBB, 0xBF] else s
  if dec then s.pushDeclaration (lit "xml version=\"1.0\"") else s

/-- `OpenElement` — tinyxml2.cpp:2514-2532 -/
def openAs (s : Printer) (name : Str) (compactMode : Bool) : Printer :=
  let s : Printer := s.sealed
  let s : Printer := { s with stack := name :: s.stack }
  let s : Printer := if s.textDepth < 0 ∧ ¬ s.first ∧ ¬ compactMode then s.put (lit "\n") else s
  let s : Printer := if ¬ compactMode then s.printSpace else s
  let s : Printer := (s.put (lit "<")).put name
  { s with justOpened := true, first := false, depth := s.depth + 1 }

/-- `CloseElement` — tinyxml2.cpp:2586-2611 -/
def closeAs (s : Printer) (compactMode : Bool) : Out Printer :=
  match s.stack with
  | [] => .ub .oob
  | name :: rest =>
    let s : Printer := { s with depth := s.depth - 1, stack := rest }
    let s :=
      if s.justOpened then s.put (lit "/>")
      else
        let s : Printer := if s.textDepth < 0 ∧ ¬ compactMode then (s.put (lit "\n")).printSpace else s
        s.put (lit "</" ++ name ++ lit ">")
    let s : Printer := if s.textDepth = s.depth then { s with textDepth := -1 } else s
    let s : Printer := if s.depth = 0 ∧ ¬ compactMode then s.put (lit "\n") else s
    .ok { s with justOpened := false }

/-- one call -/
def call (s : Printer) : Call → Out Printer
  | .header b d => .ok (s.pushHeader b d)
  | .open_ n c => .ok (s.openAs n c)
  | .attr n v => .ok (s.pushAttribute (n, v))
  | .text c v => .ok (s.pushText c v)
  | .comment v => .ok (s.pushComment v)
  | .decl v => .ok (s.pushDeclaration v)
  | .unknown v => .ok (s.pushUnknown v)
  | .close c => s.closeAs c

/-- the calls of a program, one after the other -/
def calls : List Call → Printer → Out Printer
  | [], s => .ok s
  | c :: l, s => do
    let s ← s.call c
    calls l s

end Printer

/-! ## Memory -/

/-- members of an `XMLPrinter` without a file — tinyxml2.h:2238-2258 -/
structure MemPrinter where
  buf : Dyn.DA Byte
  justOpened : Bool
  stack : List Str
  first : Bool
  depth : Int
  textDepth : Int
  compact : Bool

namespace MemPrinter
open Dyn

/-- statements of its member functions -/
abbrev P (α : Type) := M MemPrinter α

/-- `if ( c ) m` -/
def onlyIf (c : Prop) [Decidable c] (m : P Unit) : P Unit := if c then m else pure ()

/-- a call of `_buffer` -/
def onBuf {α : Type} (m : M (DA Byte) α) : P α := fun s =>
  match m s.buf with
  | .ok a b => .ok a { s with buf := b }
  | .err e b => .err e { s with buf := b }
  | .ub u => .ub u

/-- `memcpy( p, data, size )` -/
def stores (p : Int) : Str → M (DA Byte) Unit
  | [] => pure ()
  | b :: l => do
    store p b
    stores (p + 1) l

/-- `Write( data, size )` — tinyxml2.cpp:2415-2425 -/
def write (room : Nat → Bool) (data : Str) : P Unit := onBuf do
  let r ← PushArr room (toI32 data.length)
  stores (r - 1) data
  store (r - 1 + data.length) 0

/-- `Putc( ch )` — tinyxml2.cpp:2428-2438 -/
def putc (room : Nat → Bool) (ch : Byte) : P Unit := onBuf do
  let r ← PushArr room 1
  store (r - 1) ch
  store (r - 1 + 1) 0

/-- the loop of `PrintSpace( depth )` — tinyxml2.cpp:2441-2446 -/
def spaces (room : Nat → Bool) : Nat → P Unit
  | 0 => pure ()
  | n + 1 => do
    write room (lit "    ")
    spaces room n

def printSpace (room : Nat → Bool) : P Unit := do
  let s ← M.get
  spaces room s.depth.toNat

/-- the loop that writes what stands before an entity, `INT_MAX` bytes at a time — tinyxml2.cpp:2465-2470; `n` is a bound of its rounds -/
def flush (room : Nat → Bool) : Nat → Str → P Unit
  | 0, _ => pure ()
  | n + 1, run =>
    if run = [] then pure ()
    else do
      write room (run.take 2147483647)
      flush room n (run.drop 2147483647)

/-- `PrintString` — tinyxml2.cpp:2449-2499; `run` are the bytes from `p` to `q` -/
def printString (room : Nat → Bool) (restricted : Bool) : (run : Str) → Str → P Unit
  | run, [] => if run = [] then pure () else write room (run.take 2147483647)
  | run, b :: l =>
    match Printer.entityOf restricted b with
    | some e => do
      flush room run.length run
      putc room 38
      write room e
      putc room 59
      printString room restricted [] l
    | none => printString room restricted (run ++ [b]) l

/-- `SealElementIfJustOpened` — tinyxml2.cpp:2614-2621 -/
def sealIt (room : Nat → Bool) : P Unit := do
  let s ← M.get
  onlyIf s.justOpened do
    M.modify fun s => { s with justOpened := false }
    putc room 62

/-- the white space before a comment, a declaration or an unknown node — tinyxml2.cpp:2689-2693, 2704-2708, 2719-2723 -/
def newLine (room : Nat → Bool) : P Unit := do
  let s ← M.get
  onlyIf (s.textDepth < 0 ∧ ¬ s.first ∧ ¬ s.compact) do
    putc room 10
    printSpace room
  M.modify fun s => { s with first := false }

/-- `PushComment` — tinyxml2.cpp:2686-2698 -/
def pushComment (room : Nat → Bool) (v : Str) : P Unit := do
  sealIt room
  newLine room
  write room (lit "<!--")
  write room v
  write room (lit "-->")

/-- `PushDeclaration` — tinyxml2.cpp:2701-2713 -/
def pushDeclaration (room : Nat → Bool) (v : Str) : P Unit := do
  sealIt room
  newLine room
  write room (lit "<?")
  write room v
  write room (lit "?>")

/-- `PushUnknown` — tinyxml2.cpp:2716-2728 -/
def pushUnknown (room : Nat → Bool) (v : Str) : P Unit := do
  sealIt room
  newLine room
  write room (lit "<!")
  write room v
  putc room 62

/-- `PushHeader` — tinyxml2.cpp:2502-2511 -/
def pushHeader (room : Nat → Bool) (bom dec : Bool) : P Unit := do
  onlyIf bom (write room [0xEF, 0xBB, 0xBF])
  onlyIf dec (pushDeclaration room (lit "xml version=\"1.0\""))

/-- `PushAttribute` — tinyxml2.cpp:2535-2543 -/
def pushAttribute (room : Nat → Bool) (n v : Str) : P Unit := do
  putc room 32
  write room n
  write room (lit "=\"")
  printString room false [] v
  putc room 34

/-- `PushText` — tinyxml2.cpp:2624-2637 -/
def pushText (room : Nat → Bool) (cdata : Bool) (v : Str) : P Unit := do
  let s ← M.get
  let d ← (i32 (s.depth - 1) : Out Int)
  M.modify fun s => { s with textDepth := d }
  sealIt room
  if cdata then do
    write room (lit "<![CDATA[")
    write room v
    write room (lit "]]>")
  else printString room true [] v

/-- `OpenElement` — tinyxml2.cpp:2514-2532 -/
def openElement (room : Nat → Bool) (name : Str) (compactMode : Bool) : P Unit := do
  sealIt room
  M.modify fun s => { s with stack := name :: s.stack }
  let s ← M.get
  onlyIf (s.textDepth < 0 ∧ ¬ s.first ∧ ¬ compactMode) (putc room 10)
  onlyIf (¬ compactMode) (printSpace room)
  write room (lit "<")
  write room name
  let s ← M.get
  let d ← (i32 (s.depth + 1) : Out Int)
  M.modify fun s => { s with justOpened := true, first := false, depth := d }

/-- `CloseElement` — tinyxml2.cpp:2586-2611.  With an empty stack `_stack.Pop()` reads outside of the array. -/
def closeElement (room : Nat → Bool) (compactMode : Bool) : P Unit := do
  let s ← M.get
  let d ← (i32 (s.depth - 1) : Out Int)
  match s.stack with
  | [] => M.undef .oob
  | name :: rest => do
    M.modify fun s => { s with depth := d, stack := rest }
    onlyIf s.justOpened (write room (lit "/>"))
    onlyIf (¬ s.justOpened) do
      onlyIf (s.textDepth < 0 ∧ ¬ compactMode) do
        putc room 10
        printSpace room
      write room (lit "</")
      write room name
      write room (lit ">")
    M.modify fun s => if s.textDepth = s.depth then { s with textDepth := -1 } else s
    let s ← M.get
    onlyIf (s.depth = 0 ∧ ¬ compactMode) (putc room 10)
    M.modify fun s => { s with justOpened := false }

/-- the constructor without a file — tinyxml2.cpp:2365-2390 -/
def new (room : Nat → Bool) (compact : Bool) : Res (DA Byte) MemPrinter :=
  match Push room 0 (make 20) with
  | .ok () b => .ok ⟨b, false, [], true, 0, -1, compact⟩ b
  | .err e b => .err e b
  | .ub u => .ub u

/-- one call -/
def call (room : Nat → Bool) : Call → P Unit
  | .header b d => pushHeader room b d
  | .open_ n c => openElement room n c
  | .attr n v => pushAttribute room n v
  | .text c v => pushText room c v
  | .comment v => pushComment room v
  | .decl v => pushDeclaration room v
  | .unknown v => pushUnknown room v
  | .close c => closeElement room c

/-- the calls of a program, one after the other -/
def calls (room : Nat → Bool) : List Call → P Unit
  | [] => pure ()
  | c :: l => do
    call room c
    calls room l

/-- `CStrSize` — tinyxml2.h:2212-2214 -/
def cStrSize : P Int := onBuf Size

/-- the byte `CStr()[i]` — tinyxml2.h:2204-2206 -/
def cStr (i : Nat) : P Byte := onBuf (load i)

/-- `ClearBuffer` — tinyxml2.h:2219-2223 -/
def clearBuffer (room : Nat → Bool) : P Unit := do
  onBuf Clear
  onBuf (Push room 0)
  M.modify fun s => { s with first := true }

end MemPrinter
end Verif.Xml
