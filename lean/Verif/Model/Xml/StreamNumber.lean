import Verif.Model.Xml.Stream
import Verif.Model.Xml.Number
/-!
# `XMLPrinter` with numbers — tinyxml2.cpp:2546-2583, 2639-2684

The overloads of `PushAttribute` and `PushText` for numbers convert the number to a text and call the overloads for texts.
-/
namespace Verif.Xml
open Tec

/-- the calls of a program, also those with numbers -/
inductive NumCall
  | call (c : Call)
  | attr (name : Str) (v : Scalar)
  | text (v : Scalar)
  /-- `PushText( float )` of the number with these bits -/
  | textFloat (n : Nat)

/-- `PushAttribute`, `PushText` of numbers — tinyxml2.cpp:2546-2583, 2639-2684 -/
def NumCall.plain (w : Words) : NumCall → Call
  | .call c => c
  | .attr n v => .attr n (v.text w)
  | .text v => .text false (v.text w)
  | .textFloat n => .text false (floatText n)

/-- the calls of a program, one after the other -/
def Printer.numCalls (w : Words) : List NumCall → Printer → Out Printer
  | [], s => .ok s
  | c :: l, s => do
    let s ← s.call (c.plain w)
    numCalls w l s

end Verif.Xml
