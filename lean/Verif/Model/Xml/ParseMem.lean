import Verif.Model.Xml.Tiny
/-!
# Reading a document from memory — tinyxml2.cpp:2256-2284

The pointer is null or points into an array of characters: the bytes from there to the end of the array.  Of the document only the result of the reading
is modelled; its former content is deleted before (`Clear`), and the buffer is its own.
-/
namespace Verif.Xml
open Tec

/-- `(size_t)(-1)`, the default of the length — tinyxml2.h:1669 -/
def sizeMax : Nat := 2 ^ 64 - 1

/-- `strlen`; without a null byte it leaves the array -/
def strlen : Str → Out Nat
  | [] => .ub .oob
  | b :: l => if b = 0 then .ok 0 else do
    let n ← strlen l
    .ok (n + 1)

/-- `XMLDocument::Parse(p, len)` — tinyxml2.cpp:2256-2284 -/
def parseMem (p : Option Str) (len : Nat) : Out (Except Code (List Node)) :=
  if len = 0 then .ok (.error .emptyDocument)
  else
    match p with
    | none => .ok (.error .emptyDocument)
    | some [] => .ub .oob
    | some (b :: l) =>
      if b = 0 then .ok (.error .emptyDocument)
      else do
        let len ← if len = sizeMax then strlen (b :: l) else .ok len
        if (b :: l).length < len then .ub .oob
        else .ok (parse ((b :: l).take len))

end Verif.Xml
