import Verif.Model.Xml.Number
/-!
# Error texts — tinyxml2.cpp:1969-1990, 2301-2347, tinyxml2.h:510-533, 1793-1823

`XMLDocument::SetError` writes the text of an error into an array of 1000 characters from the free store, in two parts: the head with the
name of the error and the line number, and, behind it, what the caller has to say.

Simplifications.
* The caller's text arrives formatted: `"XMLElement name=%s"` with its argument is one list of bytes without a null.
* `TIXMLASSERT` does nothing.  The memory never runs out.
* A character that was never written is `none`; reading one is undefined.
-/
namespace Verif.Xml.ErrText
open Tec

/-- `_errorNames` — tinyxml2.cpp:1969-1990 -/
def errorNames : List Str :=
  [lit "XML_SUCCESS", lit "XML_NO_ATTRIBUTE", lit "XML_WRONG_ATTRIBUTE_TYPE", lit "XML_ERROR_FILE_NOT_FOUND",
   lit "XML_ERROR_FILE_COULD_NOT_BE_OPENED", lit "XML_ERROR_FILE_READ_ERROR", lit "UNUSED_XML_ERROR_ELEMENT_MISMATCH",
   lit "XML_ERROR_PARSING_ELEMENT", lit "XML_ERROR_PARSING_ATTRIBUTE", lit "UNUSED_XML_ERROR_IDENTIFYING_TAG",
   lit "XML_ERROR_PARSING_TEXT", lit "XML_ERROR_PARSING_CDATA", lit "XML_ERROR_PARSING_COMMENT", lit "XML_ERROR_PARSING_DECLARATION",
   lit "XML_ERROR_PARSING_UNKNOWN", lit "XML_ERROR_EMPTY_DOCUMENT", lit "XML_ERROR_MISMATCHED_ELEMENT", lit "XML_ERROR_PARSING",
   lit "XML_CAN_NOT_CONVERT_TEXT", lit "XML_NO_TEXT_NODE"]

/-- `ErrorIDToName` — tinyxml2.cpp:2325-2331 -/
def errorIDToName (e : Nat) : Out Str :=
  match errorNames[e]? with
  | some n => .ok n
  | none => .ub .oob

/-- a digit of `%x` -/
def hexDigit (d : Nat) : Byte := if d < 10 then UInt8.ofNat (48 + d) else UInt8.ofNat (87 + d)

/-- `%x` of a number below 256 -/
def hex (n : Nat) : Str := if n < 16 then [hexDigit n] else [hexDigit (n / 16), hexDigit (n % 16)]

/-- an array of `char` -/
abbrev Chars := List (Option Byte)

/-- characters one after the other -/
def store : Chars → Nat → Str → Out Chars
  | a, _, [] => .ok a
  | a, i, b :: l => if i < a.length then store (a.set i (some b)) (i + 1) l else .ub .oob

/-- `snprintf( a + i, n, … )`: at most `n` characters, the last one a null — tinyxml2.cpp:44-60, 92-93 -/
def snprintfAt (a : Chars) (i n : Nat) (t : Str) : Out Chars := if n = 0 then .ok a else store a i (t.take (n - 1) ++ [0])

/-- the C string at the beginning of an array, as `strlen` and `SetStr` read it -/
def cstrOf : Chars → Out Str
  | [] => .ub .oob
  | none :: _ => .ub .uninit
  | some b :: a =>
    if b = 0 then .ok []
    else do
      let t ← cstrOf a
      .ok (b :: t)

/-- `_errorID`, `_errorLineNum`, `_errorStr` — tinyxml2.h:1856-1859 -/
structure Trouble where
  id : Nat
  line : Int
  str : Option Str
  deriving DecidableEq

/-- `BUFFER_SIZE` — tinyxml2.cpp:2309 -/
def bufferSize : Nat := 1000

/-- `SetError` — tinyxml2.cpp:2301-2322 -/
def setError (e : Nat) (line : Int) (format : Option Str) : Out Trouble :=
  match format with
  | none => .ok ⟨e, line, none⟩
  | some m => do
    let a : Chars := List.replicate bufferSize none
    let name ← errorIDToName e
    let a ← snprintfAt a 0 bufferSize (lit "Error=" ++ name ++ lit " ErrorID=" ++ dec e ++ lit " (0x" ++ hex e ++ lit ") Line number=" ++ dec line ++ lit ": ")
    let t ← cstrOf a
    let a ← snprintfAt a t.length (bufferSize - t.length) m
    let t ← cstrOf a
    .ok ⟨e, line, some t⟩

/-- `ErrorStr` — tinyxml2.cpp:2333-2336 -/
def Trouble.errorStr (s : Trouble) : Str := s.str.getD []

/-- `ErrorName` — tinyxml2.cpp:2344-2347 -/
def Trouble.errorName (s : Trouble) : Out Str := errorIDToName s.id

/-- `ClearError` — tinyxml2.h:1796-1798 -/
def clearError : Out Trouble := setError 0 0 none

end Verif.Xml.ErrText
