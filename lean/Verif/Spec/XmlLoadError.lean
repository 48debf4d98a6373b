import Verif.Spec.XmlLines
import Verif.Spec.XmlErrText
/-!
# What a document says about the error of reading a file
-/
namespace Verif.Xml.ErrText
open Tec Lines

/-- the name of an error of the reader -/
def nameOf : Code → String
  | .noAttribute => "XML_NO_ATTRIBUTE"
  | .wrongAttributeType => "XML_WRONG_ATTRIBUTE_TYPE"
  | .fileNotFound => "XML_ERROR_FILE_NOT_FOUND"
  | .fileCouldNotBeOpened => "XML_ERROR_FILE_COULD_NOT_BE_OPENED"
  | .fileReadError => "XML_ERROR_FILE_READ_ERROR"
  | .parsingElement => "XML_ERROR_PARSING_ELEMENT"
  | .parsingAttribute => "XML_ERROR_PARSING_ATTRIBUTE"
  | .parsingText => "XML_ERROR_PARSING_TEXT"
  | .parsingCdata => "XML_ERROR_PARSING_CDATA"
  | .parsingComment => "XML_ERROR_PARSING_COMMENT"
  | .parsingDeclaration => "XML_ERROR_PARSING_DECLARATION"
  | .parsingUnknown => "XML_ERROR_PARSING_UNKNOWN"
  | .emptyDocument => "XML_ERROR_EMPTY_DOCUMENT"
  | .mismatchedElement => "XML_ERROR_MISMATCHED_ELEMENT"
  | .parsing => "XML_ERROR_PARSING"

/-- the line of an error and what is to be told about it: the name of a file that cannot be opened, nothing about an empty file, and
otherwise the line of what is blamed, and its name -/
def About (filename : Str) (content : Option Str) (e : Code) (line : Int) (told : Option Str) : Prop :=
  match content with
  | none => e = .fileNotFound ∧ line = 0 ∧ told = some (lit "filename=" ++ filename)
  | some c => e = .emptyDocument ∧ line = 0 ∧ told = none ∨
      ∃ o : Nat, line = (lineAt (cstr c) o : Int) ∧ Blames ((cstr c).drop o) e ∧ Tells (cstr c) o e told

/-- the text of an error: empty if there is nothing to tell; otherwise the name and the number of the error, the line, and what is to be told
— all of it, if it has at most 915 bytes -/
def Text (t name : Str) (id : Nat) (line : Int) : Option Str → Prop
  | none => t = []
  | some m => ∃ r, Says t name id line r ∧ r <+: m ∧ (m.length ≤ 915 → r = m)

end Verif.Xml.ErrText
