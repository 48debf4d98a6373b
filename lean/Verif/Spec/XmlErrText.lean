import Verif.Model.Tec.Basic
/-!
# What the text of an error says
-/
namespace Verif.Xml.ErrText
open Tec

/-- the enumerators of `XMLError` in their order — tinyxml2.h:510-533 -/
def enumerators : List String :=
  ["XML_SUCCESS", "XML_NO_ATTRIBUTE", "XML_WRONG_ATTRIBUTE_TYPE", "XML_ERROR_FILE_NOT_FOUND", "XML_ERROR_FILE_COULD_NOT_BE_OPENED",
   "XML_ERROR_FILE_READ_ERROR", "UNUSED_XML_ERROR_ELEMENT_MISMATCH", "XML_ERROR_PARSING_ELEMENT", "XML_ERROR_PARSING_ATTRIBUTE",
   "UNUSED_XML_ERROR_IDENTIFYING_TAG", "XML_ERROR_PARSING_TEXT", "XML_ERROR_PARSING_CDATA", "XML_ERROR_PARSING_COMMENT",
   "XML_ERROR_PARSING_DECLARATION", "XML_ERROR_PARSING_UNKNOWN", "XML_ERROR_EMPTY_DOCUMENT", "XML_ERROR_MISMATCHED_ELEMENT",
   "XML_ERROR_PARSING", "XML_CAN_NOT_CONVERT_TEXT", "XML_NO_TEXT_NODE"]

/-- the error with this number is called so -/
def Named (e : Nat) (name : Str) : Prop := (enumerators.map lit)[e]? = some name

instance (e : Nat) (name : Str) : Decidable (Named e name) := by unfold Named; infer_instance

/-- two digits to the base of 16 -/
def sixteen : List Str := (["0", "1", "2", "3", "4", "5", "6", "7", "8", "9", "a", "b", "c", "d", "e", "f", "10", "11", "12", "13"] : List String).map lit

/-- The text begins with the name and the number (decimal and to the base of 16) of the error and the number of the line. -/
def Says (t name : Str) (id : Nat) (line : Int) (rest : Str) : Prop :=
  ∃ x, sixteen[id]? = some x ∧ t = lit "Error=" ++ (name ++ (lit " ErrorID=" ++ (dec id ++ (lit " (0x" ++ (x ++ (lit ") Line number=" ++ (dec line ++ (lit ": " ++ rest))))))))

end Verif.Xml.ErrText
