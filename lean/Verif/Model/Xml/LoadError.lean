import Verif.Model.Xml.Lines
import Verif.Model.Xml.ErrText
/-!
# The error of a document after reading and saving — tinyxml2.cpp:2033-2057, 2152-2162, 2184-2233, 2236-2256, 2349-2363

Simplifications.
* The name of the file is not a null pointer.
* Reading never fails in the middle of a file: `XML_ERROR_FILE_READ_ERROR` does not occur.
* The other simplifications of `Verif.Model.Xml.Lines` and `Verif.Model.Xml.ErrText`.
-/
namespace Verif.Xml.ErrText
open Tec Lines

/-- the error after `LoadFile( filename )`; the content is `none` if the file cannot be opened.  `Clear` begins with `ClearError`
(tinyxml2.cpp:2033-2043); the calls of `SetError` are at 2157, 2214 and in the reader (2349-2363). -/
def loadError (filename : Str) : Option Str → Out Trouble
  | none => setError Code.fileNotFound.num 0 (some (lit "filename=" ++ filename))
  | some [] => setError Code.emptyDocument.num 0 none
  | some c =>
    match parseL c with
    | .ok _ => clearError
    | .error (e, n, told) => setError e.num n told

/-- the error after `SaveFile( filename )`, whatever it was before; `opened`: the file could be opened — tinyxml2.cpp:2236-2256 -/
def saveError (filename : Str) (opened : Bool) : Out Trouble :=
  if opened then clearError else setError Code.fileCouldNotBeOpened.num 0 (some (lit "filename=" ++ filename))

end Verif.Xml.ErrText
