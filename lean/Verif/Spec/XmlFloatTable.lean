import Verif.Spec.XmlStreamNumber
import Verif.Spec.XmlFloat
/-!
# Programs that print a table of `float`
-/
namespace Verif.Xml
open Spec Tec

/-- a program that prints a document of elements with a `float` as their text each; the names and the bits of the numbers -/
def floatTable (c bom : Bool) (root : Str) (rows : List (Str × Nat)) : List NumCall :=
  .call (.header bom false) :: .call (.open_ root c) :: rows.flatMap (fun r => [.call (.open_ r.1 c), .textFloat r.2, .call (.close c)]) ++ [.call (.close c)]

end Verif.Xml
