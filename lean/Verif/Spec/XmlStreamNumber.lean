import Verif.Model.Xml.StreamNumber
import Verif.Spec.XmlDoc
import Verif.Spec.XmlNumber
/-!
# Programs that print a table of numbers
-/
namespace Verif.Xml
open Spec Tec

/-- an element with numbers as attributes and a number as its text -/
structure Row where
  name : Str
  attrs : List (Str × Scalar)
  value : Scalar

/-- a program that prints an element -/
def Row.calls (c : Bool) (r : Row) : List NumCall :=
  .call (.open_ r.name c) :: r.attrs.map (fun a => .attr a.1 a.2) ++ [.text r.value, .call (.close c)]

/-- a program that prints a document of such elements -/
def tableCalls (c bom : Bool) (root : Str) (rows : List Row) : List NumCall :=
  .call (.header bom false) :: .call (.open_ root c) :: rows.flatMap (Row.calls c) ++ [.call (.close c)]

/-- the names are names, the numbers fit their types -/
structure Row.Good (r : Row) : Prop where
  name : IsName r.name
  attrs : ∀ a ∈ r.attrs, IsName a.1 ∧ Fits a.2
  distinct : (r.attrs.map (·.1)).Nodup
  value : Fits r.value

end Verif.Xml
