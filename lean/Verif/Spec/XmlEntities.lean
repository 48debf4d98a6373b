import Verif.Model.Xml.Entities
import Verif.Spec.XmlDoc
/-!
# Specification: the values of attributes and texts
-/
namespace Verif.Xml
open Tec Spec

mutual
/-- `f` of the values of the attributes and of the texts; CDATA sections, names, comments ... stay -/
def Node.texts (f : Str → Str) : Node → Node
  | .elem n as cs => .elem n (as.map fun a => (a.1, f a.2)) (textsAll f cs)
  | .text c v => .text c (if c then v else f v)
  | x => x
def textsAll (f : Str → Str) : List Node → List Node
  | [] => []
  | x :: l => x.texts f :: textsAll f l
end

end Verif.Xml
