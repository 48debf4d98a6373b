import Verif.Model.Xml.Tiny
/-!
# How deep the elements of a document stand in each other
-/
namespace Verif.Xml.Stack
open Tec

mutual
/-- the number of elements in each other -/
def height : Node → Nat
  | .elem _ _ cs => heightAll cs + 1
  | _ => 0
def heightAll : List Node → Nat
  | [] => 0
  | x :: l => max (height x) (heightAll l)
end

mutual
/-- the number of elements in each other that have children -/
def inner : Node → Nat
  | .elem _ _ [] => 0
  | .elem _ _ (c :: cs) => innerAll (c :: cs) + 1
  | _ => 0
def innerAll : List Node → Nat
  | [] => 0
  | x :: l => max (inner x) (innerAll l)
end

/-- `<a>` that often, then `x` -/
def tower (n : Nat) : Str := (List.replicate n (lit "<a>")).flatten ++ lit "x"

/-- `<a>` that often, then `x` and as many `</a>` -/
def closedTower (n : Nat) : Str := tower n ++ (List.replicate n (lit "</a>")).flatten

mutual
/-- the number of nodes of any kind in each other -/
def levels : Node → Nat
  | .elem _ _ cs => levelsAll cs + 1
  | _ => 1
def levelsAll : List Node → Nat
  | [] => 0
  | x :: l => max (levels x) (levelsAll l)
end

end Verif.Xml.Stack
