import Verif.Model.Xml.InPlace
/-!
# Names and values of a tree that stands in a buffer
-/
namespace Verif.Xml.InPlace
open Tec

mutual
/-- a tree with other things in the places of its names and values -/
def Tree.map {α β : Type} (f : α → β) : Tree α → Tree β
  | .elem n as cs => .elem (f n) (as.map fun a => (f a.1, f a.2)) (mapAll f cs)
  | .text c v => .text c (f v)
  | .comment v => .comment (f v)
  | .decl v => .decl (f v)
  | .unknown v => .unknown (f v)
def mapAll {α β : Type} (f : α → β) : List (Tree α) → List (Tree β)
  | [] => []
  | t :: ts => t.map f :: mapAll f ts
end

mutual
/-- what is in the places of the names and values, in the order of the text -/
def Tree.flat {α : Type} : Tree α → List α
  | .elem n as cs => n :: (as.flatMap (fun a => [a.1, a.2]) ++ flatAll cs)
  | .text _ v => [v]
  | .comment v => [v]
  | .decl v => [v]
  | .unknown v => [v]
def flatAll {α : Type} : List (Tree α) → List α
  | [] => []
  | t :: ts => t.flat ++ flatAll ts
end

mutual
/-- the tree whose names and values are these texts -/
def Tree.node : Tree Str → Node
  | .elem n as cs => .elem n as (nodeAll cs)
  | .text c v => .text c v
  | .comment v => .comment v
  | .decl v => .decl v
  | .unknown v => .unknown v
def nodeAll : List (Tree Str) → List Node
  | [] => []
  | t :: ts => t.node :: nodeAll ts
end

/-- asking for one of the names and values after another: the number of the one to ask for, the answers -/
def asks : List StrPair → List Nat → B (List StrPair × List Str)
  | ps, [] => pure (ps, [])
  | ps, k :: ks =>
    match ps[k]? with
    | none => M.undef .null
    | some s => do
      let (s, v) ← ask s
      let (ps, vs) ← asks (ps.set k s) ks
      pure (ps, v :: vs)

end Verif.Xml.InPlace
