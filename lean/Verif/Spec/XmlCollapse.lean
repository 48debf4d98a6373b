import Verif.Model.Xml.Collapse
import Verif.Spec.XmlPlace
import Verif.Spec.Xml
/-!
# Texts with single spaces
-/
namespace Verif.Spec
open Tec

/-- the words of a text: what stands between white space -/
def words (s : Str) : List Str := (s.splitOnP fun b => decide (White b)).filter (· ≠ [])

/-- the words with one space between them -/
def collapse (s : Str) : Str := [32].intercalate (words s)

end Verif.Spec

namespace Verif.Xml.InPlace
open Tec Spec

mutual
/-- which of the names and values are texts of elements, in the order of `Tree.flat` -/
def Tree.marks {α : Type} : Tree α → List Bool
  | .elem _ as cs => false :: (as.flatMap (fun _ => [false, false]) ++ marksAll cs)
  | .text c _ => [!c]
  | .comment _ => [false]
  | .decl _ => [false]
  | .unknown _ => [false]
def marksAll {α : Type} : List (Tree α) → List Bool
  | [] => []
  | t :: ts => t.marks ++ marksAll ts
end

/-- asking for one of the names and values after another: the number of the one to ask for, the answers -/
def asksC : List (StrPair × Bool) → List Nat → B (List (StrPair × Bool) × List Str)
  | ps, [] => pure (ps, [])
  | ps, k :: ks =>
    match ps[k]? with
    | none => M.undef .null
    | some (s, c) => do
      let (s, v) ← askC c s
      let (ps, vs) ← asksC (ps.set k (s, c)) ks
      pure (ps, v :: vs)

end Verif.Xml.InPlace

namespace Verif.Xml
open Tec Spec

mutual
/-- the node with the white space of its texts collapsed; CDATA sections stay -/
def Node.collapsed : Node → Node
  | .elem n as cs => .elem n as (collapsedAll cs)
  | .text c v => .text c (if c then v else collapse v)
  | x => x
def collapsedAll : List Node → List Node
  | [] => []
  | x :: l => x.collapsed :: collapsedAll l
end

end Verif.Xml
