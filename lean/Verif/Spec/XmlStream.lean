import Verif.Model.Xml.Stream
/-!
# Calls of a printer and the trees they describe
-/
namespace Verif.Xml
open Tec

mutual
/-- the calls that describe a node -/
def Node.calls (c : Bool) : Node → List Call
  | .elem n as cs => .open_ n c :: as.map (fun a => .attr a.1 a.2) ++ callsAll c cs ++ [.close c]
  | .text cd v => [.text cd v]
  | .comment v => [.comment v]
  | .decl v => [.decl v]
  | .unknown v => [.unknown v]
/-- the calls that describe nodes, one after the other -/
def callsAll (c : Bool) : List Node → List Call
  | [] => []
  | x :: l => x.calls c ++ callsAll c l
end

/-- Every element that is opened is closed, nothing else is closed, and attributes are given only directly behind the opening of their
element.  `k`: open elements; `fresh`: an attribute may follow.  All calls have the same `compactMode`. -/
def Legal (c : Bool) : (k : Nat) → (fresh : Bool) → List Call → Prop
  | k, _, [] => k = 0
  | k, fresh, .attr _ _ :: l => fresh = true ∧ Legal c k true l
  | k, _, .open_ _ c' :: l => c' = c ∧ Legal c (k + 1) true l
  | 0, _, .close _ :: _ => False
  | k + 1, _, .close c' :: l => c' = c ∧ Legal c k false l
  | _, _, .header _ _ :: _ => False
  | k, _, .text _ _ :: l => Legal c k false l
  | k, _, .comment _ :: l => Legal c k false l
  | k, _, .decl _ :: l => Legal c k false l
  | k, _, .unknown _ :: l => Legal c k false l

/-- what a program can see of a text in memory: its size with the null, its bytes and the null -/
structure Holds (s : MemPrinter) (t : Str) : Prop where
  size : MemPrinter.cStrSize s = .ok ((t.length : Int) + 1) s
  bytes : ∀ i b, t[i]? = some b → MemPrinter.cStr i s = .ok b s
  null : MemPrinter.cStr t.length s = .ok 0 s

end Verif.Xml
