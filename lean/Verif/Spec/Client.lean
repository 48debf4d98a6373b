import Verif.Model.Client
import Verif.Spec.Fill
/-!
# Specification vocabulary: what a loop of a user program computes

Arrays are functions from stored points to numbers; there is no memory, no pointer, no machine
integer.  `none` is a number never assigned.
-/
namespace Verif.Spec
variable {V : Type}

/-- an element: array, component, stored point -/
abbrev Cell := Nat × Nat × List Int

/-- the numbers in the arrays -/
abbrev Vals (V : Type) := Cell → Option V

/-- the sizes of the arrays -/
abbrev Exts := Nat → List Ext

/-- the index an index argument denotes at the loop indices `xs` -/
def idxVal (E : Exts) (xs : List Int) : Idx → Int
  | .plus d s => xs.getD d 0 + s
  | .src y how d fl j => srcIdx how ((E y).getD d ⟨0, 0, 0⟩) fl (xs.getD j 0)

/-- the element `y(n, is..., fs...)` denotes -/
def cellAt (E : Exts) (xs : List Int) (y n : Nat) (is : List Idx) (fs : List FL) : Cell :=
  (y, n, point (is.map (idxVal E xs)) fs)

/-- the elements an expression reads -/
def readsOf (E : Exts) (xs : List Int) : Expr V → List Cell
  | .num _ => []
  | .conv _ _ => []
  | .elem y n is fs => [cellAt E xs y n is fs]
  | .un _ a => readsOf E xs a
  | .bin _ a b => readsOf E xs a ++ readsOf E xs b

/-- the number an expression denotes -/
def valueOf (E : Exts) (xs : List Int) (σ : Vals V) : Expr V → Option V
  | .num v => some v
  | .conv d f => some (f (xs.getD d 0))
  | .elem y n is fs => σ (cellAt E xs y n is fs)
  | .un f a => (valueOf E xs σ a).map f
  | .bin f a b =>
    match valueOf E xs σ a, valueOf E xs σ b with
    | some v, some w => some (f v w)
    | _, _ => none

/-- the element an assignment sets -/
def targetOf (E : Exts) (xs : List Int) (a : Assign V) : Cell := cellAt E xs a.x a.n a.is a.fs

/-- the elements the body sets, and all it uses, at the loop indices `xs` -/
def writesAt (E : Exts) (body : List (Assign V)) (xs : List Int) : List Cell := body.map (targetOf E xs)
def usesAt (E : Exts) (body : List (Assign V)) (xs : List Int) : List Cell :=
  body.flatMap fun a => targetOf E xs a :: readsOf E xs a.rhs

open Classical in
/-- the numbers after an element has been set -/
noncomputable def setCell (σ : Vals V) (c : Cell) (v : V) : Vals V := fun d => if d = c then some v else σ d

/-- the numbers after the body has run once, at the loop indices `xs`; `none` if it reads a number never assigned -/
noncomputable def bodyAt (E : Exts) (xs : List Int) : List (Assign V) → Vals V → Option (Vals V)
  | [], σ => some σ
  | a :: rest, σ =>
    match valueOf E xs σ a.rhs with
    | some v => bodyAt E xs rest (setCell σ (targetOf E xs a) v)
    | none => none

/-- an index argument that is defined: the loop has the index; a source is asked for a virtual point of the side
named, with fewer virtual points than interior ones there, and for a mirror source twice the points fit `int` -/
def IdxOk (E : Exts) (xs : List Int) : Idx → Prop
  | .plus d _ => d < xs.length
  | .src y how d fl j => ∃ e, (E y)[d]? = some e ∧ j < xs.length ∧ InTag e.n e.i e.p (sideTag fl) (xs.getD j 0) ∧
      sideCount e fl < e.i ∧ (how = .mirror → 2 * (e.n + e.i + e.p) < 2147483648)

/-- `y(n, is..., fs...)` is a valid access to an allocated array -/
def AccessOk (aw : AWorld V) (E : Exts) (xs : List Int) (y n : Nat) (is : List Idx) (fs : List FL) : Prop :=
  (∃ k es val, aw.arr y = some (k, .ready es val) ∧ Valid k es n (is.map (idxVal E xs)) fs) ∧ ∀ i ∈ is, IdxOk E xs i

/-- all accesses of an expression are valid -/
def ExprOk (aw : AWorld V) (E : Exts) (xs : List Int) : Expr V → Prop
  | .num _ => True
  | .conv d _ => d < xs.length
  | .elem y n is fs => AccessOk aw E xs y n is fs
  | .un _ a => ExprOk aw E xs a
  | .bin _ a b => ExprOk aw E xs a ∧ ExprOk aw E xs b

/-- all accesses of a body are valid -/
def BodyOk (aw : AWorld V) (E : Exts) (body : List (Assign V)) (xs : List Int) : Prop :=
  ∀ a ∈ body, ExprOk aw E xs a.rhs ∧ AccessOk aw E xs a.x a.n a.is a.fs

/-- no iteration sets an element another iteration uses -/
def Independent (E : Exts) (body : List (Assign V)) (P : List Int → Prop) : Prop :=
  ∀ xs ys, P xs → P ys → xs ≠ ys → ∀ c ∈ writesAt E body ys, c ∉ usesAt E body xs

/-- the sizes of the allocated arrays -/
def extsOf (aw : AWorld V) : Exts := fun y =>
  match aw.arr y with
  | some (_, .ready es _) => es
  | _ => []

/-- the numbers in the allocated arrays -/
def valsOf (aw : AWorld V) : Vals V := fun c =>
  match aw.arr c.1 with
  | some (_, .ready _ val) => val c.2.1 c.2.2
  | _ => none

/-- the same arrays with other numbers in them -/
def withVals (aw : AWorld V) (σ : Vals V) : AWorld V :=
  { aw with arr := fun y =>
    match aw.arr y with
    | some (k, .ready es _) => some (k, .ready es fun n ys => σ (y, n, ys))
    | a => a }

end Verif.Spec
