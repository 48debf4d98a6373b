import Verif.Spec.Index
/-!
# Specification vocabulary: loops

"Do this for every element of the list, in order" and "the list contains exactly the
points with this property, in this order, each once".
-/
namespace Verif.Spec

/-- Run a statement for every element of a list, in order.  An exception or undefined
behaviour ends the run. -/
def runAll {σ α : Type} (fn : α → M σ Unit) : List α → M σ Unit
  | [] => pure ()
  | a :: l => do fn a; runAll fn l

/-- Thread a value through a list, in order. -/
def foldAll {σ α T : Type} (fn : T → α → M σ T) : T → List α → M σ T
  | t, [] => pure t
  | t, a :: l => do let t' ← fn t a; foldAll fn t' l

/-- lexicographic order on pairs -/
def lexLt {α β : Type} (lt : α → α → Prop) (lt' : β → β → Prop) (p q : α × β) : Prop :=
  lt p.1 q.1 ∨ (p.1 = q.1 ∧ lt' p.2 q.2)

/-- `l` lists exactly the elements with property `P`, in strictly increasing order (so
each of them once). -/
def Enumerates {α : Type} (l : List α) (P : α → Prop) (lt : α → α → Prop) : Prop :=
  (∀ p, p ∈ l ↔ P p) ∧ l.Pairwise lt

/-- strict order of indices -/
def intLt (a b : Int) : Prop := a < b
/-- strict order of component numbers -/
def natLt (a b : Nat) : Prop := a < b
/-- lexicographic order of 2D points -/
def ltII : Int × Int → Int × Int → Prop := lexLt intLt intLt
/-- lexicographic order of 3D points -/
def ltIII : Int × Int × Int → Int × Int × Int → Prop := lexLt intLt (lexLt intLt intLt)

/-- What a reduction over a list of points is: copy the variable, thread the copy through the
reducer in list order, then reduce the copy into the variable; the variable is written once,
at the end. -/
def reduceSpec {σ α T : Type} (l : List α) (ans : Ref σ T) (reduce : T → T → M σ T) (fn : α → M σ T) : M σ Unit := do
  let t ← ans.read
  let temp ← foldAll (fun t p => do let x ← fn p; reduce x t) t l
  let a ← ans.read
  let a ← reduce temp a
  ans.write a

/-- a computation that does not write the variable -/
def Leaves {σ α T : Type} (ans : Ref σ T) (m : M σ α) : Prop :=
  ∀ s, (∀ a s', m s = .ok a s' → ans.get s' = ans.get s) ∧ (∀ e s', m s = .err e s' → ans.get s' = ans.get s)

/-- a function that reads the state but does not change it and does not throw -/
def reads {σ α T : Type} (f : σ → α → T) (p : α) : M σ T := fun s => .ok (f s p) s

/-- a reducer that only computes -/
def computes {σ T : Type} (R : T → T → T) (x t : T) : M σ T := pure (R x t)

end Verif.Spec

namespace Verif
open Spec

/-- begin and size of one axis of a 2D range -/
def D2.RangeT.axis (r : D2.RangeT) : Nat → Int × Int
  | 0 => (r.b0, r.s0)
  | _ => (r.b1, r.s1)
/-- begin and size of one axis of a 3D range -/
def D3.RangeT.axis (r : D3.RangeT) : Nat → Int × Int
  | 0 => (r.b0, r.s0)
  | 1 => (r.b1, r.s1)
  | _ => (r.b2, r.s2)
/-- `x` is an index of axis `d` of the range -/
def D2.RangeT.OnAxis (r : D2.RangeT) (d : Nat) (x : Int) : Prop := Seg (r.axis d).1 (r.axis d).2 x
/-- `x` is an index of axis `d` of the range -/
def D3.RangeT.OnAxis (r : D3.RangeT) (d : Nat) (x : Int) : Prop := Seg (r.axis d).1 (r.axis d).2 x

/-- no dimension has a negative size -/
def D1.RangeT.NonNeg (r : D1.RangeT) : Prop := 0 ≤ r.s
/-- no dimension has a negative size -/
def D2.RangeT.NonNeg (r : D2.RangeT) : Prop := 0 ≤ r.s0 ∧ 0 ≤ r.s1
/-- no dimension has a negative size -/
def D3.RangeT.NonNeg (r : D3.RangeT) : Prop := 0 ≤ r.s0 ∧ 0 ≤ r.s1 ∧ 0 ≤ r.s2

end Verif
