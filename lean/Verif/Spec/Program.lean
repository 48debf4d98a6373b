import Verif.Model.Program
import Verif.Spec.Machine
import Verif.Spec.Disp
/-!
# Specification: programs on the abstract machine

What a program does if arrays are what the user believes them to be (`Spec/Machine.lean`).  The machine knows neither memory nor the loop templates: a loop
goes through a list of points.
-/
namespace Verif.Spec
variable {V S : Type}

/-- the extents that `size()` speaks of -/
def extents (k : Kind) : AArr V → List Ext
  | .empty => k.locs.map fun _ => ⟨0, 0, 0⟩
  | .ready es _ => es
  | .broken es _ => es

/-- the dimension a question is about -/
def _root_.Verif.Query.dim : Query → Nat
  | .n d | .inn d | .p d | .first d _ | .stop d _ | .count d _ | .last d _ | .mirror d _ _ | .periodic d _ _ => d

/-- the answer; `none` if it is not an `int` -/
def answer (e : Ext) : Query → Option Int
  | .n _ => some e.n
  | .inn _ => some e.i
  | .p _ => some e.p
  | .first _ t => some (tagBegin e.n e.i t)
  | .stop _ t => some (tagEnd e.i e.p t)
  | .count _ t => some (tagEnd e.i e.p t - tagBegin e.n e.i t)
  | .last _ t => some (tagEnd e.i e.p t - 1)
  | .mirror _ fl i =>
    if InI32 (2 * sideBound e fl) ∧ InI32 (2 * sideBound e fl - i) then some (2 * sideBound e fl - i) else none
  | .periodic _ .N i => if InI32 (i + (e.i - 1)) then some (i + (e.i - 1)) else none
  | .periodic _ .P i => if InI32 (i - (e.i - 1)) then some (i - (e.i - 1)) else none

/-- the points of a box given by begin and size of every dimension, the last index running fastest -/
def gridPts : List (Int × Int) → List (List Int)
  | [] => [[]]
  | r :: R => (List.range r.2.toNat).flatMap fun (t : Nat) => (gridPts R).map fun xs => ((t : Int) + r.1) :: xs

/-- the ranges a loop uses: all of them, or those of the dimensions named -/
def _root_.Verif.Dom.zones (D : Dom) : List (Int × Int) :=
  match D.ax with
  | [] => D.R
  | ax => ax.map fun d => D.R.getD d (0, 0)

/-- what a loop goes through: components outside, points inside -/
def loopPts (D : Dom) : List (Nat × List Int) :=
  match D.N with
  | none => (gridPts D.zones).map fun xs => (0, xs)
  | some (b, e) => (List.range (e - b)).flatMap fun t => (gridPts D.zones).map fun xs => (t + b, xs)

/-- a loop inside the contract: up to three dimensions, components alone or with points, dimensions that exist (if they are named, fewer than there are),
ranges that are not negative and end inside `int` -/
def LoopOk (D : Dom) : Prop :=
  D.R.length ≤ 3 ∧ (D.N = none → D.R ≠ []) ∧ (∀ be ∈ D.N, be.1 ≤ be.2 ∧ be.2 < 4294967296) ∧
  (D.ax = [] ∨ D.ax.length < D.R.length ∧ ∀ d ∈ D.ax, d < D.R.length) ∧ ∀ r ∈ D.zones, 0 ≤ r.2 ∧ InI32 (r.1 + r.2)

instance (D : Dom) : Decidable (LoopOk D) := by unfold LoopOk; infer_instance

/-- what left the contract -/
inductive Why (V : Type)
  | call (op : Op V)
  | ask (x : Nat) (q : Query)
  | range (x : Nat) (ts : List RA)
  | disp (x : Nat)
  | loop (D : Dom)

/-- outcome of a program -/
inductive ARes (V S α : Type)
  | done (a : α) (w : AWorld V) (s : S)
  | throws (e : Err) (w : AWorld V) (s : S)
  /-- a number was used that was never assigned -/
  | uninit
  /-- the contract was left here -/
  | outside (w : AWorld V) (why : Why V)

/-- a program part on the abstract machine -/
def AM (V S α : Type) := AWorld V → S → ARes V S α

def AM.ret {α : Type} (a : α) : AM V S α := fun w s => .done a w s

def AM.andThen {α β : Type} (m : AM V S α) (f : α → AM V S β) : AM V S β := fun w s =>
  match m w s with
  | .done a w s => f a w s
  | .throws e w s => .throws e w s
  | .uninit => .uninit
  | .outside w why => .outside w why

/-- one after the other, threading a value -/
def AM.through {α T : Type} (f : T → α → AM V S T) : T → List α → AM V S T
  | t, [] => .ret t
  | t, a :: l => (f t a).andThen fun t => AM.through f t l

/-- the effect of a statement -/
def _root_.Verif.Stmt.aexec (mem : Nat → Nat → Bool) (chk : Bool) : Stmt V S → AM V S Unit
  | .skip => .ret ()
  | .set f => fun w s => .done () w (f s)
  | .throw e => fun w s => .throws (e s) w s
  | .call op k => fun w s =>
    match astep mem chk w (op s) with
    | none => .outside w (.call (op s))
    | some (.exn e, w') => .throws e w' s
    | some (.ret (.val none), _) => .uninit
    | some (.ret r, w') => .done () w' (k r s)
  | .ask x q k => fun w s =>
    match w.arr x with
    | none => .outside w (.ask x (q s))
    | some (kd, a) =>
      match (extents kd a)[(q s).dim]? with
      | none => if chk then .throws (.dim (q s).dim kd.locs.length) w s else .outside w (.ask x (q s))
      | some e =>
        match answer e (q s) with
        | none => .outside w (.ask x (q s))
        | some i => .done () w (k i s)
  | .range x ts k => fun w s =>
    match w.arr x with
    | none => .outside w (.range x ts)
    | some (kd, a) =>
      if ts.length = kd.locs.length then .done () w (k (tagZones (extents kd a) ts) s) else .outside w (.range x ts)
  | .disp x fmt k => fun w s =>
    match w.arr x with
    | some (kd, .ready es val) => .done () w (k ((page kd.N (mkShape es kd.locs)).map (Item.text val fmt)) s)
    | some (kd, .empty) =>
      if Loc.center ∈ kd.locs then .done () w (k ((page kd.N (mkShape (extents kd (.empty : AArr V)) kd.locs)).map (Item.text (fun _ _ => none) fmt)) s)
      else .outside w (.disp x)
    | _ => .outside w (.disp x)
  | .seq p q => (p.aexec mem chk).andThen fun _ => q.aexec mem chk
  | .ite c p q => fun w s => if c s then p.aexec mem chk w s else q.aexec mem chk w s
  | .rep n p => fun w s => AM.through (fun _ _ => p.aexec mem chk) () (List.range (n s)) w s
  | .loop D ix p => fun w s =>
    if LoopOk (D s) then
      AM.through (fun _ a w s => p.aexec mem chk w (ix a.1 a.2 s)) () (loopPts (D s)) w s
    else .outside w (.loop (D s))
  | .reduce D ans red ix p out => fun w s =>
    if LoopOk (D s) then
      (AM.through (fun t a w s => (p.aexec mem chk).andThen (fun _ w s => .done (red (out s) t) w s) w (ix a.1 a.2 s)) (ans.get s) (loopPts (D s))).andThen
        (fun t w s => .done () w (ans.set (red t (ans.get s)) s)) w s
    else .outside w (.loop (D s))
  | .attempt p k q => fun w s =>
    match p.aexec mem chk w s with
    | .throws e w s => q.aexec mem chk w (k e s)
    | r => r

deriving instance DecidableEq for Res

/-- what is seen of a program once its arrays are gone -/
def _root_.Verif.Res.seen {α : Type} : Res (World V × S) α → Res S α
  | .ok a w => .ok a w.2
  | .err e w => .err e w.2
  | .ub u => .ub u

/-- the same on the abstract machine; `none` if the contract was left -/
def ARes.seen {α : Type} : ARes V S α → Option (Res S α)
  | .done a _ s => some (.ok a s)
  | .throws e _ s => some (.err e s)
  | .uninit => some (.ub .uninit)
  | .outside _ _ => none

/-- what the program does (left) is what happens on the abstract machine (right); nothing is said once the contract was left -/
def Follows {α : Type} (mem : Nat → Nat → Bool) (chk : Bool) (r : Res (World V × S) α) : ARes V S α → Prop
  | .done a aw s => ∃ w, r = .ok a (w, s) ∧ Reach mem chk w aw
  | .throws e aw s => ∃ w, r = .err e (w, s) ∧ Reach mem chk w aw
  | .uninit => r = .ub .uninit
  | .outside _ _ => True

/-- the arrays after some history of calls -/
def Occurs (mem : Nat → Nat → Bool) (chk : Bool) (aw : AWorld V) : Prop := ∃ ops evs, arun mem chk ops AWorld.init = some (evs, aw)

/-- The faults of the program that take it outside the contract of a checked build with enough memory: a call that does not compile or has sizes or copy
zones outside the contract, a name without an array, an answer that is not an `int`, `disp_data` of an array that is broken, or
empty and at half points in every dimension, a loop over a dimension that does not exist or a range that is inverted or ends outside `int`. -/
def Fault (w : AWorld V) : Why V → Prop
  | .call op => ¬ TypedOp w op
  | .ask x q => w.arr x = none ∨ ∃ k a e, w.arr x = some (k, a) ∧ (extents k a)[q.dim]? = some e ∧ answer e q = none
  | .range x ts => ∀ k a, w.arr x = some (k, a) → ts.length ≠ k.locs.length
  | .disp x => ∀ k a, w.arr x = some (k, a) → (a = .empty ∧ Loc.center ∉ k.locs) ∨ ∃ es z, a = .broken es z
  | .loop D => ¬ LoopOk D

end Verif.Spec
