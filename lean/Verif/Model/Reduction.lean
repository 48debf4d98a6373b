import Verif.Model.Client
/-!
# Reductions in user programs

`D?::PD_Reduce_?D(x.size().range(ts...), ans, PD_RF_..., [&](..) { return e; })` with an expression `e` of elements, as in
Example_D1_integration.cpp:43-46.  The simplifications are those of `Client.lean`; `ans` is a local variable of the program.
-/
namespace Verif
variable {V : Type}

/-- `PD_Reduce_?D(o.size().range(ts...), ans, reduce, body)` —
PointData_1D.hpp:143-154, PointData_2D.hpp:167-183, PointData_3D.hpp:185-207 and the `range` members -/
def Obj.reduceTags {σ T : Type} (chk : Bool) (o : Obj) (ts : List RA) (ans : Ref σ T) (reduce : T → T → M σ T) (body : List Int → M σ T) :
    M σ Unit :=
  match o, ts with
  | .d1 o, [t0] => do
    let r ← (o.size.range chk t0 : M σ _)
    D1.PD_Reduce_1D chk r ans reduce fun i => body [i]
  | .d2 o, [t0, t1] => do
    let r ← (o.size.range chk t0 t1 : M σ _)
    D2.PD_Reduce_2D chk r ans reduce fun i j => body [i, j]
  | .d3 o, [t0, t1, t2] => do
    let r ← (o.size.range chk t0 t1 t2 : M σ _)
    D3.PD_Reduce_3D chk r ans reduce fun i j l => body [i, j, l]
  | _, _ => M.undef .oob

/-- the state of the program: the arrays and a part of another kind -/
def onArrays {S α : Type} (m : M (World V) α) : M (World V × S) α := fun s =>
  match m s.1 with
  | .ok a w => .ok a (w, s.2)
  | .err e w => .err e (w, s.2)
  | .ub u => .ub u

/-- the statement; `ans` refers to a variable in the other part, `red` is the reducer (`red x xx` is what becomes of `xx`) -/
def reduceExpr {S : Type} (chk : Bool) (x : Nat) (ts : List RA) (ans : Ref S V) (red : V → V → V) (e : Expr V) : M (World V × S) Unit := fun s =>
  match s.1.objs x with
  | none => .ub .dangling
  | some (_, o) => o.reduceTags chk ts ⟨fun s => ans.get s.2, fun v s => (s.1, ans.set v s.2)⟩ (fun a b => pure (red a b))
      (fun xs => onArrays (e.eval chk xs)) s

end Verif
