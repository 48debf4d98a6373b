import Verif.Spec.Program
/-!
# Specification: programs watched for failing checks

The checks of the library exist only if `_CHECK_POINTDATA_RANGE` is defined (PointData_1D.hpp:25-33, 74-79, 87-104, 306-313, 319-328, 333-338, 476-488 and the same places of
the other files).  To speak about a program whose checks never fail a flag is added to its variables; the program neither reads nor writes it, only the
`try` blocks raise it when they catch the exception of a check.
-/
namespace Verif.Spec
variable {V S : Type}

/-- the exceptions thrown by the code between `#ifdef _CHECK_POINTDATA_RANGE` and `#endif` -/
def _root_.Verif.Err.fromCheck : Err → Bool
  | .dim _ _ | .overlapNotFound | .rangeCenter _ _ _ _ | .rangeHalf _ _ _ _ _ _ | .nRange _ _ | .nRange0 _ _ | .flagCenter _ | .flagHalf _ | .noData
  | .copyOverlap => true
  | _ => false

/-- the same program with the flag -/
def _root_.Verif.Stmt.watched : Stmt V S → Stmt V (S × Bool)
  | .skip => .skip
  | .set f => .set fun s => (f s.1, s.2)
  | .throw e => .throw fun s => e s.1
  | .call op k => .call (fun s => op s.1) fun r s => (k r s.1, s.2)
  | .ask x q k => .ask x (fun s => q s.1) fun r s => (k r s.1, s.2)
  | .range x ts k => .range x ts fun r s => (k r s.1, s.2)
  | .disp x fmt k => .disp x fmt fun r s => (k r s.1, s.2)
  | .seq p q => .seq p.watched q.watched
  | .ite c p q => .ite (fun s => c s.1) p.watched q.watched
  | .rep n p => .rep (fun s => n s.1) p.watched
  | .loop D ix p => .loop (fun s => D s.1) (fun n xs s => (ix n xs s.1, s.2)) p.watched
  | .reduce D ans red ix p out =>
    .reduce (fun s => D s.1) ⟨fun s => ans.get s.1, fun v s => (ans.set v s.1, s.2)⟩ red (fun n xs s => (ix n xs s.1, s.2)) p.watched fun s => out s.1
  | .attempt p k q => .attempt p.watched (fun e s => (k e s.1, s.2 || e.fromCheck)) q.watched

/-- a result without the flag -/
def ARes.drop {α : Type} : ARes V (S × Bool) α → ARes V S α
  | .done a w s => .done a w s.1
  | .throws e w s => .throws e w s.1
  | .uninit => .uninit
  | .outside w why => .outside w why

/-- the program ended and no check failed: no `try` block caught the exception of a check and none was left -/
def ARes.Silent {α : Type} : ARes V (S × Bool) α → Prop
  | .done _ _ s => s.2 = false
  | .throws e _ s => s.2 = false ∧ e.fromCheck = false
  | _ => False

/-- the program does not throw such an exception itself -/
def _root_.Verif.Stmt.Honest : Stmt V S → Prop
  | .throw e => ∀ s, (e s).fromCheck = false
  | .seq p q | .ite _ p q | .attempt p _ q => p.Honest ∧ q.Honest
  | .rep _ p | .loop _ _ p | .reduce _ _ _ _ p _ => p.Honest
  | _ => True

/-- the contract was kept -/
def ARes.Inside {α : Type} : ARes V S α → Prop
  | .outside _ _ => False
  | _ => True

end Verif.Spec
