import Verif.Model.Program
/-!
# Filling arrays with loops of assignments

The programs of test/ fill an array with a loop over all its points and the arrays at half points with a second loop in which some of the index
arguments are the last index of a dimension, so that the points on the far faces are reached:

`x3(n, i, x3.size().last(1, RA::ALL), k, FL::C, FL::P, FL::N) = 1;`

Test_D3_PointData_H.cpp:68-172.

Simplifications: those of `Verif.Model.Program`.  What is assigned is any function of the loop indices.
-/
namespace Verif
variable {V : Type}

/-- `x(n, …, fs...) = val(n, i, j, k);` — index argument number `d` is `x.size().last(d, RA::ALL)` if `far` says so, else the loop index -/
structure Put (V : Type) where
  far : List Bool
  fs : List FL
  val : Nat → List Int → V

/-- variables: the loop indices, the range, the index arguments, what is printed -/
structure PutVars where
  n : Nat := 0
  xs : List Int := []
  R : List (Int × Int) := []
  args : List Int := []
  out : List String := []
  deriving DecidableEq, Repr

/-- computing the index arguments from dimension `d` on -/
def putArgs (x : Nat) : Nat → List Bool → Stmt V PutVars
  | _, [] => .skip
  | d, true :: l => .seq (.ask x (fun _ => .last d .ALL) fun i s => { s with args := s.args ++ [i] }) (putArgs x (d + 1) l)
  | d, false :: l => .seq (.set fun s => { s with args := s.args ++ [s.xs.getD d 0] }) (putArgs x (d + 1) l)

/-- one assignment -/
def Put.stmt (x : Nat) (p : Put V) : Stmt V PutVars :=
  .seq (.set fun s => { s with args := [] })
    (.seq (putArgs x 0 p.far) (.call (fun s => .write x s.n s.args p.fs (p.val s.n s.xs)) fun _ s => s))

/-- the body of the loop -/
def putAll (x : Nat) : List (Put V) → Stmt V PutVars
  | [] => .skip
  | p :: l => .seq (p.stmt x) (putAll x l)

/-- `PD_For_N_?D(0, x.N, x.size().range(RA::ALL...), [&](n, i, j, k) { … });` for an array of `D` dimensions -/
def putLoop (x N D : Nat) (l : List (Put V)) : Stmt V PutVars :=
  .seq (.range x (List.replicate D .ALL) fun R s => { s with R := R })
    (.loop (fun s => ⟨some (0, N), [], s.R⟩) (fun n xs s => { s with n := n, xs := xs }) (putAll x l))

/-- Test_D3_PointData_H.cpp:153-156: the assignment to `x7` at the points of the loop -/
def d3hFill (f : Nat → List Int → V) : List (Put V) := [⟨[false, false, false], [.N, .N, .N], f⟩]

/-- Test_D3_PointData_H.cpp:157-172: the assignments to its far faces -/
def d3hFaces (a b c d : V) : List (Put V) :=
  [⟨[true, false, false], [.P, .N, .N], fun _ _ => a⟩, ⟨[true, false, false], [.P, .N, .P], fun _ _ => a⟩,
   ⟨[true, false, false], [.P, .P, .N], fun _ _ => a⟩, ⟨[true, false, false], [.P, .P, .P], fun _ _ => a⟩,
   ⟨[false, true, false], [.N, .P, .N], fun _ _ => b⟩, ⟨[false, true, false], [.N, .P, .P], fun _ _ => b⟩,
   ⟨[false, true, false], [.P, .P, .N], fun _ _ => b⟩, ⟨[false, true, false], [.P, .P, .P], fun _ _ => b⟩,
   ⟨[false, false, true], [.N, .N, .P], fun _ _ => c⟩, ⟨[false, false, true], [.N, .P, .P], fun _ _ => c⟩,
   ⟨[false, false, true], [.P, .N, .P], fun _ _ => c⟩, ⟨[false, false, true], [.P, .P, .P], fun _ _ => c⟩,
   ⟨[true, true, true], [.P, .P, .P], fun _ _ => d⟩]

end Verif
