import Verif.Model.Tec.Log
/-!
# `liton_sp::debug` — lion_snippets.hpp:117-151

State of a program that uses these functions: its own variables (`σ`) and the contents of the output
streams, numbered; two `std::ostream &` arguments may name the same stream.  Writing to a stream does not fail.
-/
namespace Verif.Sp
open Tec

abbrev Prog (σ : Type) := σ × (Nat → Str)

/-- `o << t` -/
def put {σ : Type} (o : Nat) (t : Str) : M (Prog σ) Unit :=
  M.modify fun s => (s.1, fun k => if k = o then s.2 k ++ t else s.2 k)

/-- `std::setw(10) << std::setfill('0') << r` -/
def pad10 (r : Nat) : Str := List.replicate (10 - (decNat r).length) 48 ++ decNat r

/-- what an exception object is for `catch (const std::exception &)`: `none` if it is not derived from
`std::exception`, else what `what()` points to -/
def Catch := Err → Option Str

/-- `debug::exec_except` — lion_snippets.hpp:120-136.  `now` is the answer of `get_time()`, `r` that of `std::rand()`;
the C string `err.what()` is printed up to its end. -/
def exec_except {σ : Type} (std : Catch) (now : Str) (r : Nat) (exp : M (Prog σ) Unit) (out except_out : Nat) : M (Prog σ) Unit := fun s =>
  let timestr := lit "[" ++ now ++ lit "|" ++ pad10 r ++ lit "]: "
  let body : M (Prog σ) Unit := do
    exp
    put out timestr
    put out (lit "no exception")
    put out (lit "\n")
  match body s with
  | .err e s' =>
    match std e with
    | some w => (do
        put out timestr
        put out (lit "with exception")
        put out (lit "\n")
        put except_out timestr
        put except_out (cstr w)
        put except_out (lit "\n")) s'
    | none => .err e s'
  | r => r

/-- operations of `double` used by `exec_time` -/
structure DOps (D : Type) where
  zero : D
  add : D → D → D
  div : D → D → D
  /-- `static_cast<double>(unsigned)` -/
  ofU : Nat → D

/-- `debug::exec_time` — lion_snippets.hpp:138-150.  `dt i` is the quotient `double(clock() - clock_begin) / CLOCKS_PER_SEC` of
iteration `i`; `t` is a local variable, so it is lost when `exp()` throws. -/
def exec_time {σ D : Type} (o : DOps D) (dt : Nat → D) (N : Nat) (exp : M σ Unit) : M σ D := do
  let t ← forUAcc 0 N o.zero fun i t => do
    exp
    pure (o.add t (dt i))
  pure (o.div t (o.ofU N))

end Verif.Sp
