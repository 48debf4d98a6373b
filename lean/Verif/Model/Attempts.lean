import Verif.Model.SaveLoad
import Verif.Model.Reduction
import Verif.Model.Snippets
import Verif.Model.Client
/-!
# Attempts to read a file — Test_D1_tecfile.cpp:57-65
-/
namespace Verif
open Tec
open Spec (Ext)
variable {V : Type}

/-- statements of Test_D1_tecfile.cpp:57-65 -/
inductive Attempt
  /-- `z.realloc(..)` -/
  | realloc (es : List Ext)
  /-- `exec_except([&]() {z.read_plt(root, log, zone, name, n);}, out, out)`; `now` and `r` are the answers of `get_time()` and `std::rand()` -/
  | read (root name : Str) (n : Nat) (now : Str) (r : Nat)

/-- `what()` of the exceptions of the library, all of them `std::runtime_error` -/
def stdCatch : Sp.Catch
  | .text m => some m
  | e => some (lit e.what)

/-- a statement that writes nothing -/
def silent {σ : Type} (m : M σ Unit) : M (Sp.Prog σ) Unit := fun s =>
  match m s.1 with
  | .ok a t => .ok a (t, s.2)
  | .err e t => .err e (t, s.2)
  | .ub u => .ub u

/-- the statement about the array `x`; `out` is stream 0 -/
def Attempt.run (chk : Bool) (C : Num V) (fs : Str → Option Str) (log : FileLog) (zone x : Nat) : Attempt → M (Sp.Prog (World V × Heap Byte)) Unit
  | .realloc es => silent (onArrays (runOps chk [.realloc x es]))
  | .read root name n now r => Sp.exec_except stdCatch now r (silent (World.read_plt chk C ⟨fs, root, log, zone, name⟩ x n)) 0 0

/-- one after the other -/
def runAttempts (chk : Bool) (C : Num V) (fs : Str → Option Str) (log : FileLog) (zone x : Nat) : List Attempt → M (Sp.Prog (World V × Heap Byte)) Unit
  | [] => pure ()
  | a :: as => do
    a.run chk C fs log zone x
    runAttempts chk C fs log zone x as

end Verif
