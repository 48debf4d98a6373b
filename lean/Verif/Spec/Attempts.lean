import Verif.Model.Attempts
import Verif.Spec.Export
import Verif.Spec.ReadPlt
/-!
# Specification: attempts to read a file
-/
namespace Verif.Spec
open Tec
variable {V : Type}

/-- a file: where it is, its variables, its numbers of points and its values -/
structure Stock (V : Type) where
  path : Str
  name : Str
  vars : List Str
  ns : List Nat
  val : Nat → List Int → V

/-- the array has at least as many interior points in each dimension -/
def covers : List Nat → List Ext → Bool
  | [], [] => true
  | n :: ns, e :: es => decide (n ≤ e.i) && covers ns es
  | _, _ => false

/-- the text of the exception with which an attempt to read component `n` of an array with `N` components ends, if any -/
def refusal (chk : Bool) (S : Stock V) (N : Nat) (es : List Ext) (root name : Str) (n : Nat) : Option Str :=
  if chk = true ∧ N ≤ n then some (lit ("N is out of range: " ++ toString n ++ " range:[0," ++ toString ((N : Int) - 1) ++ "]"))
  else if covers S.ns es = false then some (lit "N_file is bigger than N_in or equal to 0")
  else if name ∉ S.vars then some (lit "error when finding variables " ++ name ++ lit " in: " ++ S.name)
  else if root ≠ S.path then some (lit "error when opening file: " ++ root ++ lit "/" ++ S.name ++ lit ".plt")
  else none

/-- the array and the text in the output -/
structure Holder (V : Type) where
  es : List Ext
  val : Nat → List Int → Option V
  out : Str

/-- what a statement does to the array and to the output: after `realloc` nothing has a value; a refused attempt changes only the output -/
def attempted (chk : Bool) (S : Stock V) (N : Nat) (H : Holder V) : Attempt → Holder V
  | .realloc es => ⟨es, fun _ _ => none, H.out⟩
  | .read root name n now r =>
    let mark := lit "[" ++ now ++ lit "|" ++ Sp.pad10 r ++ lit "]: "
    match refusal chk S N H.es root name n with
    | some t => ⟨H.es, H.val, H.out ++ (mark ++ lit "with exception\n") ++ (mark ++ cstr t ++ lit "\n")⟩
    | none => ⟨H.es, fun m p => if m = n ∧ p ∈ blockPts S.ns then some (S.val (S.vars.idxOf name) p) else H.val m p,
        H.out ++ (mark ++ lit "no exception\n")⟩

/-- the statements can be run: new sizes are positive and in machine range, components exist (or are checked), and a file in another
place does not exist -/
def Fair (chk : Bool) (S : Stock V) (k : Kind) (fs : Str → Option Str) : Attempt → Prop
  | .realloc es => SizesOk k es ∧ ∀ e ∈ es, 1 ≤ e.i
  | .read root _ n _ _ => (chk = true ∨ n < k.N) ∧ (root = S.path ∨ fs (cstr (root ++ lit "/" ++ S.name ++ lit ".plt")) = none)

end Verif.Spec
