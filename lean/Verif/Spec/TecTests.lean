import Verif.Model.TecTests
import Verif.Spec.Export
import Verif.Spec.RoundTrip
import Verif.Spec.TecReport
import Verif.Spec.Attempts
/-!
# Specification: saving and loading in the test programs
-/
namespace Verif.Spec
open Tec TecTests
variable {V : Type}

/-- The program saves and loads the functions `Fs`, one for every variable in their order.  The arrays have the sizes `es`; all requests for
memory are granted; the numbers are stored in eight bytes (`enc`), and reading them as `double` gives them back.  Up to `write_plt`
everything runs; `write_plt` returns; the file has one zone with the values of the functions at the interior points, the last
index fastest; and with this file (others may have changed) the loading runs through, after which
component `j` of the array loaded (2) has the values of the `j`-th function, all buffers have been given back, and `K` holds of the
state at that point. -/
def SavesThen (P : Prog V) (es : List Ext) (Fs : List (List Int → V)) (K : Bool → Num V → (Str → Option Str) → FileLog → World V × Heap Byte → Prop) : Prop :=
  ∀ (chk strict : Bool) (junk : Nat → Nat → Ptr) (zj : Int), ∃ w z f,
    P.main chk es junk (World.init (fun _ _ => true), Zone.new (lit "untitled_zone") zj) = .ok () (w, z) ∧
    P.echo strict (P.tecfile z) = .ok () f ∧ (∃ aw, Reach (fun _ _ => true) chk w aw) ∧
    ∀ (E : Env) (echo : Bool) (enc : V → Str) (s : FSt), s.f = f → ByteView 8 enc w.h s.h → (∀ k n, s.h.mem k n = true) →
      E.fmt.Short → (E.fmt.f5 E.using_).length ≤ 60 → E.tBegin.length ≤ 150 → E.canOpen (lit "./untitled_file.plt") = true →
      ∃ s' c hd b, TecFile.write_plt E echo s = .ok () s' ∧ s'.fs (lit "./untitled_file.plt") = some c ∧ readWhole c = some (hd, [b]) ∧
        hd.vars = P.names ∧ b.values = Fs.map (fun F => (blockPts (es.map (·.i))).map fun p => little (enc (F p))) ∧
        ∀ (C : Num V), Codec .double enc C id → ∀ (junk' : Nat → Ptr) (fs : Str → Option Str), fs (lit "./untitled_file.plt") = some c →
        ∀ (m : Heap Byte), Fresh m → (∀ k n, m.mem k n = true) →
        ∃ w' m', P.load chk C es junk' fs s'.f.last_log (w, m) = .ok () (w', m') ∧ m'.blk = m.blk ∧
          (∀ (j : Nat) (F : List Int → V), Fs[j]? = some F → ∀ p ∈ blockPts (es.map (·.i)), ∀ c,
            exec c (.read 2 j p (List.replicate es.length .C)) w' = .ok (.val (some (F p))) w') ∧
          K chk C fs s'.f.last_log (w', m')

/-- without a continuation -/
def Saves (P : Prog V) (es : List Ext) (Fs : List (List Int → V)) : Prop := SavesThen P es Fs fun _ _ _ _ _ => True

/-- what the rest of Test_D1_tecfile writes to `out` -/
def report1 (now : Nat → Str) (r : Nat → Nat) : Str :=
  let mark := fun i => lit "[" ++ now i ++ lit "|" ++ Sp.pad10 (r i) ++ lit "]: "
  mark 0 ++ lit "with exception\n" ++ mark 0 ++ lit "N is out of range: 3 range:[0,2]\n" ++
  mark 1 ++ lit "with exception\n" ++ mark 1 ++ lit "error when finding variables xxx in: untitled_file\n" ++
  mark 2 ++ lit "with exception\n" ++ mark 2 ++ lit "error when opening file: aaa/untitled_file.plt\n" ++
  mark 3 ++ lit "no exception\n" ++
  mark 4 ++ lit "with exception\n" ++ mark 4 ++ lit "N_file is bigger than N_in or equal to 0\n" ++
  mark 5 ++ lit "no exception\n"

/-- The rest of Test_D1_tecfile with `N` interior points, there being no file in `aaa`.  Compiled with the check it runs through, writes the
report, gives all buffers back, and leaves the values of `G` in the interior of component 2 and nothing in the other elements.
Compiled without, reading component 3 of three is undefined. -/
def RestRuns (N : Nat) (G : List Int → V) (chk : Bool) (C : Num V) (fs : Str → Option Str) (log : FileLog) (s : World V × Heap Byte) : Prop :=
  fs (lit "aaa/untitled_file.plt") = none → ∀ (now : Nat → Str) (r : Nat → Nat) (out : Nat → Str),
    (chk = true → ∃ w' m', runAttempts chk C fs log 0 2 (rest1 N now r) (s, out) =
        .ok () ((w', m'), fun i => if i = 0 then out 0 ++ report1 now r else out i) ∧ m'.blk = s.2.blk ∧
      ∀ c q (i : Int), q < 3 → -1 ≤ i → i ≤ N →
        exec c (.read 2 q [i] [.C]) w' = .ok (.val (if q = 2 ∧ 0 ≤ i ∧ i < N then some (G [i]) else none)) w') ∧
    (chk = false → runAttempts chk C fs log 0 2 (rest1 N now r) (s, out) = .ub .oob)

end Verif.Spec
