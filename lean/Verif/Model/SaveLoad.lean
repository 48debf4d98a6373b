import Verif.Model.Tec.ReadPlt
/-!
# Several variables read back from a file
-/
namespace Verif
open Tec
variable {V : Type}

/-- `x.read_plt(path, log, zone, name, n);` for the pairs of the list in their order —
Test_D1_tecfile.cpp:52-54, Test_D2_tecfile.cpp:58-61, Test_D3_tecfile.cpp:59-63 -/
def readVars (chk : Bool) (C : Num V) (fs : Str → Option Str) (path : Str) (log : FileLog) (zone x : Nat) :
    List (Str × Nat) → M (World V × Heap Byte) Unit
  | [] => pure ()
  | (name, n) :: rs => do
    World.read_plt chk C ⟨fs, path, log, zone, name⟩ x n
    readVars chk C fs path log zone x rs

end Verif
