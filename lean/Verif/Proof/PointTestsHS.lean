import Verif.Proof.PointTestsH
/-!
# Test_D3_PointData_H: the arrays x0, x1, x2 and x4
-/
namespace Verif.PointTest3
open Spec Fast

theorem d3h_sec0 (txt : Option Num → String) (A : List (Nat × Cell)) (e : Err) (c : List Err) :
    (block (d3hSec txt 0)).fexec ample true ⟨(0, blank 0) :: A, 27, 0⟩ { caught := e :: c } =
      .done () ⟨(0, full 0) :: A, 27, 0⟩ (after [] (e :: c) [["x0:"], both4 txt 0 (c0 0)]) := by kernel_rfl

theorem d3h_sec1 (txt : Option Num → String) (a0 : Cell) (A : List (Nat × Cell)) (e : Err) (c : List Err) (t : List String) (o : List (List String)) :
    (block (d3hSec txt 1)).fexec ample true ⟨(0, a0) :: (1, blank 1) :: A, 27, 0⟩ (after [] (e :: c) (t :: o)) =
      .done () ⟨(0, a0) :: (1, full 1) :: A, 27, 0⟩ (after [2, 6, 5] (e :: c) (t :: ((o ++ [["x1:"]]) ++ [both4 txt 1 (c0 1)]))) := by kernel_rfl

theorem d3h_sec2 (txt : Option Num → String) (a0 a1 : Cell) (A : List (Nat × Cell)) (e : Err) (c : List Err) (t : List String) (o : List (List String)) :
    (block (d3hSec txt 2)).fexec ample true ⟨(0, a0) :: (1, a1) :: (2, blank 2) :: A, 27, 0⟩ (after [2, 6, 5] (e :: c) (t :: o)) =
      .done () ⟨(0, a0) :: (1, a1) :: (2, full 2) :: A, 27, 0⟩ (after [2, 6, 5] (e :: c) (t :: ((o ++ [["x2:"]]) ++ [both4 txt 2 (c0 2)]))) := by kernel_rfl

theorem d3h_sec4 (txt : Option Num → String) (a0 a1 a2 a3 : Cell) (A : List (Nat × Cell)) (e : Err) (c : List Err) (t : List String) (o : List (List String)) :
    (block (d3hSec txt 4)).fexec ample true ⟨(0, a0) :: (1, a1) :: (2, a2) :: (3, a3) :: (4, blank 4) :: A, 27, 0⟩ (after [2, 6, 5] (e :: c) (t :: o)) =
      .done () ⟨(0, a0) :: (1, a1) :: (2, a2) :: (3, a3) :: (4, full 4) :: A, 27, 0⟩ (after [2, 6, 5] (e :: c) (t :: ((o ++ [["x4:"]]) ++ [both4 txt 4 (c0 4)]))) := by kernel_rfl

end Verif.PointTest3
