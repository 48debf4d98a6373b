import Verif.Proof.PointTestsH
/-!
# Test_D3_PointData_H: the array x7
-/
namespace Verif.PointTest3
open Spec Fast

/-- the assignments of the second loop -/
def body7 : List Prog := [atLast 7 [0] [.P, .N, .N] 1, atLast 7 [0] [.P, .N, .P] 1, atLast 7 [0] [.P, .P, .N] 1, atLast 7 [0] [.P, .P, .P] 1, atLast 7 [1] [.N, .P, .N] 2, atLast 7 [1] [.N, .P, .P] 2, atLast 7 [1] [.P, .P, .N] 2, atLast 7 [1] [.P, .P, .P] 2, atLast 7 [2] [.N, .N, .P] 3, atLast 7 [2] [.N, .P, .P] 3, atLast 7 [2] [.P, .N, .P] 3, atLast 7 [2] [.P, .P, .P] 3, atLast 7 [0, 1, 2] [.P, .P, .P] 4]

/-- the first loop -/
def first7 : Prog :=
  over 7 all3 (some (0, 2)) [] [put 7 (fun s => (s.n, [s.i, s.j, s.k])) [.N, .N, .N] fun s => .int ((s.n : Int) * 1000 + s.i * 100 + s.j * 10 + s.k)]

theorem d3h_first7 (a0 a1 a2 a3 a4 a5 a6 : Cell) (A : List (Nat × Cell)) (e : Err) (c : List Err) (t : List String) (o : List (List String)) :
    first7.fexec ample true
      ⟨(0, a0) :: (1, a1) :: (2, a2) :: (3, a3) :: (4, a4) :: (5, a5) :: (6, a6) :: (7, blank 7) :: A, 27, 0⟩ (after [2, 6, 5] (e :: c) (t :: o)) =
      .done () ⟨(0, a0) :: (1, a1) :: (2, a2) :: (3, a3) :: (4, a4) :: (5, a5) :: (6, a6) :: (7, half 7 0) :: A, 27, 0⟩ (after [2, 6, 5] (e :: c) (t :: o)) := by kernel_rfl

theorem d3h_chunk7_0 (a0 a1 a2 a3 a4 a5 a6 : Cell) (A : List (Nat × Cell)) (n : Nat) (xs pt : List Int) (e : Err) (c : List Err) (t : List String) (o : List (List String)) :
    rounds body7 (chunk 0) ⟨(0, a0) :: (1, a1) :: (2, a2) :: (3, a3) :: (4, a4) :: (5, a5) :: (6, a6) :: (7, half 7 0) :: A, 27, 0⟩ { n, xs, R := R4, pt, caught := e :: c, out := t :: o } =
      .done () ⟨(0, a0) :: (1, a1) :: (2, a2) :: (3, a3) :: (4, a4) :: (5, a5) :: (6, a6) :: (7, half 7 1) :: A, 27, 0⟩ { n := 0, xs := [-1, 6, 5], R := R4, pt := [2, 6, 5], caught := e :: c, out := t :: o } := by kernel_rfl

theorem d3h_chunk7_1 (a0 a1 a2 a3 a4 a5 a6 : Cell) (A : List (Nat × Cell)) (n : Nat) (xs pt : List Int) (e : Err) (c : List Err) (t : List String) (o : List (List String)) :
    rounds body7 (chunk 1) ⟨(0, a0) :: (1, a1) :: (2, a2) :: (3, a3) :: (4, a4) :: (5, a5) :: (6, a6) :: (7, half 7 1) :: A, 27, 0⟩ { n, xs, R := R4, pt, caught := e :: c, out := t :: o } =
      .done () ⟨(0, a0) :: (1, a1) :: (2, a2) :: (3, a3) :: (4, a4) :: (5, a5) :: (6, a6) :: (7, half 7 2) :: A, 27, 0⟩ { n := 0, xs := [0, 6, 5], R := R4, pt := [2, 6, 5], caught := e :: c, out := t :: o } := by kernel_rfl

theorem d3h_chunk7_2 (a0 a1 a2 a3 a4 a5 a6 : Cell) (A : List (Nat × Cell)) (n : Nat) (xs pt : List Int) (e : Err) (c : List Err) (t : List String) (o : List (List String)) :
    rounds body7 (chunk 2) ⟨(0, a0) :: (1, a1) :: (2, a2) :: (3, a3) :: (4, a4) :: (5, a5) :: (6, a6) :: (7, half 7 2) :: A, 27, 0⟩ { n, xs, R := R4, pt, caught := e :: c, out := t :: o } =
      .done () ⟨(0, a0) :: (1, a1) :: (2, a2) :: (3, a3) :: (4, a4) :: (5, a5) :: (6, a6) :: (7, half 7 3) :: A, 27, 0⟩ { n := 0, xs := [1, 6, 5], R := R4, pt := [2, 6, 5], caught := e :: c, out := t :: o } := by kernel_rfl

theorem d3h_chunk7_3 (a0 a1 a2 a3 a4 a5 a6 : Cell) (A : List (Nat × Cell)) (n : Nat) (xs pt : List Int) (e : Err) (c : List Err) (t : List String) (o : List (List String)) :
    rounds body7 (chunk 3) ⟨(0, a0) :: (1, a1) :: (2, a2) :: (3, a3) :: (4, a4) :: (5, a5) :: (6, a6) :: (7, half 7 3) :: A, 27, 0⟩ { n, xs, R := R4, pt, caught := e :: c, out := t :: o } =
      .done () ⟨(0, a0) :: (1, a1) :: (2, a2) :: (3, a3) :: (4, a4) :: (5, a5) :: (6, a6) :: (7, half 7 4) :: A, 27, 0⟩ { n := 0, xs := [2, 6, 5], R := R4, pt := [2, 6, 5], caught := e :: c, out := t :: o } := by kernel_rfl

theorem d3h_chunk7_4 (a0 a1 a2 a3 a4 a5 a6 : Cell) (A : List (Nat × Cell)) (n : Nat) (xs pt : List Int) (e : Err) (c : List Err) (t : List String) (o : List (List String)) :
    rounds body7 (chunk 4) ⟨(0, a0) :: (1, a1) :: (2, a2) :: (3, a3) :: (4, a4) :: (5, a5) :: (6, a6) :: (7, half 7 4) :: A, 27, 0⟩ { n, xs, R := R4, pt, caught := e :: c, out := t :: o } =
      .done () ⟨(0, a0) :: (1, a1) :: (2, a2) :: (3, a3) :: (4, a4) :: (5, a5) :: (6, a6) :: (7, half 7 5) :: A, 27, 0⟩ { n := 1, xs := [-1, 6, 5], R := R4, pt := [2, 6, 5], caught := e :: c, out := t :: o } := by kernel_rfl

theorem d3h_chunk7_5 (a0 a1 a2 a3 a4 a5 a6 : Cell) (A : List (Nat × Cell)) (n : Nat) (xs pt : List Int) (e : Err) (c : List Err) (t : List String) (o : List (List String)) :
    rounds body7 (chunk 5) ⟨(0, a0) :: (1, a1) :: (2, a2) :: (3, a3) :: (4, a4) :: (5, a5) :: (6, a6) :: (7, half 7 5) :: A, 27, 0⟩ { n, xs, R := R4, pt, caught := e :: c, out := t :: o } =
      .done () ⟨(0, a0) :: (1, a1) :: (2, a2) :: (3, a3) :: (4, a4) :: (5, a5) :: (6, a6) :: (7, half 7 6) :: A, 27, 0⟩ { n := 1, xs := [0, 6, 5], R := R4, pt := [2, 6, 5], caught := e :: c, out := t :: o } := by kernel_rfl

theorem d3h_chunk7_6 (a0 a1 a2 a3 a4 a5 a6 : Cell) (A : List (Nat × Cell)) (n : Nat) (xs pt : List Int) (e : Err) (c : List Err) (t : List String) (o : List (List String)) :
    rounds body7 (chunk 6) ⟨(0, a0) :: (1, a1) :: (2, a2) :: (3, a3) :: (4, a4) :: (5, a5) :: (6, a6) :: (7, half 7 6) :: A, 27, 0⟩ { n, xs, R := R4, pt, caught := e :: c, out := t :: o } =
      .done () ⟨(0, a0) :: (1, a1) :: (2, a2) :: (3, a3) :: (4, a4) :: (5, a5) :: (6, a6) :: (7, half 7 7) :: A, 27, 0⟩ { n := 1, xs := [1, 6, 5], R := R4, pt := [2, 6, 5], caught := e :: c, out := t :: o } := by kernel_rfl

theorem d3h_chunk7_7 (a0 a1 a2 a3 a4 a5 a6 : Cell) (A : List (Nat × Cell)) (n : Nat) (xs pt : List Int) (e : Err) (c : List Err) (t : List String) (o : List (List String)) :
    rounds body7 (chunk 7) ⟨(0, a0) :: (1, a1) :: (2, a2) :: (3, a3) :: (4, a4) :: (5, a5) :: (6, a6) :: (7, half 7 7) :: A, 27, 0⟩ { n, xs, R := R4, pt, caught := e :: c, out := t :: o } =
      .done () ⟨(0, a0) :: (1, a1) :: (2, a2) :: (3, a3) :: (4, a4) :: (5, a5) :: (6, a6) :: (7, half 7 8) :: A, 27, 0⟩ { n := 1, xs := [2, 6, 5], R := R4, pt := [2, 6, 5], caught := e :: c, out := t :: o } := by kernel_rfl

theorem d3h_sec7 (txt : Option Num → String) (a0 a1 a2 a3 a4 a5 a6 : Cell) (A : List (Nat × Cell)) (e : Err) (c : List Err) (t : List String) (o : List (List String)) :
    (block (d3hSec txt 7)).fexec ample true ⟨(0, a0) :: (1, a1) :: (2, a2) :: (3, a3) :: (4, a4) :: (5, a5) :: (6, a6) :: (7, blank 7) :: A, 27, 0⟩ (after [2, 6, 5] (e :: c) (t :: o)) =
      .done () ⟨(0, a0) :: (1, a1) :: (2, a2) :: (3, a3) :: (4, a4) :: (5, a5) :: (6, a6) :: (7, full 7) :: A, 27, 0⟩ (after [2, 6, 5] (e :: c) (t :: ((o ++ [["x7:"]]) ++ [both4 txt 7 (c0 7)]))) := by
  have e1 : d3hSec txt 7 = [first7] ++ ([over 7 all3 (some (0, 2)) [] body7] ++ [.set fun s => { s with out := s.out ++ [["x7:"]] }, dataT txt 7]) := rfl
  rw [e1]
  rw [d3h_append _ _ _ _ (d3h_one (d3h_first7 a0 a1 a2 a3 a4 a5 a6 A e c t o))]
  have two : (over 7 all3 (some (0, 2)) [] body7).fexec ample true ⟨(0, a0) :: (1, a1) :: (2, a2) :: (3, a3) :: (4, a4) :: (5, a5) :: (6, a6) :: (7, half 7 0) :: A, 27, 0⟩ (after [2, 6, 5] (e :: c) (t :: o)) =
      .done () ⟨(0, a0) :: (1, a1) :: (2, a2) :: (3, a3) :: (4, a4) :: (5, a5) :: (6, a6) :: (7, half 7 8) :: A, 27, 0⟩ (after [2, 6, 5] (e :: c) (t :: o)) := by
    refine over_rounds 7 body7 (by kernel_rfl) ?_
    rw [chunks]
    refine (rounds_append body7 (d3h_chunk7_0 a0 a1 a2 a3 a4 a5 a6 A 1 [2, 6, 5] [2, 6, 5] e c t o)).trans ?_
    rw [rounds_append body7 (d3h_chunk7_1 a0 a1 a2 a3 a4 a5 a6 A _ _ _ e c t o)]
    rw [rounds_append body7 (d3h_chunk7_2 a0 a1 a2 a3 a4 a5 a6 A _ _ _ e c t o)]
    rw [rounds_append body7 (d3h_chunk7_3 a0 a1 a2 a3 a4 a5 a6 A _ _ _ e c t o)]
    rw [rounds_append body7 (d3h_chunk7_4 a0 a1 a2 a3 a4 a5 a6 A _ _ _ e c t o)]
    rw [rounds_append body7 (d3h_chunk7_5 a0 a1 a2 a3 a4 a5 a6 A _ _ _ e c t o)]
    rw [rounds_append body7 (d3h_chunk7_6 a0 a1 a2 a3 a4 a5 a6 A _ _ _ e c t o)]
    rw [rounds_append body7 (d3h_chunk7_7 a0 a1 a2 a3 a4 a5 a6 A _ _ _ e c t o)]
    rfl
  rw [d3h_append _ _ _ _ (d3h_one two)]
  kernel_rfl

end Verif.PointTest3
