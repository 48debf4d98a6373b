import Verif.Proof.PointTestsH
/-!
# Test_D3_PointData_H: the array x5
-/
namespace Verif.PointTest3
open Spec Fast

/-- the assignments of the second loop -/
def body5 : List Prog := [atLast 5 [0] [.P, .C, .N] 1, atLast 5 [0] [.P, .C, .P] 1, atLast 5 [2] [.N, .C, .P] 2, atLast 5 [2] [.P, .C, .P] 2, atLast 5 [0, 2] [.P, .C, .P] 3]

/-- the first loop -/
def first5 : Prog :=
  over 5 all3 (some (0, 2)) [] [put 5 (fun s => (s.n, [s.i, s.j, s.k])) [.N, .C, .N] fun s => .int ((s.n : Int) * 1000 + s.i * 100 + s.j * 10 + s.k)]

theorem d3h_first5 (a0 a1 a2 a3 a4 : Cell) (A : List (Nat × Cell)) (e : Err) (c : List Err) (t : List String) (o : List (List String)) :
    first5.fexec ample true
      ⟨(0, a0) :: (1, a1) :: (2, a2) :: (3, a3) :: (4, a4) :: (5, blank 5) :: A, 27, 0⟩ (after [2, 6, 5] (e :: c) (t :: o)) =
      .done () ⟨(0, a0) :: (1, a1) :: (2, a2) :: (3, a3) :: (4, a4) :: (5, half 5 0) :: A, 27, 0⟩ (after [2, 6, 5] (e :: c) (t :: o)) := by kernel_rfl

theorem d3h_chunk5_0 (a0 a1 a2 a3 a4 : Cell) (A : List (Nat × Cell)) (n : Nat) (xs pt : List Int) (e : Err) (c : List Err) (t : List String) (o : List (List String)) :
    rounds body5 (chunk 0) ⟨(0, a0) :: (1, a1) :: (2, a2) :: (3, a3) :: (4, a4) :: (5, half 5 0) :: A, 27, 0⟩ { n, xs, R := R4, pt, caught := e :: c, out := t :: o } =
      .done () ⟨(0, a0) :: (1, a1) :: (2, a2) :: (3, a3) :: (4, a4) :: (5, half 5 1) :: A, 27, 0⟩ { n := 0, xs := [-1, 6, 5], R := R4, pt := [2, 6, 5], caught := e :: c, out := t :: o } := by kernel_rfl

theorem d3h_chunk5_1 (a0 a1 a2 a3 a4 : Cell) (A : List (Nat × Cell)) (n : Nat) (xs pt : List Int) (e : Err) (c : List Err) (t : List String) (o : List (List String)) :
    rounds body5 (chunk 1) ⟨(0, a0) :: (1, a1) :: (2, a2) :: (3, a3) :: (4, a4) :: (5, half 5 1) :: A, 27, 0⟩ { n, xs, R := R4, pt, caught := e :: c, out := t :: o } =
      .done () ⟨(0, a0) :: (1, a1) :: (2, a2) :: (3, a3) :: (4, a4) :: (5, half 5 2) :: A, 27, 0⟩ { n := 0, xs := [0, 6, 5], R := R4, pt := [2, 6, 5], caught := e :: c, out := t :: o } := by kernel_rfl

theorem d3h_chunk5_2 (a0 a1 a2 a3 a4 : Cell) (A : List (Nat × Cell)) (n : Nat) (xs pt : List Int) (e : Err) (c : List Err) (t : List String) (o : List (List String)) :
    rounds body5 (chunk 2) ⟨(0, a0) :: (1, a1) :: (2, a2) :: (3, a3) :: (4, a4) :: (5, half 5 2) :: A, 27, 0⟩ { n, xs, R := R4, pt, caught := e :: c, out := t :: o } =
      .done () ⟨(0, a0) :: (1, a1) :: (2, a2) :: (3, a3) :: (4, a4) :: (5, half 5 3) :: A, 27, 0⟩ { n := 0, xs := [1, 6, 5], R := R4, pt := [2, 6, 5], caught := e :: c, out := t :: o } := by kernel_rfl

theorem d3h_chunk5_3 (a0 a1 a2 a3 a4 : Cell) (A : List (Nat × Cell)) (n : Nat) (xs pt : List Int) (e : Err) (c : List Err) (t : List String) (o : List (List String)) :
    rounds body5 (chunk 3) ⟨(0, a0) :: (1, a1) :: (2, a2) :: (3, a3) :: (4, a4) :: (5, half 5 3) :: A, 27, 0⟩ { n, xs, R := R4, pt, caught := e :: c, out := t :: o } =
      .done () ⟨(0, a0) :: (1, a1) :: (2, a2) :: (3, a3) :: (4, a4) :: (5, half 5 4) :: A, 27, 0⟩ { n := 0, xs := [2, 6, 5], R := R4, pt := [2, 6, 5], caught := e :: c, out := t :: o } := by kernel_rfl

theorem d3h_chunk5_4 (a0 a1 a2 a3 a4 : Cell) (A : List (Nat × Cell)) (n : Nat) (xs pt : List Int) (e : Err) (c : List Err) (t : List String) (o : List (List String)) :
    rounds body5 (chunk 4) ⟨(0, a0) :: (1, a1) :: (2, a2) :: (3, a3) :: (4, a4) :: (5, half 5 4) :: A, 27, 0⟩ { n, xs, R := R4, pt, caught := e :: c, out := t :: o } =
      .done () ⟨(0, a0) :: (1, a1) :: (2, a2) :: (3, a3) :: (4, a4) :: (5, half 5 5) :: A, 27, 0⟩ { n := 1, xs := [-1, 6, 5], R := R4, pt := [2, 6, 5], caught := e :: c, out := t :: o } := by kernel_rfl

theorem d3h_chunk5_5 (a0 a1 a2 a3 a4 : Cell) (A : List (Nat × Cell)) (n : Nat) (xs pt : List Int) (e : Err) (c : List Err) (t : List String) (o : List (List String)) :
    rounds body5 (chunk 5) ⟨(0, a0) :: (1, a1) :: (2, a2) :: (3, a3) :: (4, a4) :: (5, half 5 5) :: A, 27, 0⟩ { n, xs, R := R4, pt, caught := e :: c, out := t :: o } =
      .done () ⟨(0, a0) :: (1, a1) :: (2, a2) :: (3, a3) :: (4, a4) :: (5, half 5 6) :: A, 27, 0⟩ { n := 1, xs := [0, 6, 5], R := R4, pt := [2, 6, 5], caught := e :: c, out := t :: o } := by kernel_rfl

theorem d3h_chunk5_6 (a0 a1 a2 a3 a4 : Cell) (A : List (Nat × Cell)) (n : Nat) (xs pt : List Int) (e : Err) (c : List Err) (t : List String) (o : List (List String)) :
    rounds body5 (chunk 6) ⟨(0, a0) :: (1, a1) :: (2, a2) :: (3, a3) :: (4, a4) :: (5, half 5 6) :: A, 27, 0⟩ { n, xs, R := R4, pt, caught := e :: c, out := t :: o } =
      .done () ⟨(0, a0) :: (1, a1) :: (2, a2) :: (3, a3) :: (4, a4) :: (5, half 5 7) :: A, 27, 0⟩ { n := 1, xs := [1, 6, 5], R := R4, pt := [2, 6, 5], caught := e :: c, out := t :: o } := by kernel_rfl

theorem d3h_chunk5_7 (a0 a1 a2 a3 a4 : Cell) (A : List (Nat × Cell)) (n : Nat) (xs pt : List Int) (e : Err) (c : List Err) (t : List String) (o : List (List String)) :
    rounds body5 (chunk 7) ⟨(0, a0) :: (1, a1) :: (2, a2) :: (3, a3) :: (4, a4) :: (5, half 5 7) :: A, 27, 0⟩ { n, xs, R := R4, pt, caught := e :: c, out := t :: o } =
      .done () ⟨(0, a0) :: (1, a1) :: (2, a2) :: (3, a3) :: (4, a4) :: (5, half 5 8) :: A, 27, 0⟩ { n := 1, xs := [2, 6, 5], R := R4, pt := [2, 6, 5], caught := e :: c, out := t :: o } := by kernel_rfl

theorem d3h_sec5 (txt : Option Num → String) (a0 a1 a2 a3 a4 : Cell) (A : List (Nat × Cell)) (e : Err) (c : List Err) (t : List String) (o : List (List String)) :
    (block (d3hSec txt 5)).fexec ample true ⟨(0, a0) :: (1, a1) :: (2, a2) :: (3, a3) :: (4, a4) :: (5, blank 5) :: A, 27, 0⟩ (after [2, 6, 5] (e :: c) (t :: o)) =
      .done () ⟨(0, a0) :: (1, a1) :: (2, a2) :: (3, a3) :: (4, a4) :: (5, full 5) :: A, 27, 0⟩ (after [2, 6, 5] (e :: c) (t :: ((o ++ [["x5:"]]) ++ [both4 txt 5 (c0 5)]))) := by
  have e1 : d3hSec txt 5 = [first5] ++ ([over 5 all3 (some (0, 2)) [] body5] ++ [.set fun s => { s with out := s.out ++ [["x5:"]] }, dataT txt 5]) := rfl
  rw [e1]
  rw [d3h_append _ _ _ _ (d3h_one (d3h_first5 a0 a1 a2 a3 a4 A e c t o))]
  have two : (over 5 all3 (some (0, 2)) [] body5).fexec ample true ⟨(0, a0) :: (1, a1) :: (2, a2) :: (3, a3) :: (4, a4) :: (5, half 5 0) :: A, 27, 0⟩ (after [2, 6, 5] (e :: c) (t :: o)) =
      .done () ⟨(0, a0) :: (1, a1) :: (2, a2) :: (3, a3) :: (4, a4) :: (5, half 5 8) :: A, 27, 0⟩ (after [2, 6, 5] (e :: c) (t :: o)) := by
    refine over_rounds 5 body5 (by kernel_rfl) ?_
    rw [chunks]
    refine (rounds_append body5 (d3h_chunk5_0 a0 a1 a2 a3 a4 A 1 [2, 6, 5] [2, 6, 5] e c t o)).trans ?_
    rw [rounds_append body5 (d3h_chunk5_1 a0 a1 a2 a3 a4 A _ _ _ e c t o)]
    rw [rounds_append body5 (d3h_chunk5_2 a0 a1 a2 a3 a4 A _ _ _ e c t o)]
    rw [rounds_append body5 (d3h_chunk5_3 a0 a1 a2 a3 a4 A _ _ _ e c t o)]
    rw [rounds_append body5 (d3h_chunk5_4 a0 a1 a2 a3 a4 A _ _ _ e c t o)]
    rw [rounds_append body5 (d3h_chunk5_5 a0 a1 a2 a3 a4 A _ _ _ e c t o)]
    rw [rounds_append body5 (d3h_chunk5_6 a0 a1 a2 a3 a4 A _ _ _ e c t o)]
    rw [rounds_append body5 (d3h_chunk5_7 a0 a1 a2 a3 a4 A _ _ _ e c t o)]
    rfl
  rw [d3h_append _ _ _ _ (d3h_one two)]
  kernel_rfl

end Verif.PointTest3
