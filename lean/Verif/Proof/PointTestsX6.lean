import Verif.Proof.PointTestsH
/-!
# Test_D3_PointData_H: the array x6
-/
namespace Verif.PointTest3
open Spec Fast

/-- the assignments of the second loop -/
def body6 : List Prog := [atLast 6 [1] [.N, .P, .C] 1, atLast 6 [1] [.P, .P, .C] 1, atLast 6 [0] [.P, .N, .C] 2, atLast 6 [0] [.P, .P, .C] 2, atLast 6 [0, 1] [.P, .P, .C] 3]

/-- the first loop -/
def first6 : Prog :=
  over 6 all3 (some (0, 2)) [] [put 6 (fun s => (s.n, [s.i, s.j, s.k])) [.N, .N, .C] fun s => .int ((s.n : Int) * 1000 + s.i * 100 + s.j * 10 + s.k)]

theorem d3h_first6 (a0 a1 a2 a3 a4 a5 : Cell) (A : List (Nat × Cell)) (e : Err) (c : List Err) (t : List String) (o : List (List String)) :
    first6.fexec ample true
      ⟨(0, a0) :: (1, a1) :: (2, a2) :: (3, a3) :: (4, a4) :: (5, a5) :: (6, blank 6) :: A, 27, 0⟩ (after [2, 6, 5] (e :: c) (t :: o)) =
      .done () ⟨(0, a0) :: (1, a1) :: (2, a2) :: (3, a3) :: (4, a4) :: (5, a5) :: (6, half 6 0) :: A, 27, 0⟩ (after [2, 6, 5] (e :: c) (t :: o)) := by kernel_rfl

theorem d3h_chunk6_0 (a0 a1 a2 a3 a4 a5 : Cell) (A : List (Nat × Cell)) (n : Nat) (xs pt : List Int) (e : Err) (c : List Err) (t : List String) (o : List (List String)) :
    rounds body6 (chunk 0) ⟨(0, a0) :: (1, a1) :: (2, a2) :: (3, a3) :: (4, a4) :: (5, a5) :: (6, half 6 0) :: A, 27, 0⟩ { n, xs, R := R4, pt, caught := e :: c, out := t :: o } =
      .done () ⟨(0, a0) :: (1, a1) :: (2, a2) :: (3, a3) :: (4, a4) :: (5, a5) :: (6, half 6 1) :: A, 27, 0⟩ { n := 0, xs := [-1, 6, 5], R := R4, pt := [2, 6, 5], caught := e :: c, out := t :: o } := by kernel_rfl

theorem d3h_chunk6_1 (a0 a1 a2 a3 a4 a5 : Cell) (A : List (Nat × Cell)) (n : Nat) (xs pt : List Int) (e : Err) (c : List Err) (t : List String) (o : List (List String)) :
    rounds body6 (chunk 1) ⟨(0, a0) :: (1, a1) :: (2, a2) :: (3, a3) :: (4, a4) :: (5, a5) :: (6, half 6 1) :: A, 27, 0⟩ { n, xs, R := R4, pt, caught := e :: c, out := t :: o } =
      .done () ⟨(0, a0) :: (1, a1) :: (2, a2) :: (3, a3) :: (4, a4) :: (5, a5) :: (6, half 6 2) :: A, 27, 0⟩ { n := 0, xs := [0, 6, 5], R := R4, pt := [2, 6, 5], caught := e :: c, out := t :: o } := by kernel_rfl

theorem d3h_chunk6_2 (a0 a1 a2 a3 a4 a5 : Cell) (A : List (Nat × Cell)) (n : Nat) (xs pt : List Int) (e : Err) (c : List Err) (t : List String) (o : List (List String)) :
    rounds body6 (chunk 2) ⟨(0, a0) :: (1, a1) :: (2, a2) :: (3, a3) :: (4, a4) :: (5, a5) :: (6, half 6 2) :: A, 27, 0⟩ { n, xs, R := R4, pt, caught := e :: c, out := t :: o } =
      .done () ⟨(0, a0) :: (1, a1) :: (2, a2) :: (3, a3) :: (4, a4) :: (5, a5) :: (6, half 6 3) :: A, 27, 0⟩ { n := 0, xs := [1, 6, 5], R := R4, pt := [2, 6, 5], caught := e :: c, out := t :: o } := by kernel_rfl

theorem d3h_chunk6_3 (a0 a1 a2 a3 a4 a5 : Cell) (A : List (Nat × Cell)) (n : Nat) (xs pt : List Int) (e : Err) (c : List Err) (t : List String) (o : List (List String)) :
    rounds body6 (chunk 3) ⟨(0, a0) :: (1, a1) :: (2, a2) :: (3, a3) :: (4, a4) :: (5, a5) :: (6, half 6 3) :: A, 27, 0⟩ { n, xs, R := R4, pt, caught := e :: c, out := t :: o } =
      .done () ⟨(0, a0) :: (1, a1) :: (2, a2) :: (3, a3) :: (4, a4) :: (5, a5) :: (6, half 6 4) :: A, 27, 0⟩ { n := 0, xs := [2, 6, 5], R := R4, pt := [2, 6, 5], caught := e :: c, out := t :: o } := by kernel_rfl

theorem d3h_chunk6_4 (a0 a1 a2 a3 a4 a5 : Cell) (A : List (Nat × Cell)) (n : Nat) (xs pt : List Int) (e : Err) (c : List Err) (t : List String) (o : List (List String)) :
    rounds body6 (chunk 4) ⟨(0, a0) :: (1, a1) :: (2, a2) :: (3, a3) :: (4, a4) :: (5, a5) :: (6, half 6 4) :: A, 27, 0⟩ { n, xs, R := R4, pt, caught := e :: c, out := t :: o } =
      .done () ⟨(0, a0) :: (1, a1) :: (2, a2) :: (3, a3) :: (4, a4) :: (5, a5) :: (6, half 6 5) :: A, 27, 0⟩ { n := 1, xs := [-1, 6, 5], R := R4, pt := [2, 6, 5], caught := e :: c, out := t :: o } := by kernel_rfl

theorem d3h_chunk6_5 (a0 a1 a2 a3 a4 a5 : Cell) (A : List (Nat × Cell)) (n : Nat) (xs pt : List Int) (e : Err) (c : List Err) (t : List String) (o : List (List String)) :
    rounds body6 (chunk 5) ⟨(0, a0) :: (1, a1) :: (2, a2) :: (3, a3) :: (4, a4) :: (5, a5) :: (6, half 6 5) :: A, 27, 0⟩ { n, xs, R := R4, pt, caught := e :: c, out := t :: o } =
      .done () ⟨(0, a0) :: (1, a1) :: (2, a2) :: (3, a3) :: (4, a4) :: (5, a5) :: (6, half 6 6) :: A, 27, 0⟩ { n := 1, xs := [0, 6, 5], R := R4, pt := [2, 6, 5], caught := e :: c, out := t :: o } := by kernel_rfl

theorem d3h_chunk6_6 (a0 a1 a2 a3 a4 a5 : Cell) (A : List (Nat × Cell)) (n : Nat) (xs pt : List Int) (e : Err) (c : List Err) (t : List String) (o : List (List String)) :
    rounds body6 (chunk 6) ⟨(0, a0) :: (1, a1) :: (2, a2) :: (3, a3) :: (4, a4) :: (5, a5) :: (6, half 6 6) :: A, 27, 0⟩ { n, xs, R := R4, pt, caught := e :: c, out := t :: o } =
      .done () ⟨(0, a0) :: (1, a1) :: (2, a2) :: (3, a3) :: (4, a4) :: (5, a5) :: (6, half 6 7) :: A, 27, 0⟩ { n := 1, xs := [1, 6, 5], R := R4, pt := [2, 6, 5], caught := e :: c, out := t :: o } := by kernel_rfl

theorem d3h_chunk6_7 (a0 a1 a2 a3 a4 a5 : Cell) (A : List (Nat × Cell)) (n : Nat) (xs pt : List Int) (e : Err) (c : List Err) (t : List String) (o : List (List String)) :
    rounds body6 (chunk 7) ⟨(0, a0) :: (1, a1) :: (2, a2) :: (3, a3) :: (4, a4) :: (5, a5) :: (6, half 6 7) :: A, 27, 0⟩ { n, xs, R := R4, pt, caught := e :: c, out := t :: o } =
      .done () ⟨(0, a0) :: (1, a1) :: (2, a2) :: (3, a3) :: (4, a4) :: (5, a5) :: (6, half 6 8) :: A, 27, 0⟩ { n := 1, xs := [2, 6, 5], R := R4, pt := [2, 6, 5], caught := e :: c, out := t :: o } := by kernel_rfl

theorem d3h_sec6 (txt : Option Num → String) (a0 a1 a2 a3 a4 a5 : Cell) (A : List (Nat × Cell)) (e : Err) (c : List Err) (t : List String) (o : List (List String)) :
    (block (d3hSec txt 6)).fexec ample true ⟨(0, a0) :: (1, a1) :: (2, a2) :: (3, a3) :: (4, a4) :: (5, a5) :: (6, blank 6) :: A, 27, 0⟩ (after [2, 6, 5] (e :: c) (t :: o)) =
      .done () ⟨(0, a0) :: (1, a1) :: (2, a2) :: (3, a3) :: (4, a4) :: (5, a5) :: (6, full 6) :: A, 27, 0⟩ (after [2, 6, 5] (e :: c) (t :: ((o ++ [["x6:"]]) ++ [both4 txt 6 (c0 6)]))) := by
  have e1 : d3hSec txt 6 = [first6] ++ ([over 6 all3 (some (0, 2)) [] body6] ++ [.set fun s => { s with out := s.out ++ [["x6:"]] }, dataT txt 6]) := rfl
  rw [e1]
  rw [d3h_append _ _ _ _ (d3h_one (d3h_first6 a0 a1 a2 a3 a4 a5 A e c t o))]
  have two : (over 6 all3 (some (0, 2)) [] body6).fexec ample true ⟨(0, a0) :: (1, a1) :: (2, a2) :: (3, a3) :: (4, a4) :: (5, a5) :: (6, half 6 0) :: A, 27, 0⟩ (after [2, 6, 5] (e :: c) (t :: o)) =
      .done () ⟨(0, a0) :: (1, a1) :: (2, a2) :: (3, a3) :: (4, a4) :: (5, a5) :: (6, half 6 8) :: A, 27, 0⟩ (after [2, 6, 5] (e :: c) (t :: o)) := by
    refine over_rounds 6 body6 (by kernel_rfl) ?_
    rw [chunks]
    refine (rounds_append body6 (d3h_chunk6_0 a0 a1 a2 a3 a4 a5 A 1 [2, 6, 5] [2, 6, 5] e c t o)).trans ?_
    rw [rounds_append body6 (d3h_chunk6_1 a0 a1 a2 a3 a4 a5 A _ _ _ e c t o)]
    rw [rounds_append body6 (d3h_chunk6_2 a0 a1 a2 a3 a4 a5 A _ _ _ e c t o)]
    rw [rounds_append body6 (d3h_chunk6_3 a0 a1 a2 a3 a4 a5 A _ _ _ e c t o)]
    rw [rounds_append body6 (d3h_chunk6_4 a0 a1 a2 a3 a4 a5 A _ _ _ e c t o)]
    rw [rounds_append body6 (d3h_chunk6_5 a0 a1 a2 a3 a4 a5 A _ _ _ e c t o)]
    rw [rounds_append body6 (d3h_chunk6_6 a0 a1 a2 a3 a4 a5 A _ _ _ e c t o)]
    rw [rounds_append body6 (d3h_chunk6_7 a0 a1 a2 a3 a4 a5 A _ _ _ e c t o)]
    rfl
  rw [d3h_append _ _ _ _ (d3h_one two)]
  kernel_rfl

end Verif.PointTest3
