import Verif.Proof.PointTestsH
/-!
# Test_D3_PointData_H: the array x3
-/
namespace Verif.PointTest3
open Spec Fast

/-- the assignments of the second loop -/
def body3 : List Prog := [atLast 3 [1] [.C, .P, .N] 1, atLast 3 [1] [.C, .P, .P] 1, atLast 3 [2] [.C, .N, .P] 2, atLast 3 [2] [.C, .P, .P] 2, atLast 3 [1, 2] [.C, .P, .P] 3]

/-- the first loop -/
def first3 : Prog :=
  over 3 all3 (some (0, 2)) [] [put 3 (fun s => (s.n, [s.i, s.j, s.k])) [.C, .N, .N] fun s => .int ((s.n : Int) * 1000 + s.i * 100 + s.j * 10 + s.k)]

theorem d3h_first3 (a0 a1 a2 : Cell) (A : List (Nat × Cell)) (e : Err) (c : List Err) (t : List String) (o : List (List String)) :
    first3.fexec ample true
      ⟨(0, a0) :: (1, a1) :: (2, a2) :: (3, blank 3) :: A, 27, 0⟩ (after [2, 6, 5] (e :: c) (t :: o)) =
      .done () ⟨(0, a0) :: (1, a1) :: (2, a2) :: (3, half 3 0) :: A, 27, 0⟩ (after [2, 6, 5] (e :: c) (t :: o)) := by kernel_rfl

theorem d3h_chunk3_0 (a0 a1 a2 : Cell) (A : List (Nat × Cell)) (n : Nat) (xs pt : List Int) (e : Err) (c : List Err) (t : List String) (o : List (List String)) :
    rounds body3 (chunk 0) ⟨(0, a0) :: (1, a1) :: (2, a2) :: (3, half 3 0) :: A, 27, 0⟩ { n, xs, R := R4, pt, caught := e :: c, out := t :: o } =
      .done () ⟨(0, a0) :: (1, a1) :: (2, a2) :: (3, half 3 1) :: A, 27, 0⟩ { n := 0, xs := [-1, 6, 5], R := R4, pt := [-1, 6, 5], caught := e :: c, out := t :: o } := by kernel_rfl

theorem d3h_chunk3_1 (a0 a1 a2 : Cell) (A : List (Nat × Cell)) (n : Nat) (xs pt : List Int) (e : Err) (c : List Err) (t : List String) (o : List (List String)) :
    rounds body3 (chunk 1) ⟨(0, a0) :: (1, a1) :: (2, a2) :: (3, half 3 1) :: A, 27, 0⟩ { n, xs, R := R4, pt, caught := e :: c, out := t :: o } =
      .done () ⟨(0, a0) :: (1, a1) :: (2, a2) :: (3, half 3 2) :: A, 27, 0⟩ { n := 0, xs := [0, 6, 5], R := R4, pt := [0, 6, 5], caught := e :: c, out := t :: o } := by kernel_rfl

theorem d3h_chunk3_2 (a0 a1 a2 : Cell) (A : List (Nat × Cell)) (n : Nat) (xs pt : List Int) (e : Err) (c : List Err) (t : List String) (o : List (List String)) :
    rounds body3 (chunk 2) ⟨(0, a0) :: (1, a1) :: (2, a2) :: (3, half 3 2) :: A, 27, 0⟩ { n, xs, R := R4, pt, caught := e :: c, out := t :: o } =
      .done () ⟨(0, a0) :: (1, a1) :: (2, a2) :: (3, half 3 3) :: A, 27, 0⟩ { n := 0, xs := [1, 6, 5], R := R4, pt := [1, 6, 5], caught := e :: c, out := t :: o } := by kernel_rfl

theorem d3h_chunk3_3 (a0 a1 a2 : Cell) (A : List (Nat × Cell)) (n : Nat) (xs pt : List Int) (e : Err) (c : List Err) (t : List String) (o : List (List String)) :
    rounds body3 (chunk 3) ⟨(0, a0) :: (1, a1) :: (2, a2) :: (3, half 3 3) :: A, 27, 0⟩ { n, xs, R := R4, pt, caught := e :: c, out := t :: o } =
      .done () ⟨(0, a0) :: (1, a1) :: (2, a2) :: (3, half 3 4) :: A, 27, 0⟩ { n := 0, xs := [2, 6, 5], R := R4, pt := [2, 6, 5], caught := e :: c, out := t :: o } := by kernel_rfl

theorem d3h_chunk3_4 (a0 a1 a2 : Cell) (A : List (Nat × Cell)) (n : Nat) (xs pt : List Int) (e : Err) (c : List Err) (t : List String) (o : List (List String)) :
    rounds body3 (chunk 4) ⟨(0, a0) :: (1, a1) :: (2, a2) :: (3, half 3 4) :: A, 27, 0⟩ { n, xs, R := R4, pt, caught := e :: c, out := t :: o } =
      .done () ⟨(0, a0) :: (1, a1) :: (2, a2) :: (3, half 3 5) :: A, 27, 0⟩ { n := 1, xs := [-1, 6, 5], R := R4, pt := [-1, 6, 5], caught := e :: c, out := t :: o } := by kernel_rfl

theorem d3h_chunk3_5 (a0 a1 a2 : Cell) (A : List (Nat × Cell)) (n : Nat) (xs pt : List Int) (e : Err) (c : List Err) (t : List String) (o : List (List String)) :
    rounds body3 (chunk 5) ⟨(0, a0) :: (1, a1) :: (2, a2) :: (3, half 3 5) :: A, 27, 0⟩ { n, xs, R := R4, pt, caught := e :: c, out := t :: o } =
      .done () ⟨(0, a0) :: (1, a1) :: (2, a2) :: (3, half 3 6) :: A, 27, 0⟩ { n := 1, xs := [0, 6, 5], R := R4, pt := [0, 6, 5], caught := e :: c, out := t :: o } := by kernel_rfl

theorem d3h_chunk3_6 (a0 a1 a2 : Cell) (A : List (Nat × Cell)) (n : Nat) (xs pt : List Int) (e : Err) (c : List Err) (t : List String) (o : List (List String)) :
    rounds body3 (chunk 6) ⟨(0, a0) :: (1, a1) :: (2, a2) :: (3, half 3 6) :: A, 27, 0⟩ { n, xs, R := R4, pt, caught := e :: c, out := t :: o } =
      .done () ⟨(0, a0) :: (1, a1) :: (2, a2) :: (3, half 3 7) :: A, 27, 0⟩ { n := 1, xs := [1, 6, 5], R := R4, pt := [1, 6, 5], caught := e :: c, out := t :: o } := by kernel_rfl

theorem d3h_chunk3_7 (a0 a1 a2 : Cell) (A : List (Nat × Cell)) (n : Nat) (xs pt : List Int) (e : Err) (c : List Err) (t : List String) (o : List (List String)) :
    rounds body3 (chunk 7) ⟨(0, a0) :: (1, a1) :: (2, a2) :: (3, half 3 7) :: A, 27, 0⟩ { n, xs, R := R4, pt, caught := e :: c, out := t :: o } =
      .done () ⟨(0, a0) :: (1, a1) :: (2, a2) :: (3, half 3 8) :: A, 27, 0⟩ { n := 1, xs := [2, 6, 5], R := R4, pt := [2, 6, 5], caught := e :: c, out := t :: o } := by kernel_rfl

theorem d3h_sec3 (txt : Option Num → String) (a0 a1 a2 : Cell) (A : List (Nat × Cell)) (e : Err) (c : List Err) (t : List String) (o : List (List String)) :
    (block (d3hSec txt 3)).fexec ample true ⟨(0, a0) :: (1, a1) :: (2, a2) :: (3, blank 3) :: A, 27, 0⟩ (after [2, 6, 5] (e :: c) (t :: o)) =
      .done () ⟨(0, a0) :: (1, a1) :: (2, a2) :: (3, full 3) :: A, 27, 0⟩ (after [2, 6, 5] (e :: c) (t :: ((o ++ [["x3:"]]) ++ [both4 txt 3 (c0 3)]))) := by
  have e1 : d3hSec txt 3 = [first3] ++ ([over 3 all3 (some (0, 2)) [] body3] ++ [.set fun s => { s with out := s.out ++ [["x3:"]] }, dataT txt 3]) := rfl
  rw [e1]
  rw [d3h_append _ _ _ _ (d3h_one (d3h_first3 a0 a1 a2 A e c t o))]
  have two : (over 3 all3 (some (0, 2)) [] body3).fexec ample true ⟨(0, a0) :: (1, a1) :: (2, a2) :: (3, half 3 0) :: A, 27, 0⟩ (after [2, 6, 5] (e :: c) (t :: o)) =
      .done () ⟨(0, a0) :: (1, a1) :: (2, a2) :: (3, half 3 8) :: A, 27, 0⟩ (after [2, 6, 5] (e :: c) (t :: o)) := by
    refine over_rounds 3 body3 (by kernel_rfl) ?_
    rw [chunks]
    refine (rounds_append body3 (d3h_chunk3_0 a0 a1 a2 A 1 [2, 6, 5] [2, 6, 5] e c t o)).trans ?_
    rw [rounds_append body3 (d3h_chunk3_1 a0 a1 a2 A _ _ _ e c t o)]
    rw [rounds_append body3 (d3h_chunk3_2 a0 a1 a2 A _ _ _ e c t o)]
    rw [rounds_append body3 (d3h_chunk3_3 a0 a1 a2 A _ _ _ e c t o)]
    rw [rounds_append body3 (d3h_chunk3_4 a0 a1 a2 A _ _ _ e c t o)]
    rw [rounds_append body3 (d3h_chunk3_5 a0 a1 a2 A _ _ _ e c t o)]
    rw [rounds_append body3 (d3h_chunk3_6 a0 a1 a2 A _ _ _ e c t o)]
    rw [rounds_append body3 (d3h_chunk3_7 a0 a1 a2 A _ _ _ e c t o)]
    rfl
  rw [d3h_append _ _ _ _ (d3h_one two)]
  kernel_rfl

end Verif.PointTest3
