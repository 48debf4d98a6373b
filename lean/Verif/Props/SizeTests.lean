import Verif.Proof.SizeTests
/-!
# C115: the test programs of sizes and ranges, and of `D0::PointData`
-/
namespace Verif.Props
open Spec Tec SizeTest

/-- the program ends normally and has appended these texts to the two files -/
def Writes {σ : Type} (l : List (Line σ)) (v : σ) (T : List Said) : Prop :=
  ∀ (now : Nat → Str) (r : Nat → Nat) (o : Nat → Str), ∃ v' o', SizeTest.run now r 0 l (v, o) = .ok () (v', o') ∧
    o' 0 = o 0 ++ outFile now r 0 T ∧ o' 1 = o 1 ++ errFile now r 0 T ∧ ∀ i, 1 < i → o' i = o i

/-- the program runs into undefined behaviour -/
def Undefined {σ : Type} (l : List (Line σ)) (v : σ) (u : UB) : Prop :=
  ∀ (now : Nat → Str) (r : Nat → Nat) (o : Nat → Str), SizeTest.run now r 0 l (v, o) = .ub u

theorem c115_writes {σ : Type} {l : List (Line σ)} {v : σ} {T : List Said} (h : trace l v = .ok T) : Writes l v T :=
  fun now r o => run_ok now r l 0 v o T h

theorem c115_undefined {σ : Type} {l : List (Line σ)} {v : σ} {u : UB} (h : trace l v = .ub u) : Undefined l v u :=
  fun now r o => run_ub now r l 0 v o u h

/-- C115 (sizes): in a checked build the three programs about sizes end normally, and their two files are these, whatever the time and the random numbers. -/
theorem C115_size : Writes (d1size true) () d1sizeSaid ∧ Writes (d2size true) () d2sizeSaid ∧ Writes (d3size true) () d3sizeSaid :=
  ⟨c115_writes (by decide +kernel), c115_writes (by decide +kernel), c115_writes (by decide +kernel)⟩

/-- C115 (ranges): in a checked build the three programs about ranges end normally, and their two files are these. -/
theorem C115_range : Writes (d1range true) d1range0 d1rangeSaid ∧ Writes (d2range true) d2range0 d2rangeSaid ∧ Writes (d3range true) d3range0 d3rangeSaid :=
  ⟨c115_writes (by decide +kernel), c115_writes (by decide +kernel), c115_writes (by decide +kernel)⟩

/-- C115 (one dimension, unchecked): without `_CHECK_POINTDATA_RANGE` the programs of one dimension end normally, too; wrong dimensions are answered as
dimension 0, ranges that do not meet have an overlap of negative size, and indices outside pass. -/
theorem C115_unchecked : Writes (d1size false) () d1sizeUncheckedSaid ∧ Writes (d1range false) d1range0 d1rangeUncheckedSaid :=
  ⟨c115_writes (by decide +kernel), c115_writes (by decide +kernel)⟩

/-- C115 (undefined): without `_CHECK_POINTDATA_RANGE` the programs of two and three dimensions ask for a dimension that does not exist and read outside of
an array. -/
theorem C115_undefined : Undefined (d2size false) () .oob ∧ Undefined (d2range false) d2range0 .oob ∧ Undefined (d3size false) () .oob ∧
    Undefined (d3range false) d3range0 .oob :=
  ⟨c115_undefined (by decide +kernel), c115_undefined (by decide +kernel), c115_undefined (by decide +kernel), c115_undefined (by decide +kernel)⟩

/-- the two first statements of Test_D0_PointData_C -/
theorem c115_d0 (l : List (Line Points)) (tf td : String) :
    trace (.plain (on .x1 (D0.PD.ctor 1) >>= fun _ => text (.ok (D0.PD.disp 1 tf))) :: .plain (on .x2 (D0.PD.ctor 10) >>= fun _ => text (.ok (D0.PD.disp 10 td))) :: l) {} =
    (trace l {}).bind fun T => .ok (.text ("dimension:0  type:[" ++ tf ++ "]  N = 1\n") :: .text ("dimension:0  type:[" ++ td ++ "]  N = 10\n") :: T) := by
  have e1 : (on .x1 (D0.PD.ctor 1) >>= fun _ => text (.ok (D0.PD.disp 1 tf)) : M Points String) {} = .ok (D0.PD.disp 1 tf ++ "\n") {} := rfl
  have e2 : (on .x2 (D0.PD.ctor 10) >>= fun _ => text (.ok (D0.PD.disp 10 td)) : M Points String) {} = .ok (D0.PD.disp 10 td ++ "\n") {} := rfl
  have t1 : D0.PD.disp 1 tf ++ "\n" = "dimension:0  type:[" ++ tf ++ "]  N = 1\n" := by
    show ("dimension:" ++ _ ++ "  type:[" ++ _ ++ "]" ++ "  N = " ++ _) ++ "\n" = _
    simp only [String.append_assoc]
    rfl
  have t2 : D0.PD.disp 10 td ++ "\n" = "dimension:0  type:[" ++ td ++ "]  N = 10\n" := by
    show ("dimension:" ++ _ ++ "  type:[" ++ _ ++ "]" ++ "  N = " ++ _) ++ "\n" = _
    simp only [String.append_assoc]
    rfl
  simp only [trace, e1, e2, t1, t2]
  cases trace l {} <;> rfl

/-- C115 (`D0`): Test_D0_PointData_C prints an element of a constant array that was never assigned (checked build) or an element outside of an array (unchecked
build); without lines 44-45 a checked build ends normally and the two files are these. -/
theorem C115_d0 (tf td : String) : Undefined (d0 true tf td) {} .uninit ∧ Undefined (d0 false tf td) {} .oob ∧ Undefined (d0' false tf td) {} .oob ∧
    Writes (d0' true tf td) {} (d0Said tf td) := by
  refine ⟨c115_undefined ?_, c115_undefined ?_, c115_undefined ?_, c115_writes ?_⟩
  · refine (c115_d0 (d0 true "" "").tail.tail tf td).trans ?_
    rw [show trace (d0 true "" "").tail.tail {} = .ub .uninit by decide +kernel]
    rfl
  · refine (c115_d0 (d0 false "" "").tail.tail tf td).trans ?_
    rw [show trace (d0 false "" "").tail.tail {} = .ub .oob by decide +kernel]
    rfl
  · refine (c115_d0 (d0' false "" "").tail.tail tf td).trans ?_
    rw [show trace (d0' false "" "").tail.tail {} = .ub .oob by decide +kernel]
    rfl
  · refine (c115_d0 (d0' true "" "").tail.tail tf td).trans ?_
    rw [show trace (d0' true "" "").tail.tail {} = .ok (d0Said "" "").tail.tail by decide +kernel]
    rfl

/-- the error file of Test_D1_SizeT, with the same time and number each time -/
example : ∃ v o, SizeTest.run (fun _ => lit "now") (fun _ => 41) 0 (d1size true) ((), fun _ => []) = .ok () (v, o) ∧
    o 1 = lit "[now|0000000041]: DIM is out of range: 1 range:[0,0]\n" ++ lit "[now|0000000041]: DIM is out of range: 1 range:[0,0]\n" ++
      lit "[now|0000000041]: dim[0]: size_in can not be zero when size_n or size_p is non-zero\n" := by
  obtain ⟨v, o, h1, _, h3, _⟩ := C115_size.1 (fun _ => lit "now") (fun _ => 41) fun _ => []
  exact ⟨v, o, h1, h3.trans (by decide +kernel)⟩

end Verif.Props
