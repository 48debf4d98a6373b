import Verif.Model.Puts
/-!
# The loops over the far faces of Test_D3_PointData_H for the arrays with one and two dimensions at half points

Test_D3_PointData_H.cpp:75-149.  Simplifications: those of `Verif.Model.Puts`.
-/
namespace Verif
variable {V : Type}

/-- Test_D3_PointData_H.cpp:75-78, 86-89, 97-100, 112-115, 123-126, 138-141: the assignment at the points of the loop -/
def d3hFillAt (fs : List FL) (f : Nat → List Int → V) : List (Put V) := [⟨[false, false, false], fs, f⟩]

/-- Test_D3_PointData_H.cpp:79-82 (`x1`) -/
def d3hX1 (a : V) : List (Put V) := [⟨[false, false, true], [.C, .C, .P], fun _ _ => a⟩]
/-- Test_D3_PointData_H.cpp:90-93 (`x2`) -/
def d3hX2 (a : V) : List (Put V) := [⟨[false, true, false], [.C, .P, .C], fun _ _ => a⟩]
/-- Test_D3_PointData_H.cpp:116-119 (`x4`) -/
def d3hX4 (a : V) : List (Put V) := [⟨[true, false, false], [.P, .C, .C], fun _ _ => a⟩]

/-- Test_D3_PointData_H.cpp:101-108 (`x3`) -/
def d3hX3 (a b c : V) : List (Put V) :=
  [⟨[false, true, false], [.C, .P, .N], fun _ _ => a⟩, ⟨[false, true, false], [.C, .P, .P], fun _ _ => a⟩,
   ⟨[false, false, true], [.C, .N, .P], fun _ _ => b⟩, ⟨[false, false, true], [.C, .P, .P], fun _ _ => b⟩,
   ⟨[false, true, true], [.C, .P, .P], fun _ _ => c⟩]

/-- Test_D3_PointData_H.cpp:127-134 (`x5`) -/
def d3hX5 (a b c : V) : List (Put V) :=
  [⟨[true, false, false], [.P, .C, .N], fun _ _ => a⟩, ⟨[true, false, false], [.P, .C, .P], fun _ _ => a⟩,
   ⟨[false, false, true], [.N, .C, .P], fun _ _ => b⟩, ⟨[false, false, true], [.P, .C, .P], fun _ _ => b⟩,
   ⟨[true, false, true], [.P, .C, .P], fun _ _ => c⟩]

/-- Test_D3_PointData_H.cpp:142-149 (`x6`) -/
def d3hX6 (a b c : V) : List (Put V) :=
  [⟨[false, true, false], [.N, .P, .C], fun _ _ => a⟩, ⟨[false, true, false], [.P, .P, .C], fun _ _ => a⟩,
   ⟨[true, false, false], [.P, .N, .C], fun _ _ => b⟩, ⟨[true, false, false], [.P, .P, .C], fun _ _ => b⟩,
   ⟨[true, true, false], [.P, .P, .C], fun _ _ => c⟩]

end Verif
