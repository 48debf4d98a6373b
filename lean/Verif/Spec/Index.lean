import Verif.Model.D1
import Verif.Model.D2
import Verif.Model.D3
/-!
# Specification vocabulary: index sets

Plain mathematical sets of integer indices, independent of the functions of the
library.
-/
namespace Verif.Spec

/-- The indices a range tag stands for, in a dimension with `n` virtual points in
front, `i` interior points and `p` virtual points behind. -/
def InTag (n i p : Nat) (t : RA) (x : Int) : Prop :=
  match t with
  | .N => -(n : Int) ≤ x ∧ x < 0
  | .IN => 0 ≤ x ∧ x < i
  | .P => (i : Int) ≤ x ∧ x < i + p
  | .ALL => -(n : Int) ≤ x ∧ x < i + p

/-- one of the three parts of a dimension -/
def Part (t : RA) : Prop := t = .N ∨ t = .IN ∨ t = .P

/-- first index of a tag -/
def tagBegin (n i : Nat) : RA → Int
  | .N => -n
  | .IN => 0
  | .P => i
  | .ALL => -n

/-- one past the last index of a tag -/
def tagEnd (i p : Nat) : RA → Int
  | .N => 0
  | .IN => i
  | .P => i + p
  | .ALL => i + p

/-- the half-open integer interval `[b, b+s)` -/
def Seg (b s x : Int) : Prop := b ≤ x ∧ x < b + s

/-- The extent of one dimension: `n` virtual points in front, `i` interior points, `p`
virtual points behind. -/
structure Ext where
  n : Nat
  i : Nat
  p : Nat
  deriving DecidableEq, Repr

/-- all points of the dimension fit into `int` -/
def Ext.Fits (e : Ext) : Prop := e.n + e.i + e.p < 2147483648

/-- the boundary point of the interior on one side -/
def sideBound (e : Ext) : Side → Int
  | .N => 0
  | .P => (e.i : Int) - 1

/-- number of virtual points on one side -/
def sideCount (e : Ext) : Side → Nat
  | .N => e.n
  | .P => e.p

/-- `x` is a virtual point of the given side -/
def Virtual (e : Ext) (fl : Side) (x : Int) : Prop :=
  match fl with
  | .N => -(e.n : Int) ≤ x ∧ x < 0
  | .P => (e.i : Int) ≤ x ∧ x < e.i + e.p

/-- `x` is an interior point -/
def Interior (e : Ext) (x : Int) : Prop := 0 ≤ x ∧ x < e.i

/-- the `k`-th point outwards (`k > 0`) or inwards (`k < 0`) of the boundary -/
def outward (e : Ext) (fl : Side) (k : Int) : Int :=
  match fl with
  | .N => -k
  | .P => (e.i : Int) - 1 + k

end Verif.Spec

namespace Verif

/-- the 1D size object built from the requested extent -/
def D1.sz (e : Spec.Ext) : D1.SizeT := .new e.n e.i e.p
/-- the 2D size object built from the requested extents -/
def D2.sz (e0 e1 : Spec.Ext) : D2.SizeT := .new e0.n e0.i e0.p e1.n e1.i e1.p
/-- the 3D size object built from the requested extents -/
def D3.sz (e0 e1 e2 : Spec.Ext) : D3.SizeT :=
  .new e0.n e0.i e0.p e1.n e1.i e1.p e2.n e2.i e2.p

/-- the points of a 1D range -/
def D1.RangeT.Has (r : D1.RangeT) (x : Int) : Prop := Spec.Seg r.b r.s x
/-- the points of a 2D range -/
def D2.RangeT.Has (r : D2.RangeT) (x y : Int) : Prop := Spec.Seg r.b0 r.s0 x ∧ Spec.Seg r.b1 r.s1 y
/-- the points of a 3D range -/
def D3.RangeT.Has (r : D3.RangeT) (x y z : Int) : Prop :=
  Spec.Seg r.b0 r.s0 x ∧ Spec.Seg r.b1 r.s1 y ∧ Spec.Seg r.b2 r.s2 z

/-- the fields are values of type `int` -/
def D1.RangeT.Int32 (r : D1.RangeT) : Prop := InI32 r.b ∧ InI32 r.s
/-- the fields are values of type `int` -/
def D2.RangeT.Int32 (r : D2.RangeT) : Prop := InI32 r.b0 ∧ InI32 r.s0 ∧ InI32 r.b1 ∧ InI32 r.s1
/-- the fields are values of type `int` -/
def D3.RangeT.Int32 (r : D3.RangeT) : Prop :=
  InI32 r.b0 ∧ InI32 r.s0 ∧ InI32 r.b1 ∧ InI32 r.s1 ∧ InI32 r.b2 ∧ InI32 r.s2
/-- `begin + size` is representable in every dimension -/
def D1.RangeT.EndsFit (r : D1.RangeT) : Prop :=
  InI32 (r.b + r.s)
/-- at least one point in every dimension -/
def D1.RangeT.Pos (r : D1.RangeT) : Prop := 0 < r.s
/-- `begin + size` is representable in every dimension -/
def D2.RangeT.EndsFit (r : D2.RangeT) : Prop :=
  InI32 (r.b0 + r.s0) ∧ InI32 (r.b1 + r.s1)
/-- at least one point in every dimension -/
def D2.RangeT.Pos (r : D2.RangeT) : Prop := 0 < r.s0 ∧ 0 < r.s1
/-- `begin + size` is representable in every dimension -/
def D3.RangeT.EndsFit (r : D3.RangeT) : Prop :=
  InI32 (r.b0 + r.s0) ∧ InI32 (r.b1 + r.s1) ∧ InI32 (r.b2 + r.s2)
/-- at least one point in every dimension -/
def D3.RangeT.Pos (r : D3.RangeT) : Prop := 0 < r.s0 ∧ 0 < r.s1 ∧ 0 < r.s2
end Verif
