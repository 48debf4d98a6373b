import Verif.Spec.Array
/-!
# Specification vocabulary: copying zones

Which points of the target array take a new value in `copy_from`, and from where.
-/
namespace Verif.Spec

/-- One dimension of a copy: the location of the points, target zone `R` and source zone
`r` (begin and size), and the pair of indices `I` (target) and `i` (source) that are laid
on each other. -/
structure CopyDim where
  loc : Loc
  R : Int × Int
  r : Int × Int
  I : Int
  i : Int

namespace CopyDim

/-- the source index laid on target index `y` -/
def image (d : CopyDim) (y : Int) : Int := y + (d.i - d.I)

/-- `y` is a point of the target zone whose image is a point of the source zone -/
def Common (d : CopyDim) (y : Int) : Prop := Seg d.R.1 d.R.2 y ∧ Seg d.r.1 d.r.2 (d.image y)

/-- `y` takes a new value: it is common to both zones or, in a half located dimension,
closes the last common cell -/
def Takes (d : CopyDim) (y : Int) : Prop := d.Common y ∨ (d.loc = .half ∧ d.Common (y - 1))

/-- the zones have a point in common -/
def Meets (d : CopyDim) : Prop := ∃ y, d.Common y

/-- The numbers that `copy_from` computes are representable: both differences of the
anchors, the ends of the translated zones, with room for one more point on either side. -/
def AnchorsFit (d : CopyDim) : Prop :=
  ∀ v ∈ [d.I - d.i, d.i - d.I, d.r.1 + (d.I - d.i), d.r.1 + d.r.2 + (d.I - d.i),
    d.R.1 + (d.i - d.I) - 1, d.R.1 + d.R.2 + (d.i - d.I) + 1, d.R.2 + 2], InI32 v

/-- first index of the common zone -/
def lo (d : CopyDim) : Int := max d.R.1 (d.r.1 + (d.I - d.i))

/-- end of the common zone -/
def hi (d : CopyDim) : Int := min (d.R.1 + d.R.2) (d.r.1 + (d.I - d.i) + d.r.2)

/-- What the library takes for an overlap of the zones.  For zones with at least one
point this is `Meets`; an empty zone strictly inside the other one is accepted too. -/
def Over (d : CopyDim) : Prop := d.R.1 < d.r.1 + (d.I - d.i) + d.r.2 ∧ d.r.1 + (d.I - d.i) < d.R.1 + d.R.2

/-- the indices written when the zones overlap in this sense -/
def Writes (d : CopyDim) (y : Int) : Prop := d.lo ≤ y ∧ y < d.hi + d.loc.toNat

/-- the overlap of written zone and translated target zone, widened by the closing
points, for which copying an array to itself is refused -/
def Clash (d : CopyDim) : Prop :=
  d.R.1 + (d.i - d.I) - d.loc.toNat < d.hi ∧ d.lo < d.R.1 + d.R.2 + (d.i - d.I) + d.loc.toNat

instance (d : CopyDim) : Decidable d.Over := inferInstanceAs (Decidable (_ ∧ _))
instance (d : CopyDim) : Decidable d.Clash := inferInstanceAs (Decidable (_ ∧ _))
instance (d : CopyDim) (y : Int) : Decidable (d.Writes y) := inferInstanceAs (Decidable (_ ∧ _))
instance (d : CopyDim) : Decidable d.AnchorsFit := inferInstanceAs (Decidable (∀ v ∈ [_, _, _, _, _, _, _], _))

end CopyDim

/-- the dimensions of a copy -/
def copyDims : List Loc → List (Int × Int) → List (Int × Int) → List Int → List Int → List CopyDim
  | l :: ls, R :: Rs, r :: rs, I :: Is, i :: is => ⟨l, R, r, I, i⟩ :: copyDims ls Rs rs Is is
  | _, _, _, _, _ => []

/-- the point `ys` takes a new value -/
def Takes : List CopyDim → List Int → Prop
  | [], [] => True
  | d :: ds, y :: ys => d.Takes y ∧ Takes ds ys
  | _, _ => False

/-- the point `ys` is written -/
def Writes : List CopyDim → List Int → Prop
  | [], [] => True
  | d :: ds, y :: ys => d.Writes y ∧ Writes ds ys
  | _, _ => False

instance decWrites : (ds : List CopyDim) → (ys : List Int) → Decidable (Writes ds ys)
  | [], [] => isTrue trivial
  | d :: ds, _ :: ys => have := decWrites ds ys; inferInstanceAs (Decidable (d.Writes _ ∧ Writes ds ys))
  | [], _ :: _ => isFalse id
  | _ :: _, [] => isFalse id

/-- the source point laid on the target point `ys` -/
def image : List CopyDim → List Int → List Int
  | d :: ds, y :: ys => d.image y :: image ds ys
  | _, _ => []

/-- a zone inside the cells of a dimension: `n` virtual, `i` interior, `p` virtual -/
def ZoneIn (e : Ext) (z : Int × Int) : Prop := -(e.n : Int) ≤ z.1 ∧ 0 ≤ z.2 ∧ z.1 + z.2 ≤ e.i + e.p

/-- a zone inside an array -/
def ZonesIn : List Ext → List (Int × Int) → Prop
  | [], [] => True
  | e :: es, z :: zs => ZoneIn e z ∧ ZonesIn es zs
  | _, _ => False

instance (e : Ext) (z : Int × Int) : Decidable (ZoneIn e z) := inferInstanceAs (Decidable (_ ∧ _))

instance decZonesIn : (es : List Ext) → (zs : List (Int × Int)) → Decidable (ZonesIn es zs)
  | [], [] => isTrue trivial
  | e :: es, z :: zs => have := decZonesIn es zs; inferInstanceAs (Decidable (ZoneIn e z ∧ ZonesIn es zs))
  | [], _ :: _ => isFalse id
  | _ :: _, [] => isFalse id

/-- the zones that tags stand for -/
def tagZones : List Ext → List RA → List (Int × Int)
  | e :: es, t :: ts => (tagBegin e.n e.i t, tagEnd e.i e.p t - tagBegin e.n e.i t) :: tagZones es ts
  | _, _ => []

/-- the first or the last index of a zone -/
def edge (z : Int × Int) : Side → Int
  | .N => z.1
  | .P => z.1 + z.2 - 1

/-- the anchors that side flags stand for -/
def edges : List (Int × Int) → List Side → List Int
  | z :: zs, f :: fs => edge z f :: edges zs fs
  | _, _ => []

/-- the point `k` places from the first (`N`) or from the last (`P`) point of a zone -/
def fromEnd (z : Int × Int) : Side → Int → Int
  | .N, k => z.1 + k
  | .P, k => z.1 + z.2 - 1 - k

/-- `k` places from the aligned end there is a point of both zones, or the point that
closes the last common cell of a half located dimension -/
def Places (l : Loc) (R r : Int × Int) : Side → Int → Prop
  | .N, k => 0 ≤ k ∧ k < min R.2 r.2 + l.toNat
  | .P, k => -(l.toNat : Int) ≤ k ∧ k < min R.2 r.2

/-- the same in every dimension: `ps` are the target points, `qs` the source points, `ks`
places from the aligned ends -/
inductive Aligned : List Loc → List (Int × Int) → List (Int × Int) → List Side → List Int → List Int → Prop
  | nil : Aligned [] [] [] [] [] []
  | cons {l : Loc} {R r : Int × Int} {f : Side} {k : Int} {ls Rs rs fs ps qs} : Places l R r f k → Aligned ls Rs rs fs ps qs →
    Aligned (l :: ls) (R :: Rs) (r :: rs) (f :: fs) (fromEnd R f k :: ps) (fromEnd r f k :: qs)

end Verif.Spec
