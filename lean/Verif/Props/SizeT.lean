import Verif.Proof.Mirror
/-!
# C12 – C15: `SizeT`
-/
namespace Verif.Props
open Spec

/-! ## C12 Range tags partition the domain -/

/-- C12 (1D): `range` never fails on representable sizes; `range(ALL..)` is the disjoint
union of the ranges of the part tags N, IN, P (one per dimension); in each dimension the
parts follow each other in the order N, IN, P without gap, begin at `-n` and end at
`in + p`, and their sizes add up. -/
theorem C12_d1 (chk : Bool) (e0 : Ext) (h0 : e0.Fits) :
    (∀ t0, ∃ r, (D1.sz e0).range chk t0 = .ok r ∧
      ∀ x, r.Has x ↔ InTag e0.n e0.i e0.p t0 x) ∧
    (∀ x, (∃ r, (D1.sz e0).range chk .ALL = .ok r ∧ r.Has x) ↔
      ∃ t0, (Part t0) ∧ ∃ r, (D1.sz e0).range chk t0 = .ok r ∧ r.Has x) ∧
    (∀ x t0 u0 r q, Part t0 → Part u0 →
      (D1.sz e0).range chk t0 = .ok r → (D1.sz e0).range chk u0 = .ok q →
      r.Has x → q.Has x → t0 = u0) ∧
    (∀ d e, [e0][d]? = some e →
      (D1.sz e0).begin_ chk d .N = .ok (-(e.n : Int)) ∧
      (D1.sz e0).end_ chk d .N = (D1.sz e0).begin_ chk d .IN ∧
      (D1.sz e0).end_ chk d .IN = (D1.sz e0).begin_ chk d .P ∧
      (D1.sz e0).end_ chk d .P = .ok ((e.i : Int) + e.p) ∧
      (D1.sz e0).begin_ chk d .ALL = (D1.sz e0).begin_ chk d .N ∧
      (D1.sz e0).end_ chk d .ALL = (D1.sz e0).end_ chk d .P ∧
      (D1.sz e0).size chk d .N = .ok e.n ∧ (D1.sz e0).size chk d .IN = .ok e.i ∧
      (D1.sz e0).size chk d .P = .ok e.p ∧
      (D1.sz e0).size chk d .ALL = .ok (e.n + e.i + e.p)) := by
  have key : ∀ t0, ∃ r, (D1.sz e0).range chk t0 = .ok r ∧
      ∀ x, r.Has x ↔ InTag e0.n e0.i e0.p t0 x := by
    intro t0
    refine ⟨_, D1.sz_range chk e0 h0 t0, fun x => ?_⟩
    simp only [D1.RangeT.Has, seg_tag]
  refine ⟨key, ?_, ?_, ?_⟩
  · intro x
    constructor
    · rintro ⟨r, hr, hx⟩
      obtain ⟨r', hr', hx'⟩ := key .ALL
      rw [hr] at hr'; cases hr'
      rw [hx'] at hx
      have hx0 := hx
      obtain ⟨t0, p0, q0⟩ := tag_split _ _ _ _ hx0
      obtain ⟨r', hr', hx'⟩ := key t0
      exact ⟨t0, p0, r', hr', (hx' x).2 q0⟩
    · rintro ⟨t0, hp, r, hr, hx⟩
      obtain ⟨r', hr', hx'⟩ := key t0
      rw [hr] at hr'; cases hr'
      rw [hx'] at hx
      obtain ⟨r', hr', hx'⟩ := key .ALL
      refine ⟨r', hr', (hx' x).2 ?_⟩
      exact tag_all _ _ _ _ _ hp hx
  · intro x t0 u0 r q hp hq hr hr2 hx hx2
    obtain ⟨r', hr', hx'⟩ := key t0
    rw [hr] at hr'; cases hr'
    obtain ⟨q', hq', hy'⟩ := key u0
    rw [hr2] at hq'; cases hq'
    rw [hx'] at hx; rw [hy'] at hx2
    exact tag_unique _ _ _ _ _ _ hp hq hx hx2
  · intro d e hd
    match d, hd with
    | 0, hd =>
      have hd : e0 = e := by simpa using hd
      subst hd
      have k := fun t => D1.sz_acc_0 chk e0 h0 t
      simp only [(k _).1, (k _).2.1, (k _).2.2.1, tagBegin, tagEnd]
      refine ⟨trivial, trivial, trivial, trivial, trivial, trivial, ?_, ?_, ?_, ?_⟩ <;> congr 1 <;> omega
    | d + 1, hd => simp at hd

example : Ext.Fits ⟨2, 5, 3⟩ := by simp [Ext.Fits]

/-- C12 (2D): `range` never fails on representable sizes; `range(ALL..)` is the disjoint
union of the ranges of the part tags N, IN, P (one per dimension); in each dimension the
parts follow each other in the order N, IN, P without gap, begin at `-n` and end at
`in + p`, and their sizes add up. -/
theorem C12_d2 (chk : Bool) (e0 e1 : Ext) (h0 : e0.Fits) (h1 : e1.Fits) :
    (∀ t0 t1, ∃ r, (D2.sz e0 e1).range chk t0 t1 = .ok r ∧
      ∀ x y, r.Has x y ↔ InTag e0.n e0.i e0.p t0 x ∧ InTag e1.n e1.i e1.p t1 y) ∧
    (∀ x y, (∃ r, (D2.sz e0 e1).range chk .ALL .ALL = .ok r ∧ r.Has x y) ↔
      ∃ t0 t1, (Part t0 ∧ Part t1) ∧ ∃ r, (D2.sz e0 e1).range chk t0 t1 = .ok r ∧ r.Has x y) ∧
    (∀ x y t0 t1 u0 u1 r q, Part t0 ∧ Part t1 → Part u0 ∧ Part u1 →
      (D2.sz e0 e1).range chk t0 t1 = .ok r → (D2.sz e0 e1).range chk u0 u1 = .ok q →
      r.Has x y → q.Has x y → t0 = u0 ∧ t1 = u1) ∧
    (∀ d e, [e0, e1][d]? = some e →
      (D2.sz e0 e1).begin_ chk d .N = .ok (-(e.n : Int)) ∧
      (D2.sz e0 e1).end_ chk d .N = (D2.sz e0 e1).begin_ chk d .IN ∧
      (D2.sz e0 e1).end_ chk d .IN = (D2.sz e0 e1).begin_ chk d .P ∧
      (D2.sz e0 e1).end_ chk d .P = .ok ((e.i : Int) + e.p) ∧
      (D2.sz e0 e1).begin_ chk d .ALL = (D2.sz e0 e1).begin_ chk d .N ∧
      (D2.sz e0 e1).end_ chk d .ALL = (D2.sz e0 e1).end_ chk d .P ∧
      (D2.sz e0 e1).size chk d .N = .ok e.n ∧ (D2.sz e0 e1).size chk d .IN = .ok e.i ∧
      (D2.sz e0 e1).size chk d .P = .ok e.p ∧
      (D2.sz e0 e1).size chk d .ALL = .ok (e.n + e.i + e.p)) := by
  have key : ∀ t0 t1, ∃ r, (D2.sz e0 e1).range chk t0 t1 = .ok r ∧
      ∀ x y, r.Has x y ↔ InTag e0.n e0.i e0.p t0 x ∧ InTag e1.n e1.i e1.p t1 y := by
    intro t0 t1
    refine ⟨_, D2.sz_range chk e0 e1 h0 h1 t0 t1, fun x y => ?_⟩
    simp only [D2.RangeT.Has, seg_tag]
  refine ⟨key, ?_, ?_, ?_⟩
  · intro x y
    constructor
    · rintro ⟨r, hr, hx⟩
      obtain ⟨r', hr', hx'⟩ := key .ALL .ALL
      rw [hr] at hr'; cases hr'
      rw [hx'] at hx
      obtain ⟨hx0, hx1⟩ := hx
      obtain ⟨t0, p0, q0⟩ := tag_split _ _ _ _ hx0
      obtain ⟨t1, p1, q1⟩ := tag_split _ _ _ _ hx1
      obtain ⟨r', hr', hx'⟩ := key t0 t1
      exact ⟨t0, t1, ⟨p0, p1⟩, r', hr', (hx' x y).2 ⟨q0, q1⟩⟩
    · rintro ⟨t0, t1, hp, r, hr, hx⟩
      obtain ⟨r', hr', hx'⟩ := key t0 t1
      rw [hr] at hr'; cases hr'
      rw [hx'] at hx
      obtain ⟨r', hr', hx'⟩ := key .ALL .ALL
      refine ⟨r', hr', (hx' x y).2 ?_⟩
      exact ⟨tag_all _ _ _ _ _ hp.1 hx.1, tag_all _ _ _ _ _ hp.2 hx.2⟩
  · intro x y t0 t1 u0 u1 r q hp hq hr hr2 hx hx2
    obtain ⟨r', hr', hx'⟩ := key t0 t1
    rw [hr] at hr'; cases hr'
    obtain ⟨q', hq', hy'⟩ := key u0 u1
    rw [hr2] at hq'; cases hq'
    rw [hx'] at hx; rw [hy'] at hx2
    exact ⟨tag_unique _ _ _ _ _ _ hp.1 hq.1 hx.1 hx2.1, tag_unique _ _ _ _ _ _ hp.2 hq.2 hx.2 hx2.2⟩
  · intro d e hd
    match d, hd with
    | 0, hd =>
      have hd : e0 = e := by simpa using hd
      subst hd
      have k := fun t => D2.sz_acc_0 chk e0 e1 h0 t
      simp only [(k _).1, (k _).2.1, (k _).2.2.1, tagBegin, tagEnd]
      refine ⟨trivial, trivial, trivial, trivial, trivial, trivial, ?_, ?_, ?_, ?_⟩ <;> congr 1 <;> omega
    | 1, hd =>
      have hd : e1 = e := by simpa using hd
      subst hd
      have k := fun t => D2.sz_acc_1 chk e0 e1 h1 t
      simp only [(k _).1, (k _).2.1, (k _).2.2.1, tagBegin, tagEnd]
      refine ⟨trivial, trivial, trivial, trivial, trivial, trivial, ?_, ?_, ?_, ?_⟩ <;> congr 1 <;> omega
    | d + 2, hd => simp at hd

example : Ext.Fits ⟨2, 5, 3⟩ ∧ Ext.Fits ⟨0, 4, 1⟩ := by simp [Ext.Fits]

/-- C12 (3D): `range` never fails on representable sizes; `range(ALL..)` is the disjoint
union of the ranges of the part tags N, IN, P (one per dimension); in each dimension the
parts follow each other in the order N, IN, P without gap, begin at `-n` and end at
`in + p`, and their sizes add up. -/
theorem C12_d3 (chk : Bool) (e0 e1 e2 : Ext) (h0 : e0.Fits) (h1 : e1.Fits) (h2 : e2.Fits) :
    (∀ t0 t1 t2, ∃ r, (D3.sz e0 e1 e2).range chk t0 t1 t2 = .ok r ∧
      ∀ x y z, r.Has x y z ↔ InTag e0.n e0.i e0.p t0 x ∧ InTag e1.n e1.i e1.p t1 y ∧ InTag e2.n e2.i e2.p t2 z) ∧
    (∀ x y z, (∃ r, (D3.sz e0 e1 e2).range chk .ALL .ALL .ALL = .ok r ∧ r.Has x y z) ↔
      ∃ t0 t1 t2, (Part t0 ∧ Part t1 ∧ Part t2) ∧ ∃ r, (D3.sz e0 e1 e2).range chk t0 t1 t2 = .ok r ∧ r.Has x y z) ∧
    (∀ x y z t0 t1 t2 u0 u1 u2 r q, Part t0 ∧ Part t1 ∧ Part t2 → Part u0 ∧ Part u1 ∧ Part u2 →
      (D3.sz e0 e1 e2).range chk t0 t1 t2 = .ok r → (D3.sz e0 e1 e2).range chk u0 u1 u2 = .ok q →
      r.Has x y z → q.Has x y z → t0 = u0 ∧ t1 = u1 ∧ t2 = u2) ∧
    (∀ d e, [e0, e1, e2][d]? = some e →
      (D3.sz e0 e1 e2).begin_ chk d .N = .ok (-(e.n : Int)) ∧
      (D3.sz e0 e1 e2).end_ chk d .N = (D3.sz e0 e1 e2).begin_ chk d .IN ∧
      (D3.sz e0 e1 e2).end_ chk d .IN = (D3.sz e0 e1 e2).begin_ chk d .P ∧
      (D3.sz e0 e1 e2).end_ chk d .P = .ok ((e.i : Int) + e.p) ∧
      (D3.sz e0 e1 e2).begin_ chk d .ALL = (D3.sz e0 e1 e2).begin_ chk d .N ∧
      (D3.sz e0 e1 e2).end_ chk d .ALL = (D3.sz e0 e1 e2).end_ chk d .P ∧
      (D3.sz e0 e1 e2).size chk d .N = .ok e.n ∧ (D3.sz e0 e1 e2).size chk d .IN = .ok e.i ∧
      (D3.sz e0 e1 e2).size chk d .P = .ok e.p ∧
      (D3.sz e0 e1 e2).size chk d .ALL = .ok (e.n + e.i + e.p)) := by
  have key : ∀ t0 t1 t2, ∃ r, (D3.sz e0 e1 e2).range chk t0 t1 t2 = .ok r ∧
      ∀ x y z, r.Has x y z ↔ InTag e0.n e0.i e0.p t0 x ∧ InTag e1.n e1.i e1.p t1 y ∧ InTag e2.n e2.i e2.p t2 z := by
    intro t0 t1 t2
    refine ⟨_, D3.sz_range chk e0 e1 e2 h0 h1 h2 t0 t1 t2, fun x y z => ?_⟩
    simp only [D3.RangeT.Has, seg_tag]
  refine ⟨key, ?_, ?_, ?_⟩
  · intro x y z
    constructor
    · rintro ⟨r, hr, hx⟩
      obtain ⟨r', hr', hx'⟩ := key .ALL .ALL .ALL
      rw [hr] at hr'; cases hr'
      rw [hx'] at hx
      obtain ⟨hx0, hx1, hx2⟩ := hx
      obtain ⟨t0, p0, q0⟩ := tag_split _ _ _ _ hx0
      obtain ⟨t1, p1, q1⟩ := tag_split _ _ _ _ hx1
      obtain ⟨t2, p2, q2⟩ := tag_split _ _ _ _ hx2
      obtain ⟨r', hr', hx'⟩ := key t0 t1 t2
      exact ⟨t0, t1, t2, ⟨p0, p1, p2⟩, r', hr', (hx' x y z).2 ⟨q0, q1, q2⟩⟩
    · rintro ⟨t0, t1, t2, hp, r, hr, hx⟩
      obtain ⟨r', hr', hx'⟩ := key t0 t1 t2
      rw [hr] at hr'; cases hr'
      rw [hx'] at hx
      obtain ⟨r', hr', hx'⟩ := key .ALL .ALL .ALL
      refine ⟨r', hr', (hx' x y z).2 ?_⟩
      exact ⟨tag_all _ _ _ _ _ hp.1 hx.1, tag_all _ _ _ _ _ hp.2.1 hx.2.1, tag_all _ _ _ _ _ hp.2.2 hx.2.2⟩
  · intro x y z t0 t1 t2 u0 u1 u2 r q hp hq hr hr2 hx hx2
    obtain ⟨r', hr', hx'⟩ := key t0 t1 t2
    rw [hr] at hr'; cases hr'
    obtain ⟨q', hq', hy'⟩ := key u0 u1 u2
    rw [hr2] at hq'; cases hq'
    rw [hx'] at hx; rw [hy'] at hx2
    exact ⟨tag_unique _ _ _ _ _ _ hp.1 hq.1 hx.1 hx2.1, tag_unique _ _ _ _ _ _ hp.2.1 hq.2.1 hx.2.1 hx2.2.1,
      tag_unique _ _ _ _ _ _ hp.2.2 hq.2.2 hx.2.2 hx2.2.2⟩
  · intro d e hd
    match d, hd with
    | 0, hd =>
      have hd : e0 = e := by simpa using hd
      subst hd
      have k := fun t => D3.sz_acc_0 chk e0 e1 e2 h0 t
      simp only [(k _).1, (k _).2.1, (k _).2.2.1, tagBegin, tagEnd]
      refine ⟨trivial, trivial, trivial, trivial, trivial, trivial, ?_, ?_, ?_, ?_⟩ <;> congr 1 <;> omega
    | 1, hd =>
      have hd : e1 = e := by simpa using hd
      subst hd
      have k := fun t => D3.sz_acc_1 chk e0 e1 e2 h1 t
      simp only [(k _).1, (k _).2.1, (k _).2.2.1, tagBegin, tagEnd]
      refine ⟨trivial, trivial, trivial, trivial, trivial, trivial, ?_, ?_, ?_, ?_⟩ <;> congr 1 <;> omega
    | 2, hd =>
      have hd : e2 = e := by simpa using hd
      subst hd
      have k := fun t => D3.sz_acc_2 chk e0 e1 e2 h2 t
      simp only [(k _).1, (k _).2.1, (k _).2.2.1, tagBegin, tagEnd]
      refine ⟨trivial, trivial, trivial, trivial, trivial, trivial, ?_, ?_, ?_, ?_⟩ <;> congr 1 <;> omega
    | d + 3, hd => simp at hd

example : Ext.Fits ⟨2, 5, 3⟩ ∧ Ext.Fits ⟨0, 4, 1⟩ ∧ Ext.Fits ⟨1, 1, 1⟩ := by simp [Ext.Fits]

/-! ## C13 SizeT accessors are consistent -/

/-- C13 (1D): for every valid dimension and tag the accessors return, with
`size = end - begin`, `last = end - 1`, `bound(N) = begin`, `bound(P) = last`; the range of
any tag combination reports the same numbers in every dimension. -/
theorem C13_d1 (chk : Bool) (e0 : Ext) (h0 : e0.Fits) (d : Nat) (hd : d < 1) :
    (∀ t, ∃ b e : Int, ∃ z : Nat,
      (D1.sz e0).begin_ chk d t = .ok b ∧ (D1.sz e0).end_ chk d t = .ok e ∧
      (D1.sz e0).size chk d t = .ok z ∧ (z : Int) = e - b ∧
      (D1.sz e0).last chk d t = .ok (e - 1) ∧
      (D1.sz e0).bound chk d t .N = .ok b ∧ (D1.sz e0).bound chk d t .P = .ok (e - 1)) ∧
    (∀ t0 t, [t0][d]? = some t → ∃ r, (D1.sz e0).range chk t0 = .ok r ∧
      r.begin_ chk d = (D1.sz e0).begin_ chk d t ∧ r.end_ chk d = (D1.sz e0).end_ chk d t ∧
      r.last chk d = (D1.sz e0).last chk d t ∧
      (∃ z : Nat, (D1.sz e0).size chk d t = .ok z ∧ r.size chk d = .ok (z : Int)) ∧
      ∀ fl, r.bound chk d fl = (D1.sz e0).bound chk d t fl) := by
  match d, hd with
  | 0, _ =>
    have k := fun t => D1.sz_acc_0 chk e0 h0 t
    have le := fun t => tag_le e0.n e0.i e0.p t
    refine ⟨fun t => ⟨_, _, _, (k t).1, (k t).2.1, (k t).2.2.1, ?_, (k t).2.2.2, (k t).1, (k t).2.2.2⟩, ?_⟩
    · have := le t; omega
    · intro t0 t ht
      have ht : t0 = t := by simpa using ht
      subst ht
      refine ⟨_, D1.sz_range chk e0 h0 t0, ?_⟩
      have le := le t0
      have fe := tag_end_fits e0.n e0.i e0.p t0 h0
      have q1 : tagBegin e0.n e0.i t0 + (tagEnd e0.i e0.p t0 - tagBegin e0.n e0.i t0)
          = tagEnd e0.i e0.p t0 := by omega
      have q2 : (((tagEnd e0.i e0.p t0 - tagBegin e0.n e0.i t0).toNat : Nat) : Int)
          = tagEnd e0.i e0.p t0 - tagBegin e0.n e0.i t0 := Int.toNat_of_nonneg (by omega)
      have fl1 : InI32 (tagEnd e0.i e0.p t0 - 1) :=
        tag_last_fits e0.n e0.i e0.p t0 h0
      refine ⟨?_, ?_, ?_, ⟨_, (k t0).2.2.1, ?_⟩, ?_⟩
      · simp [(k t0).1]
      · simp [(k t0).2.1, q1, fe]
      · simp [(k t0).2.2.2, q1, fe, fl1]
      · simp [q2]
      · intro fl
        cases fl
        · simp [D1.RangeT.bound, D1.SizeT.bound, (k t0).1]
        · simp [D1.RangeT.bound, D1.SizeT.bound, (k t0).2.2.2, q1, fe, fl1]
  | d + 1, h => exact absurd h (by omega)

example : Ext.Fits ⟨2, 5, 3⟩ := by simp [Ext.Fits]

/-- C13 (2D): for every valid dimension and tag the accessors return, with
`size = end - begin`, `last = end - 1`, `bound(N) = begin`, `bound(P) = last`; the range of
any tag combination reports the same numbers in every dimension. -/
theorem C13_d2 (chk : Bool) (e0 e1 : Ext) (h0 : e0.Fits) (h1 : e1.Fits) (d : Nat) (hd : d < 2) :
    (∀ t, ∃ b e : Int, ∃ z : Nat,
      (D2.sz e0 e1).begin_ chk d t = .ok b ∧ (D2.sz e0 e1).end_ chk d t = .ok e ∧
      (D2.sz e0 e1).size chk d t = .ok z ∧ (z : Int) = e - b ∧
      (D2.sz e0 e1).last chk d t = .ok (e - 1) ∧
      (D2.sz e0 e1).bound chk d t .N = .ok b ∧ (D2.sz e0 e1).bound chk d t .P = .ok (e - 1)) ∧
    (∀ t0 t1 t, [t0, t1][d]? = some t → ∃ r, (D2.sz e0 e1).range chk t0 t1 = .ok r ∧
      r.begin_ chk d = (D2.sz e0 e1).begin_ chk d t ∧ r.end_ chk d = (D2.sz e0 e1).end_ chk d t ∧
      r.last chk d = (D2.sz e0 e1).last chk d t ∧
      (∃ z : Nat, (D2.sz e0 e1).size chk d t = .ok z ∧ r.size chk d = .ok (z : Int)) ∧
      ∀ fl, r.bound chk d fl = (D2.sz e0 e1).bound chk d t fl) := by
  match d, hd with
  | 0, _ =>
    have k := fun t => D2.sz_acc_0 chk e0 e1 h0 t
    have le := fun t => tag_le e0.n e0.i e0.p t
    refine ⟨fun t => ⟨_, _, _, (k t).1, (k t).2.1, (k t).2.2.1, ?_, (k t).2.2.2, (k t).1, (k t).2.2.2⟩, ?_⟩
    · have := le t; omega
    · intro t0 t1 t ht
      have ht : t0 = t := by simpa using ht
      subst ht
      refine ⟨_, D2.sz_range chk e0 e1 h0 h1 t0 t1, ?_⟩
      have le := le t0
      have fe := tag_end_fits e0.n e0.i e0.p t0 h0
      have q1 : tagBegin e0.n e0.i t0 + (tagEnd e0.i e0.p t0 - tagBegin e0.n e0.i t0)
          = tagEnd e0.i e0.p t0 := by omega
      have q2 : (((tagEnd e0.i e0.p t0 - tagBegin e0.n e0.i t0).toNat : Nat) : Int)
          = tagEnd e0.i e0.p t0 - tagBegin e0.n e0.i t0 := Int.toNat_of_nonneg (by omega)
      have fl1 : InI32 (tagEnd e0.i e0.p t0 - 1) :=
        tag_last_fits e0.n e0.i e0.p t0 h0
      refine ⟨?_, ?_, ?_, ⟨_, (k t0).2.2.1, ?_⟩, ?_⟩
      · simp [(k t0).1]
      · simp [(k t0).2.1, q1, fe]
      · simp [(k t0).2.2.2, q1, fe, fl1]
      · simp [q2]
      · intro fl
        cases fl
        · simp [D2.RangeT.bound, D2.SizeT.bound, (k t0).1]
        · simp [D2.RangeT.bound, D2.SizeT.bound, (k t0).2.2.2, q1, fe, fl1]
  | 1, _ =>
    have k := fun t => D2.sz_acc_1 chk e0 e1 h1 t
    have le := fun t => tag_le e1.n e1.i e1.p t
    refine ⟨fun t => ⟨_, _, _, (k t).1, (k t).2.1, (k t).2.2.1, ?_, (k t).2.2.2, (k t).1, (k t).2.2.2⟩, ?_⟩
    · have := le t; omega
    · intro t0 t1 t ht
      have ht : t1 = t := by simpa using ht
      subst ht
      refine ⟨_, D2.sz_range chk e0 e1 h0 h1 t0 t1, ?_⟩
      have le := le t1
      have fe := tag_end_fits e1.n e1.i e1.p t1 h1
      have q1 : tagBegin e1.n e1.i t1 + (tagEnd e1.i e1.p t1 - tagBegin e1.n e1.i t1)
          = tagEnd e1.i e1.p t1 := by omega
      have q2 : (((tagEnd e1.i e1.p t1 - tagBegin e1.n e1.i t1).toNat : Nat) : Int)
          = tagEnd e1.i e1.p t1 - tagBegin e1.n e1.i t1 := Int.toNat_of_nonneg (by omega)
      have fl1 : InI32 (tagEnd e1.i e1.p t1 - 1) :=
        tag_last_fits e1.n e1.i e1.p t1 h1
      refine ⟨?_, ?_, ?_, ⟨_, (k t1).2.2.1, ?_⟩, ?_⟩
      · simp [(k t1).1]
      · simp [(k t1).2.1, q1, fe]
      · simp [(k t1).2.2.2, q1, fe, fl1]
      · simp [q2]
      · intro fl
        cases fl
        · simp [D2.RangeT.bound, D2.SizeT.bound, (k t1).1]
        · simp [D2.RangeT.bound, D2.SizeT.bound, (k t1).2.2.2, q1, fe, fl1]
  | d + 2, h => exact absurd h (by omega)

example : Ext.Fits ⟨2, 5, 3⟩ ∧ Ext.Fits ⟨0, 4, 1⟩ := by simp [Ext.Fits]

/-- C13 (3D): for every valid dimension and tag the accessors return, with
`size = end - begin`, `last = end - 1`, `bound(N) = begin`, `bound(P) = last`; the range of
any tag combination reports the same numbers in every dimension. -/
theorem C13_d3 (chk : Bool) (e0 e1 e2 : Ext) (h0 : e0.Fits) (h1 : e1.Fits) (h2 : e2.Fits) (d : Nat) (hd : d < 3) :
    (∀ t, ∃ b e : Int, ∃ z : Nat,
      (D3.sz e0 e1 e2).begin_ chk d t = .ok b ∧ (D3.sz e0 e1 e2).end_ chk d t = .ok e ∧
      (D3.sz e0 e1 e2).size chk d t = .ok z ∧ (z : Int) = e - b ∧
      (D3.sz e0 e1 e2).last chk d t = .ok (e - 1) ∧
      (D3.sz e0 e1 e2).bound chk d t .N = .ok b ∧ (D3.sz e0 e1 e2).bound chk d t .P = .ok (e - 1)) ∧
    (∀ t0 t1 t2 t, [t0, t1, t2][d]? = some t → ∃ r, (D3.sz e0 e1 e2).range chk t0 t1 t2 = .ok r ∧
      r.begin_ chk d = (D3.sz e0 e1 e2).begin_ chk d t ∧ r.end_ chk d = (D3.sz e0 e1 e2).end_ chk d t ∧
      r.last chk d = (D3.sz e0 e1 e2).last chk d t ∧
      (∃ z : Nat, (D3.sz e0 e1 e2).size chk d t = .ok z ∧ r.size chk d = .ok (z : Int)) ∧
      ∀ fl, r.bound chk d fl = (D3.sz e0 e1 e2).bound chk d t fl) := by
  match d, hd with
  | 0, _ =>
    have k := fun t => D3.sz_acc_0 chk e0 e1 e2 h0 t
    have le := fun t => tag_le e0.n e0.i e0.p t
    refine ⟨fun t => ⟨_, _, _, (k t).1, (k t).2.1, (k t).2.2.1, ?_, (k t).2.2.2, (k t).1, (k t).2.2.2⟩, ?_⟩
    · have := le t; omega
    · intro t0 t1 t2 t ht
      have ht : t0 = t := by simpa using ht
      subst ht
      refine ⟨_, D3.sz_range chk e0 e1 e2 h0 h1 h2 t0 t1 t2, ?_⟩
      have le := le t0
      have fe := tag_end_fits e0.n e0.i e0.p t0 h0
      have q1 : tagBegin e0.n e0.i t0 + (tagEnd e0.i e0.p t0 - tagBegin e0.n e0.i t0)
          = tagEnd e0.i e0.p t0 := by omega
      have q2 : (((tagEnd e0.i e0.p t0 - tagBegin e0.n e0.i t0).toNat : Nat) : Int)
          = tagEnd e0.i e0.p t0 - tagBegin e0.n e0.i t0 := Int.toNat_of_nonneg (by omega)
      have fl1 : InI32 (tagEnd e0.i e0.p t0 - 1) :=
        tag_last_fits e0.n e0.i e0.p t0 h0
      refine ⟨?_, ?_, ?_, ⟨_, (k t0).2.2.1, ?_⟩, ?_⟩
      · simp [(k t0).1]
      · simp [(k t0).2.1, q1, fe]
      · simp [(k t0).2.2.2, q1, fe, fl1]
      · simp [q2]
      · intro fl
        cases fl
        · simp [D3.RangeT.bound, D3.SizeT.bound, (k t0).1]
        · simp [D3.RangeT.bound, D3.SizeT.bound, (k t0).2.2.2, q1, fe, fl1]
  | 1, _ =>
    have k := fun t => D3.sz_acc_1 chk e0 e1 e2 h1 t
    have le := fun t => tag_le e1.n e1.i e1.p t
    refine ⟨fun t => ⟨_, _, _, (k t).1, (k t).2.1, (k t).2.2.1, ?_, (k t).2.2.2, (k t).1, (k t).2.2.2⟩, ?_⟩
    · have := le t; omega
    · intro t0 t1 t2 t ht
      have ht : t1 = t := by simpa using ht
      subst ht
      refine ⟨_, D3.sz_range chk e0 e1 e2 h0 h1 h2 t0 t1 t2, ?_⟩
      have le := le t1
      have fe := tag_end_fits e1.n e1.i e1.p t1 h1
      have q1 : tagBegin e1.n e1.i t1 + (tagEnd e1.i e1.p t1 - tagBegin e1.n e1.i t1)
          = tagEnd e1.i e1.p t1 := by omega
      have q2 : (((tagEnd e1.i e1.p t1 - tagBegin e1.n e1.i t1).toNat : Nat) : Int)
          = tagEnd e1.i e1.p t1 - tagBegin e1.n e1.i t1 := Int.toNat_of_nonneg (by omega)
      have fl1 : InI32 (tagEnd e1.i e1.p t1 - 1) :=
        tag_last_fits e1.n e1.i e1.p t1 h1
      refine ⟨?_, ?_, ?_, ⟨_, (k t1).2.2.1, ?_⟩, ?_⟩
      · simp [(k t1).1]
      · simp [(k t1).2.1, q1, fe]
      · simp [(k t1).2.2.2, q1, fe, fl1]
      · simp [q2]
      · intro fl
        cases fl
        · simp [D3.RangeT.bound, D3.SizeT.bound, (k t1).1]
        · simp [D3.RangeT.bound, D3.SizeT.bound, (k t1).2.2.2, q1, fe, fl1]
  | 2, _ =>
    have k := fun t => D3.sz_acc_2 chk e0 e1 e2 h2 t
    have le := fun t => tag_le e2.n e2.i e2.p t
    refine ⟨fun t => ⟨_, _, _, (k t).1, (k t).2.1, (k t).2.2.1, ?_, (k t).2.2.2, (k t).1, (k t).2.2.2⟩, ?_⟩
    · have := le t; omega
    · intro t0 t1 t2 t ht
      have ht : t2 = t := by simpa using ht
      subst ht
      refine ⟨_, D3.sz_range chk e0 e1 e2 h0 h1 h2 t0 t1 t2, ?_⟩
      have le := le t2
      have fe := tag_end_fits e2.n e2.i e2.p t2 h2
      have q1 : tagBegin e2.n e2.i t2 + (tagEnd e2.i e2.p t2 - tagBegin e2.n e2.i t2)
          = tagEnd e2.i e2.p t2 := by omega
      have q2 : (((tagEnd e2.i e2.p t2 - tagBegin e2.n e2.i t2).toNat : Nat) : Int)
          = tagEnd e2.i e2.p t2 - tagBegin e2.n e2.i t2 := Int.toNat_of_nonneg (by omega)
      have fl1 : InI32 (tagEnd e2.i e2.p t2 - 1) :=
        tag_last_fits e2.n e2.i e2.p t2 h2
      refine ⟨?_, ?_, ?_, ⟨_, (k t2).2.2.1, ?_⟩, ?_⟩
      · simp [(k t2).1]
      · simp [(k t2).2.1, q1, fe]
      · simp [(k t2).2.2.2, q1, fe, fl1]
      · simp [q2]
      · intro fl
        cases fl
        · simp [D3.RangeT.bound, D3.SizeT.bound, (k t2).1]
        · simp [D3.RangeT.bound, D3.SizeT.bound, (k t2).2.2.2, q1, fe, fl1]
  | d + 3, h => exact absurd h (by omega)

example : Ext.Fits ⟨2, 5, 3⟩ ∧ Ext.Fits ⟨0, 4, 1⟩ ∧ Ext.Fits ⟨1, 1, 1⟩ := by simp [Ext.Fits]


/-! ## C14 Mirror index -/

/-- C14 (1D): in every dimension and on both sides, `mirror` is an involution; it fixes
exactly the boundary point; it swaps the `k`-th point outwards with the `k`-th point inwards;
and it maps all virtual points of the side into the interior iff there are fewer virtual than
interior points.  `2 * extent` must be representable (the code doubles the boundary index). -/
theorem C14_d1 (chk : Bool) (e0 : Ext) (h0 : e0.Fits) (d : Nat) (e : Ext)
    (hd : [e0][d]? = some e) (hbig : 2 * (e.n + e.i + e.p) < 2147483648) (fl : Side) :
    (∀ ii jj, InI32 ii → (D1.sz e0).mirror chk d fl ii = .ok jj →
      (D1.sz e0).mirror chk d fl jj = .ok ii) ∧
    (∀ ii, (D1.sz e0).mirror chk d fl ii = .ok ii ↔ ii = sideBound e fl) ∧
    (∀ k : Int, -(e.n + e.i + e.p : Int) ≤ k → k ≤ e.n + e.i + e.p →
      (D1.sz e0).mirror chk d fl (outward e fl k) = .ok (outward e fl (-k))) ∧
    (0 < e.i →
      ((∀ ii, Virtual e fl ii → ∃ jj, (D1.sz e0).mirror chk d fl ii = .ok jj ∧ Interior e jj) ↔
        sideCount e fl < e.i)) := by
  match d, hd with
  | 0, hd =>
    have hd : e0 = e := by simpa using hd
    subst hd
    simp only [D1.sz_mirror_0 chk e0 h0]
    exact mirror_facts e0 hbig fl
  | d + 1, hd => simp at hd

example : Ext.Fits ⟨2, 5, 3⟩ ∧ 2 * (2 + 5 + 3) < 2147483648 := by simp [Ext.Fits]
example : (D1.sz ⟨2, 5, 3⟩).mirror true 0 .P 5 = .ok 3 := by decide

/-- C14 (2D): in every dimension and on both sides, `mirror` is an involution; it fixes
exactly the boundary point; it swaps the `k`-th point outwards with the `k`-th point inwards;
and it maps all virtual points of the side into the interior iff there are fewer virtual than
interior points.  `2 * extent` must be representable (the code doubles the boundary index). -/
theorem C14_d2 (chk : Bool) (e0 e1 : Ext) (h0 : e0.Fits) (h1 : e1.Fits) (d : Nat) (e : Ext)
    (hd : [e0, e1][d]? = some e) (hbig : 2 * (e.n + e.i + e.p) < 2147483648) (fl : Side) :
    (∀ ii jj, InI32 ii → (D2.sz e0 e1).mirror chk d fl ii = .ok jj →
      (D2.sz e0 e1).mirror chk d fl jj = .ok ii) ∧
    (∀ ii, (D2.sz e0 e1).mirror chk d fl ii = .ok ii ↔ ii = sideBound e fl) ∧
    (∀ k : Int, -(e.n + e.i + e.p : Int) ≤ k → k ≤ e.n + e.i + e.p →
      (D2.sz e0 e1).mirror chk d fl (outward e fl k) = .ok (outward e fl (-k))) ∧
    (0 < e.i →
      ((∀ ii, Virtual e fl ii → ∃ jj, (D2.sz e0 e1).mirror chk d fl ii = .ok jj ∧ Interior e jj) ↔
        sideCount e fl < e.i)) := by
  match d, hd with
  | 0, hd =>
    have hd : e0 = e := by simpa using hd
    subst hd
    simp only [D2.sz_mirror_0 chk e0 e1 h0]
    exact mirror_facts e0 hbig fl
  | 1, hd =>
    have hd : e1 = e := by simpa using hd
    subst hd
    simp only [D2.sz_mirror_1 chk e0 e1 h1]
    exact mirror_facts e1 hbig fl
  | d + 2, hd => simp at hd

example : Ext.Fits ⟨2, 5, 3⟩ ∧ Ext.Fits ⟨0, 4, 1⟩ ∧ 2 * (2 + 5 + 3) < 2147483648 := by simp [Ext.Fits]
example : (D2.sz ⟨2, 5, 3⟩ ⟨0, 4, 1⟩).mirror true 0 .P 5 = .ok 3 := by decide

/-- C14 (3D): in every dimension and on both sides, `mirror` is an involution; it fixes
exactly the boundary point; it swaps the `k`-th point outwards with the `k`-th point inwards;
and it maps all virtual points of the side into the interior iff there are fewer virtual than
interior points.  `2 * extent` must be representable (the code doubles the boundary index). -/
theorem C14_d3 (chk : Bool) (e0 e1 e2 : Ext) (h0 : e0.Fits) (h1 : e1.Fits) (h2 : e2.Fits) (d : Nat) (e : Ext)
    (hd : [e0, e1, e2][d]? = some e) (hbig : 2 * (e.n + e.i + e.p) < 2147483648) (fl : Side) :
    (∀ ii jj, InI32 ii → (D3.sz e0 e1 e2).mirror chk d fl ii = .ok jj →
      (D3.sz e0 e1 e2).mirror chk d fl jj = .ok ii) ∧
    (∀ ii, (D3.sz e0 e1 e2).mirror chk d fl ii = .ok ii ↔ ii = sideBound e fl) ∧
    (∀ k : Int, -(e.n + e.i + e.p : Int) ≤ k → k ≤ e.n + e.i + e.p →
      (D3.sz e0 e1 e2).mirror chk d fl (outward e fl k) = .ok (outward e fl (-k))) ∧
    (0 < e.i →
      ((∀ ii, Virtual e fl ii → ∃ jj, (D3.sz e0 e1 e2).mirror chk d fl ii = .ok jj ∧ Interior e jj) ↔
        sideCount e fl < e.i)) := by
  match d, hd with
  | 0, hd =>
    have hd : e0 = e := by simpa using hd
    subst hd
    simp only [D3.sz_mirror_0 chk e0 e1 e2 h0]
    exact mirror_facts e0 hbig fl
  | 1, hd =>
    have hd : e1 = e := by simpa using hd
    subst hd
    simp only [D3.sz_mirror_1 chk e0 e1 e2 h1]
    exact mirror_facts e1 hbig fl
  | 2, hd =>
    have hd : e2 = e := by simpa using hd
    subst hd
    simp only [D3.sz_mirror_2 chk e0 e1 e2 h2]
    exact mirror_facts e2 hbig fl
  | d + 3, hd => simp at hd

example : Ext.Fits ⟨2, 5, 3⟩ ∧ Ext.Fits ⟨0, 4, 1⟩ ∧ Ext.Fits ⟨1, 2, 1⟩ ∧ 2 * (2 + 5 + 3) < 2147483648 := by simp [Ext.Fits]
example : (D3.sz ⟨2, 5, 3⟩ ⟨0, 4, 1⟩ ⟨1, 2, 1⟩).mirror true 0 .P 5 = .ok 3 := by decide

/-! ## C15 Periodic index -/

/-- C15 (1D): in every dimension, `periodic(N)` and `periodic(P)` are mutually inverse
translations by `in - 1`; they identify first and last interior point; each maps all virtual
points of its side into the interior iff there are fewer virtual than interior points. -/
theorem C15_d1 (chk : Bool) (e0 : Ext) (h0 : e0.Fits) (d : Nat) (e : Ext)
    (hd : [e0][d]? = some e) :
    (∀ ii jj, InI32 ii → InI32 jj →
      ((D1.sz e0).periodic chk d .N ii = .ok jj ↔ jj = ii + ((e.i : Int) - 1)) ∧
      ((D1.sz e0).periodic chk d .P ii = .ok jj ↔ jj = ii - ((e.i : Int) - 1)) ∧
      ((D1.sz e0).periodic chk d .N ii = .ok jj ↔ (D1.sz e0).periodic chk d .P jj = .ok ii)) ∧
    (0 < e.i → (D1.sz e0).periodic chk d .N 0 = .ok ((e.i : Int) - 1) ∧
      (D1.sz e0).periodic chk d .P ((e.i : Int) - 1) = .ok 0) ∧
    (0 < e.i → ∀ fl : Side,
      ((∀ ii, Virtual e fl ii → ∃ jj, (D1.sz e0).periodic chk d fl.fl ii = .ok jj ∧ Interior e jj) ↔
        sideCount e fl < e.i)) := by
  match d, hd with
  | 0, hd =>
    have hd : e0 = e := by simpa using hd
    subst hd
    simp only [D1.sz_periodic_0 chk e0 h0]
    exact periodic_facts e0 h0
  | d + 1, hd => simp at hd

example : Ext.Fits ⟨2, 5, 3⟩ ∧ 0 < 5 := by simp [Ext.Fits]
example : (D1.sz ⟨2, 5, 3⟩).periodic true 0 .N (-2) = .ok 2 := by decide

/-- C15 (2D): in every dimension, `periodic(N)` and `periodic(P)` are mutually inverse
translations by `in - 1`; they identify first and last interior point; each maps all virtual
points of its side into the interior iff there are fewer virtual than interior points. -/
theorem C15_d2 (chk : Bool) (e0 e1 : Ext) (h0 : e0.Fits) (h1 : e1.Fits) (d : Nat) (e : Ext)
    (hd : [e0, e1][d]? = some e) :
    (∀ ii jj, InI32 ii → InI32 jj →
      ((D2.sz e0 e1).periodic chk d .N ii = .ok jj ↔ jj = ii + ((e.i : Int) - 1)) ∧
      ((D2.sz e0 e1).periodic chk d .P ii = .ok jj ↔ jj = ii - ((e.i : Int) - 1)) ∧
      ((D2.sz e0 e1).periodic chk d .N ii = .ok jj ↔ (D2.sz e0 e1).periodic chk d .P jj = .ok ii)) ∧
    (0 < e.i → (D2.sz e0 e1).periodic chk d .N 0 = .ok ((e.i : Int) - 1) ∧
      (D2.sz e0 e1).periodic chk d .P ((e.i : Int) - 1) = .ok 0) ∧
    (0 < e.i → ∀ fl : Side,
      ((∀ ii, Virtual e fl ii → ∃ jj, (D2.sz e0 e1).periodic chk d fl.fl ii = .ok jj ∧ Interior e jj) ↔
        sideCount e fl < e.i)) := by
  match d, hd with
  | 0, hd =>
    have hd : e0 = e := by simpa using hd
    subst hd
    simp only [D2.sz_periodic_0 chk e0 e1 h0]
    exact periodic_facts e0 h0
  | 1, hd =>
    have hd : e1 = e := by simpa using hd
    subst hd
    simp only [D2.sz_periodic_1 chk e0 e1 h1]
    exact periodic_facts e1 h1
  | d + 2, hd => simp at hd

example : Ext.Fits ⟨2, 5, 3⟩ ∧ Ext.Fits ⟨0, 4, 1⟩ ∧ 0 < 5 := by simp [Ext.Fits]
example : (D2.sz ⟨2, 5, 3⟩ ⟨0, 4, 1⟩).periodic true 0 .N (-2) = .ok 2 := by decide

/-- C15 (3D): in every dimension, `periodic(N)` and `periodic(P)` are mutually inverse
translations by `in - 1`; they identify first and last interior point; each maps all virtual
points of its side into the interior iff there are fewer virtual than interior points. -/
theorem C15_d3 (chk : Bool) (e0 e1 e2 : Ext) (h0 : e0.Fits) (h1 : e1.Fits) (h2 : e2.Fits) (d : Nat) (e : Ext)
    (hd : [e0, e1, e2][d]? = some e) :
    (∀ ii jj, InI32 ii → InI32 jj →
      ((D3.sz e0 e1 e2).periodic chk d .N ii = .ok jj ↔ jj = ii + ((e.i : Int) - 1)) ∧
      ((D3.sz e0 e1 e2).periodic chk d .P ii = .ok jj ↔ jj = ii - ((e.i : Int) - 1)) ∧
      ((D3.sz e0 e1 e2).periodic chk d .N ii = .ok jj ↔ (D3.sz e0 e1 e2).periodic chk d .P jj = .ok ii)) ∧
    (0 < e.i → (D3.sz e0 e1 e2).periodic chk d .N 0 = .ok ((e.i : Int) - 1) ∧
      (D3.sz e0 e1 e2).periodic chk d .P ((e.i : Int) - 1) = .ok 0) ∧
    (0 < e.i → ∀ fl : Side,
      ((∀ ii, Virtual e fl ii → ∃ jj, (D3.sz e0 e1 e2).periodic chk d fl.fl ii = .ok jj ∧ Interior e jj) ↔
        sideCount e fl < e.i)) := by
  match d, hd with
  | 0, hd =>
    have hd : e0 = e := by simpa using hd
    subst hd
    simp only [D3.sz_periodic_0 chk e0 e1 e2 h0]
    exact periodic_facts e0 h0
  | 1, hd =>
    have hd : e1 = e := by simpa using hd
    subst hd
    simp only [D3.sz_periodic_1 chk e0 e1 e2 h1]
    exact periodic_facts e1 h1
  | 2, hd =>
    have hd : e2 = e := by simpa using hd
    subst hd
    simp only [D3.sz_periodic_2 chk e0 e1 e2 h2]
    exact periodic_facts e2 h2
  | d + 3, hd => simp at hd

example : Ext.Fits ⟨2, 5, 3⟩ ∧ Ext.Fits ⟨0, 4, 1⟩ ∧ Ext.Fits ⟨1, 2, 1⟩ ∧ 0 < 5 := by simp [Ext.Fits]
example : (D3.sz ⟨2, 5, 3⟩ ⟨0, 4, 1⟩ ⟨1, 2, 1⟩).periodic true 0 .N (-2) = .ok 2 := by decide

end Verif.Props
