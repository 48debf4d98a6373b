import Verif.Proof.Acc
/-!
# Ranges of tags
-/
namespace Verif

theorem Spec.tag_le (n i p : Nat) (t : RA) : Spec.tagBegin n i t ≤ Spec.tagEnd i p t := by
  cases t <;> simp [Spec.tagBegin, Spec.tagEnd] <;> omega

theorem Spec.tag_size_lt (n i p : Nat) (t : RA) (h : n + i + p < 2147483648) :
    (Spec.tagEnd i p t - Spec.tagBegin n i t).toNat < 2147483648 := by
  cases t <;> simp [Spec.tagBegin, Spec.tagEnd] <;> omega

theorem Spec.seg_tag (n i p : Nat) (t : RA) (x : Int) :
    Spec.Seg (Spec.tagBegin n i t) (Spec.tagEnd i p t - Spec.tagBegin n i t) x ↔ Spec.InTag n i p t x := by
  cases t <;> simp [Spec.tagBegin, Spec.tagEnd, Spec.InTag, Spec.Seg] <;> omega

namespace D1
theorem SizeT.range_tags (chk : Bool) (s : SizeT) {n0 i0 p0 : Nat} (t0 : RA)
    (hn0 : s.n_ = n0) (hi0 : s.in_ = i0) (hp0 : s.p_ = p0) (h0 : n0 + i0 + p0 < 2147483648) :
    s.range chk t0 = .ok ⟨Spec.tagBegin n0 i0 t0, Spec.tagEnd i0 p0 t0 - Spec.tagBegin n0 i0 t0⟩ := by
  obtain ⟨hb0, -, hz0, -⟩ := SizeT.acc_0 chk s t0 hn0 hi0 hp0 h0
  simp only [SizeT.range, hb0, hz0, Out.ok_bind, RangeT.new]
  rw [toI32_of_lt (Spec.tag_size_lt n0 i0 p0 t0 h0), Int.toNat_of_nonneg (Int.sub_nonneg.2 (Spec.tag_le n0 i0 p0 t0))]
end D1

namespace D2
theorem SizeT.range_tags (chk : Bool) (s : SizeT) {n0 i0 p0 n1 i1 p1 : Nat} (t0 t1 : RA)
    (hn0 : s.n0 = n0) (hi0 : s.in0 = i0) (hp0 : s.p0 = p0) (h0 : n0 + i0 + p0 < 2147483648) (hn1 : s.n1 = n1) (hi1 : s.in1 = i1) (hp1 : s.p1 = p1) (h1 : n1 + i1 + p1 < 2147483648) :
    s.range chk t0 t1 = .ok ⟨Spec.tagBegin n0 i0 t0, Spec.tagEnd i0 p0 t0 - Spec.tagBegin n0 i0 t0, Spec.tagBegin n1 i1 t1, Spec.tagEnd i1 p1 t1 - Spec.tagBegin n1 i1 t1⟩ := by
  obtain ⟨hb0, -, hz0, -⟩ := SizeT.acc_0 chk s t0 hn0 hi0 hp0 h0
  obtain ⟨hb1, -, hz1, -⟩ := SizeT.acc_1 chk s t1 hn1 hi1 hp1 h1
  simp only [SizeT.range, hb0, hz0, hb1, hz1, Out.ok_bind, RangeT.new]
  rw [toI32_of_lt (Spec.tag_size_lt n0 i0 p0 t0 h0), Int.toNat_of_nonneg (Int.sub_nonneg.2 (Spec.tag_le n0 i0 p0 t0))]
  rw [toI32_of_lt (Spec.tag_size_lt n1 i1 p1 t1 h1), Int.toNat_of_nonneg (Int.sub_nonneg.2 (Spec.tag_le n1 i1 p1 t1))]
end D2

namespace D3
theorem SizeT.range_tags (chk : Bool) (s : SizeT) {n0 i0 p0 n1 i1 p1 n2 i2 p2 : Nat} (t0 t1 t2 : RA)
    (hn0 : s.n0 = n0) (hi0 : s.in0 = i0) (hp0 : s.p0 = p0) (h0 : n0 + i0 + p0 < 2147483648) (hn1 : s.n1 = n1) (hi1 : s.in1 = i1) (hp1 : s.p1 = p1) (h1 : n1 + i1 + p1 < 2147483648) (hn2 : s.n2 = n2) (hi2 : s.in2 = i2) (hp2 : s.p2 = p2) (h2 : n2 + i2 + p2 < 2147483648) :
    s.range chk t0 t1 t2 = .ok ⟨Spec.tagBegin n0 i0 t0, Spec.tagEnd i0 p0 t0 - Spec.tagBegin n0 i0 t0, Spec.tagBegin n1 i1 t1, Spec.tagEnd i1 p1 t1 - Spec.tagBegin n1 i1 t1, Spec.tagBegin n2 i2 t2, Spec.tagEnd i2 p2 t2 - Spec.tagBegin n2 i2 t2⟩ := by
  obtain ⟨hb0, -, hz0, -⟩ := SizeT.acc_0 chk s t0 hn0 hi0 hp0 h0
  obtain ⟨hb1, -, hz1, -⟩ := SizeT.acc_1 chk s t1 hn1 hi1 hp1 h1
  obtain ⟨hb2, -, hz2, -⟩ := SizeT.acc_2 chk s t2 hn2 hi2 hp2 h2
  simp only [SizeT.range, hb0, hz0, hb1, hz1, hb2, hz2, Out.ok_bind, RangeT.new]
  rw [toI32_of_lt (Spec.tag_size_lt n0 i0 p0 t0 h0), Int.toNat_of_nonneg (Int.sub_nonneg.2 (Spec.tag_le n0 i0 p0 t0))]
  rw [toI32_of_lt (Spec.tag_size_lt n1 i1 p1 t1 h1), Int.toNat_of_nonneg (Int.sub_nonneg.2 (Spec.tag_le n1 i1 p1 t1))]
  rw [toI32_of_lt (Spec.tag_size_lt n2 i2 p2 t2 h2), Int.toNat_of_nonneg (Int.sub_nonneg.2 (Spec.tag_le n2 i2 p2 t2))]
end D3


namespace D1
theorem sz_fields_0 (e0 : Spec.Ext) (h : e0.Fits) :
    (sz e0).n_ = e0.n ∧ (sz e0).in_ = e0.i ∧ (sz e0).p_ = e0.p := by
  unfold Spec.Ext.Fits at h
  refine ⟨toI32_of_lt (by omega), toI32_of_lt (by omega), toI32_of_lt (by omega)⟩

theorem sz_acc_0 (chk : Bool) (e0 : Spec.Ext) (h : e0.Fits) (t : RA) :
    (sz e0).begin_ chk 0 t = .ok (Spec.tagBegin e0.n e0.i t) ∧
    (sz e0).end_ chk 0 t = .ok (Spec.tagEnd e0.i e0.p t) ∧
    (sz e0).size chk 0 t = .ok (Spec.tagEnd e0.i e0.p t - Spec.tagBegin e0.n e0.i t).toNat ∧
    (sz e0).last chk 0 t = .ok (Spec.tagEnd e0.i e0.p t - 1) := by
  obtain ⟨h1, h2, h3⟩ := sz_fields_0 e0 h
  exact SizeT.acc_0 chk _ t h1 h2 h3 h

theorem sz_range (chk : Bool) (e0 : Spec.Ext) (h0 : e0.Fits) (t0 : RA) :
    (sz e0).range chk t0 = .ok ⟨Spec.tagBegin e0.n e0.i t0, Spec.tagEnd e0.i e0.p t0 - Spec.tagBegin e0.n e0.i t0⟩ := by
  obtain ⟨a0, b0, c0⟩ := sz_fields_0 e0 h0
  exact SizeT.range_tags chk _ t0 a0 b0 c0 h0
end D1

namespace D2
theorem sz_fields_0 (e0 e1 : Spec.Ext) (h : e0.Fits) :
    (sz e0 e1).n0 = e0.n ∧ (sz e0 e1).in0 = e0.i ∧ (sz e0 e1).p0 = e0.p := by
  unfold Spec.Ext.Fits at h
  refine ⟨toI32_of_lt (by omega), toI32_of_lt (by omega), toI32_of_lt (by omega)⟩

theorem sz_acc_0 (chk : Bool) (e0 e1 : Spec.Ext) (h : e0.Fits) (t : RA) :
    (sz e0 e1).begin_ chk 0 t = .ok (Spec.tagBegin e0.n e0.i t) ∧
    (sz e0 e1).end_ chk 0 t = .ok (Spec.tagEnd e0.i e0.p t) ∧
    (sz e0 e1).size chk 0 t = .ok (Spec.tagEnd e0.i e0.p t - Spec.tagBegin e0.n e0.i t).toNat ∧
    (sz e0 e1).last chk 0 t = .ok (Spec.tagEnd e0.i e0.p t - 1) := by
  obtain ⟨h1, h2, h3⟩ := sz_fields_0 e0 e1 h
  exact SizeT.acc_0 chk _ t h1 h2 h3 h

theorem sz_fields_1 (e0 e1 : Spec.Ext) (h : e1.Fits) :
    (sz e0 e1).n1 = e1.n ∧ (sz e0 e1).in1 = e1.i ∧ (sz e0 e1).p1 = e1.p := by
  unfold Spec.Ext.Fits at h
  refine ⟨toI32_of_lt (by omega), toI32_of_lt (by omega), toI32_of_lt (by omega)⟩

theorem sz_acc_1 (chk : Bool) (e0 e1 : Spec.Ext) (h : e1.Fits) (t : RA) :
    (sz e0 e1).begin_ chk 1 t = .ok (Spec.tagBegin e1.n e1.i t) ∧
    (sz e0 e1).end_ chk 1 t = .ok (Spec.tagEnd e1.i e1.p t) ∧
    (sz e0 e1).size chk 1 t = .ok (Spec.tagEnd e1.i e1.p t - Spec.tagBegin e1.n e1.i t).toNat ∧
    (sz e0 e1).last chk 1 t = .ok (Spec.tagEnd e1.i e1.p t - 1) := by
  obtain ⟨h1, h2, h3⟩ := sz_fields_1 e0 e1 h
  exact SizeT.acc_1 chk _ t h1 h2 h3 h

theorem sz_range (chk : Bool) (e0 e1 : Spec.Ext) (h0 : e0.Fits) (h1 : e1.Fits) (t0 t1 : RA) :
    (sz e0 e1).range chk t0 t1 = .ok ⟨Spec.tagBegin e0.n e0.i t0, Spec.tagEnd e0.i e0.p t0 - Spec.tagBegin e0.n e0.i t0,
      Spec.tagBegin e1.n e1.i t1, Spec.tagEnd e1.i e1.p t1 - Spec.tagBegin e1.n e1.i t1⟩ := by
  obtain ⟨a0, b0, c0⟩ := sz_fields_0 e0 e1 h0
  obtain ⟨a1, b1, c1⟩ := sz_fields_1 e0 e1 h1
  exact SizeT.range_tags chk _ t0 t1 a0 b0 c0 h0 a1 b1 c1 h1
end D2

namespace D3
theorem sz_fields_0 (e0 e1 e2 : Spec.Ext) (h : e0.Fits) :
    (sz e0 e1 e2).n0 = e0.n ∧ (sz e0 e1 e2).in0 = e0.i ∧ (sz e0 e1 e2).p0 = e0.p := by
  unfold Spec.Ext.Fits at h
  refine ⟨toI32_of_lt (by omega), toI32_of_lt (by omega), toI32_of_lt (by omega)⟩

theorem sz_acc_0 (chk : Bool) (e0 e1 e2 : Spec.Ext) (h : e0.Fits) (t : RA) :
    (sz e0 e1 e2).begin_ chk 0 t = .ok (Spec.tagBegin e0.n e0.i t) ∧
    (sz e0 e1 e2).end_ chk 0 t = .ok (Spec.tagEnd e0.i e0.p t) ∧
    (sz e0 e1 e2).size chk 0 t = .ok (Spec.tagEnd e0.i e0.p t - Spec.tagBegin e0.n e0.i t).toNat ∧
    (sz e0 e1 e2).last chk 0 t = .ok (Spec.tagEnd e0.i e0.p t - 1) := by
  obtain ⟨h1, h2, h3⟩ := sz_fields_0 e0 e1 e2 h
  exact SizeT.acc_0 chk _ t h1 h2 h3 h

theorem sz_fields_1 (e0 e1 e2 : Spec.Ext) (h : e1.Fits) :
    (sz e0 e1 e2).n1 = e1.n ∧ (sz e0 e1 e2).in1 = e1.i ∧ (sz e0 e1 e2).p1 = e1.p := by
  unfold Spec.Ext.Fits at h
  refine ⟨toI32_of_lt (by omega), toI32_of_lt (by omega), toI32_of_lt (by omega)⟩

theorem sz_acc_1 (chk : Bool) (e0 e1 e2 : Spec.Ext) (h : e1.Fits) (t : RA) :
    (sz e0 e1 e2).begin_ chk 1 t = .ok (Spec.tagBegin e1.n e1.i t) ∧
    (sz e0 e1 e2).end_ chk 1 t = .ok (Spec.tagEnd e1.i e1.p t) ∧
    (sz e0 e1 e2).size chk 1 t = .ok (Spec.tagEnd e1.i e1.p t - Spec.tagBegin e1.n e1.i t).toNat ∧
    (sz e0 e1 e2).last chk 1 t = .ok (Spec.tagEnd e1.i e1.p t - 1) := by
  obtain ⟨h1, h2, h3⟩ := sz_fields_1 e0 e1 e2 h
  exact SizeT.acc_1 chk _ t h1 h2 h3 h

theorem sz_fields_2 (e0 e1 e2 : Spec.Ext) (h : e2.Fits) :
    (sz e0 e1 e2).n2 = e2.n ∧ (sz e0 e1 e2).in2 = e2.i ∧ (sz e0 e1 e2).p2 = e2.p := by
  unfold Spec.Ext.Fits at h
  refine ⟨toI32_of_lt (by omega), toI32_of_lt (by omega), toI32_of_lt (by omega)⟩

theorem sz_acc_2 (chk : Bool) (e0 e1 e2 : Spec.Ext) (h : e2.Fits) (t : RA) :
    (sz e0 e1 e2).begin_ chk 2 t = .ok (Spec.tagBegin e2.n e2.i t) ∧
    (sz e0 e1 e2).end_ chk 2 t = .ok (Spec.tagEnd e2.i e2.p t) ∧
    (sz e0 e1 e2).size chk 2 t = .ok (Spec.tagEnd e2.i e2.p t - Spec.tagBegin e2.n e2.i t).toNat ∧
    (sz e0 e1 e2).last chk 2 t = .ok (Spec.tagEnd e2.i e2.p t - 1) := by
  obtain ⟨h1, h2, h3⟩ := sz_fields_2 e0 e1 e2 h
  exact SizeT.acc_2 chk _ t h1 h2 h3 h

theorem sz_range (chk : Bool) (e0 e1 e2 : Spec.Ext) (h0 : e0.Fits) (h1 : e1.Fits) (h2 : e2.Fits) (t0 t1 t2 : RA) :
    (sz e0 e1 e2).range chk t0 t1 t2 = .ok ⟨Spec.tagBegin e0.n e0.i t0, Spec.tagEnd e0.i e0.p t0 - Spec.tagBegin e0.n e0.i t0,
      Spec.tagBegin e1.n e1.i t1, Spec.tagEnd e1.i e1.p t1 - Spec.tagBegin e1.n e1.i t1,
      Spec.tagBegin e2.n e2.i t2, Spec.tagEnd e2.i e2.p t2 - Spec.tagBegin e2.n e2.i t2⟩ := by
  obtain ⟨a0, b0, c0⟩ := sz_fields_0 e0 e1 e2 h0
  obtain ⟨a1, b1, c1⟩ := sz_fields_1 e0 e1 e2 h1
  obtain ⟨a2, b2, c2⟩ := sz_fields_2 e0 e1 e2 h2
  exact SizeT.range_tags chk _ t0 t1 t2 a0 b0 c0 h0 a1 b1 c1 h1 a2 b2 c2 h2
end D3


namespace Spec
theorem tag_split (n i p : Nat) (x : Int) (h : InTag n i p .ALL x) : ∃ t, Part t ∧ InTag n i p t x := by
  simp only [InTag] at h
  by_cases h1 : x < 0
  · exact ⟨.N, .inl rfl, h.1, h1⟩
  · by_cases h2 : x < i
    · exact ⟨.IN, .inr (.inl rfl), by omega, h2⟩
    · exact ⟨.P, .inr (.inr rfl), by omega, h.2⟩

theorem tag_all (n i p : Nat) (t : RA) (x : Int) (_ : Part t) (h : InTag n i p t x) :
    InTag n i p .ALL x := by
  cases t <;> simp only [InTag] at * <;> omega

theorem tag_unique (n i p : Nat) (t u : RA) (x : Int) (ht : Part t) (hu : Part u)
    (h : InTag n i p t x) (h' : InTag n i p u x) : t = u := by
  rcases ht with rfl | rfl | rfl <;> rcases hu with rfl | rfl | rfl <;>
    simp only [InTag] at * <;> first | rfl | (exfalso; omega)

theorem tag_end_fits (n i p : Nat) (t : RA) (h : n + i + p < 2147483648) :
    InI32 (tagEnd i p t) := by
  cases t <;> simp only [tagEnd, InI32] <;> omega

theorem tag_last_fits (n i p : Nat) (t : RA) (h : n + i + p < 2147483648) :
    InI32 (tagEnd i p t - 1) := by
  cases t <;> simp only [tagEnd, InI32] <;> omega
end Spec


namespace D1
theorem sz_mirror_0 (chk : Bool) (e0 : Spec.Ext) (h : e0.Fits) (fl : Side) (ii : Int) :
    (sz e0).mirror chk 0 fl ii =
      (i32 (2 * Spec.sideBound e0 fl) >>= fun t => i32 (t - ii)) := by
  have k := sz_acc_0 chk e0 h .IN
  cases fl <;> simp [SizeT.mirror, SizeT.bound, k.1, k.2.2.2, Spec.tagBegin, Spec.tagEnd, Spec.sideBound]

theorem sz_periodic_0 (chk : Bool) (e0 : Spec.Ext) (h : e0.Fits) (fl : FL) (ii : Int) :
    (sz e0).periodic chk 0 fl ii = i32 (-fl.sign * ((e0.i : Int) - 1) + ii) := by
  have k := sz_acc_0 chk e0 h .IN
  have hf : InI32 (-fl.sign * ((e0.i : Int) - 1)) := by
    unfold Spec.Ext.Fits at h
    cases fl <;> simp [FL.sign, InI32] <;> omega
  simp only [SizeT.periodic, k.2.2.2, Spec.tagEnd, Out.ok_bind, i32_ok hf]

end D1

namespace D2
theorem sz_mirror_0 (chk : Bool) (e0 e1 : Spec.Ext) (h : e0.Fits) (fl : Side) (ii : Int) :
    (sz e0 e1).mirror chk 0 fl ii =
      (i32 (2 * Spec.sideBound e0 fl) >>= fun t => i32 (t - ii)) := by
  have k := sz_acc_0 chk e0 e1 h .IN
  cases fl <;> simp [SizeT.mirror, SizeT.bound, k.1, k.2.2.2, Spec.tagBegin, Spec.tagEnd, Spec.sideBound]

theorem sz_periodic_0 (chk : Bool) (e0 e1 : Spec.Ext) (h : e0.Fits) (fl : FL) (ii : Int) :
    (sz e0 e1).periodic chk 0 fl ii = i32 (-fl.sign * ((e0.i : Int) - 1) + ii) := by
  have k := sz_acc_0 chk e0 e1 h .IN
  have hf : InI32 (-fl.sign * ((e0.i : Int) - 1)) := by
    unfold Spec.Ext.Fits at h
    cases fl <;> simp [FL.sign, InI32] <;> omega
  simp only [SizeT.periodic, k.2.2.2, Spec.tagEnd, Out.ok_bind, i32_ok hf]

theorem sz_mirror_1 (chk : Bool) (e0 e1 : Spec.Ext) (h : e1.Fits) (fl : Side) (ii : Int) :
    (sz e0 e1).mirror chk 1 fl ii =
      (i32 (2 * Spec.sideBound e1 fl) >>= fun t => i32 (t - ii)) := by
  have k := sz_acc_1 chk e0 e1 h .IN
  cases fl <;> simp [SizeT.mirror, SizeT.bound, k.1, k.2.2.2, Spec.tagBegin, Spec.tagEnd, Spec.sideBound]

theorem sz_periodic_1 (chk : Bool) (e0 e1 : Spec.Ext) (h : e1.Fits) (fl : FL) (ii : Int) :
    (sz e0 e1).periodic chk 1 fl ii = i32 (-fl.sign * ((e1.i : Int) - 1) + ii) := by
  have k := sz_acc_1 chk e0 e1 h .IN
  have hf : InI32 (-fl.sign * ((e1.i : Int) - 1)) := by
    unfold Spec.Ext.Fits at h
    cases fl <;> simp [FL.sign, InI32] <;> omega
  simp only [SizeT.periodic, k.2.2.2, Spec.tagEnd, Out.ok_bind, i32_ok hf]

end D2

namespace D3
theorem sz_mirror_0 (chk : Bool) (e0 e1 e2 : Spec.Ext) (h : e0.Fits) (fl : Side) (ii : Int) :
    (sz e0 e1 e2).mirror chk 0 fl ii =
      (i32 (2 * Spec.sideBound e0 fl) >>= fun t => i32 (t - ii)) := by
  have k := sz_acc_0 chk e0 e1 e2 h .IN
  cases fl <;> simp [SizeT.mirror, SizeT.bound, k.1, k.2.2.2, Spec.tagBegin, Spec.tagEnd, Spec.sideBound]

theorem sz_periodic_0 (chk : Bool) (e0 e1 e2 : Spec.Ext) (h : e0.Fits) (fl : FL) (ii : Int) :
    (sz e0 e1 e2).periodic chk 0 fl ii = i32 (-fl.sign * ((e0.i : Int) - 1) + ii) := by
  have k := sz_acc_0 chk e0 e1 e2 h .IN
  have hf : InI32 (-fl.sign * ((e0.i : Int) - 1)) := by
    unfold Spec.Ext.Fits at h
    cases fl <;> simp [FL.sign, InI32] <;> omega
  simp only [SizeT.periodic, k.2.2.2, Spec.tagEnd, Out.ok_bind, i32_ok hf]

theorem sz_mirror_1 (chk : Bool) (e0 e1 e2 : Spec.Ext) (h : e1.Fits) (fl : Side) (ii : Int) :
    (sz e0 e1 e2).mirror chk 1 fl ii =
      (i32 (2 * Spec.sideBound e1 fl) >>= fun t => i32 (t - ii)) := by
  have k := sz_acc_1 chk e0 e1 e2 h .IN
  cases fl <;> simp [SizeT.mirror, SizeT.bound, k.1, k.2.2.2, Spec.tagBegin, Spec.tagEnd, Spec.sideBound]

theorem sz_periodic_1 (chk : Bool) (e0 e1 e2 : Spec.Ext) (h : e1.Fits) (fl : FL) (ii : Int) :
    (sz e0 e1 e2).periodic chk 1 fl ii = i32 (-fl.sign * ((e1.i : Int) - 1) + ii) := by
  have k := sz_acc_1 chk e0 e1 e2 h .IN
  have hf : InI32 (-fl.sign * ((e1.i : Int) - 1)) := by
    unfold Spec.Ext.Fits at h
    cases fl <;> simp [FL.sign, InI32] <;> omega
  simp only [SizeT.periodic, k.2.2.2, Spec.tagEnd, Out.ok_bind, i32_ok hf]

theorem sz_mirror_2 (chk : Bool) (e0 e1 e2 : Spec.Ext) (h : e2.Fits) (fl : Side) (ii : Int) :
    (sz e0 e1 e2).mirror chk 2 fl ii =
      (i32 (2 * Spec.sideBound e2 fl) >>= fun t => i32 (t - ii)) := by
  have k := sz_acc_2 chk e0 e1 e2 h .IN
  cases fl <;> simp [SizeT.mirror, SizeT.bound, k.1, k.2.2.2, Spec.tagBegin, Spec.tagEnd, Spec.sideBound]

theorem sz_periodic_2 (chk : Bool) (e0 e1 e2 : Spec.Ext) (h : e2.Fits) (fl : FL) (ii : Int) :
    (sz e0 e1 e2).periodic chk 2 fl ii = i32 (-fl.sign * ((e2.i : Int) - 1) + ii) := by
  have k := sz_acc_2 chk e0 e1 e2 h .IN
  have hf : InI32 (-fl.sign * ((e2.i : Int) - 1)) := by
    unfold Spec.Ext.Fits at h
    cases fl <;> simp [FL.sign, InI32] <;> omega
  simp only [SizeT.periodic, k.2.2.2, Spec.tagEnd, Out.ok_bind, i32_ok hf]

end D3

end Verif
