import Verif.Proof.Access
/-!
# 3D arrays in memory
-/
namespace Verif
variable {V : Type}

theorem Heap.upd4 (h : Heap V) {p q : Nat} (hpq : p ≠ q) (a b c d : Option (Block V)) :
    (((h.upd p a).upd q b).upd p c).upd q d = (h.upd p c).upd q d := by
  rw [Heap.upd_comm (h.upd p a) hpq.symm, Heap.upd_upd, Heap.upd_upd]

end Verif
namespace Verif.D3
open Spec
variable {V : Type}

/-- an allocated 3D array: data block `B`, plane table `P`, row table `Q` -/
structure PD.Ready (N : Nat) (L0 L1 L2 : Loc) (e0 e1 e2 : Ext) (o : PD) (h : Heap V) (B P Q : Nat) (cell : Nat → Option V) : Prop where
  size : o.size = sz e0 e1 e2
  data : o.data = .at B 0
  pt1 : o.pt1 = .at P 0
  pt2 : o.pt2 = .at Q 0
  blk : h.blk B = some (.vals (N * ((Dim.mk e0 L0).width * ((Dim.mk e1 L1).width * (Dim.mk e2 L2).width))) cell)
  tab : ∃ t, h.blk P = some (.ptrs (N * (Dim.mk e0 L0).width) t) ∧
    ∀ k < N * (Dim.mk e0 L0).width, t k = some (.at Q (k * (Dim.mk e1 L1).width + e1.n))
  tab2 : ∃ t, h.blk Q = some (.ptrs (N * (Dim.mk e0 L0).width * (Dim.mk e1 L1).width) t) ∧
    ∀ k < N * (Dim.mk e0 L0).width * (Dim.mk e1 L1).width, t k = some (.at B (k * (Dim.mk e2 L2).width + e2.n))
  pt0 : ∀ n < N, o.pt0 n = .at P (n * (Dim.mk e0 L0).width + e0.n)
  neq : P ≠ Q

/-- an empty 3D array -/
structure PD.Empty (o : PD) : Prop where
  size : o.size = {}
  data : o.data = .null
  pt1 : o.pt1 = .null
  pt2 : o.pt2 = .null

/-- a 3D array whose `alloc` failed at the second or third of its allocations -/
structure PD.Broken (e0 e1 e2 : Ext) (o : PD) (h : Heap V) (B : Nat) (P : Option Nat) : Prop where
  size : o.size = sz e0 e1 e2
  data : o.data = .at B 0
  pt1 : o.pt1 = match P with | none => .null | some P => .at P 0
  pt2 : o.pt2 = .null
  blk : ∃ l c, h.blk B = some (.vals l c)
  tab : ∀ p, P = some p → ∃ l c, h.blk p = some (.ptrs l c)

namespace PD

theorem Ready.ne {N L0 L1 L2 e0 e1 e2} {o : PD} {h : Heap V} {B P Q cell} (r : Ready N L0 L1 L2 e0 e1 e2 o h B P Q cell) : B ≠ P := by
  rintro rfl
  obtain ⟨t, h1, -⟩ := r.tab
  rw [r.blk] at h1; cases h1

theorem Ready.ne2 {N L0 L1 L2 e0 e1 e2} {o : PD} {h : Heap V} {B P Q cell} (r : Ready N L0 L1 L2 e0 e1 e2 o h B P Q cell) : B ≠ Q := by
  rintro rfl
  obtain ⟨t, h1, -⟩ := r.tab2
  rw [r.blk] at h1; cases h1

theorem Ready.congr {N L0 L1 L2 e0 e1 e2} {o : PD} {h h' : Heap V} {B P Q cell} (r : Ready N L0 L1 L2 e0 e1 e2 o h B P Q cell)
    (hB : h'.blk B = h.blk B) (hP : h'.blk P = h.blk P) (hQ : h'.blk Q = h.blk Q) : Ready N L0 L1 L2 e0 e1 e2 o h' B P Q cell :=
  ⟨r.size, r.data, r.pt1, r.pt2, by rw [hB, r.blk], by rw [hP]; exact r.tab, by rw [hQ]; exact r.tab2, r.pt0, r.neq⟩

theorem Ready.write {N L0 L1 L2 e0 e1 e2} {o : PD} {h h' : Heap V} {B P Q cell cell'} (r : Ready N L0 L1 L2 e0 e1 e2 o h B P Q cell)
    (hB : h'.blk B = some (.vals (N * ((Dim.mk e0 L0).width * ((Dim.mk e1 L1).width * (Dim.mk e2 L2).width))) cell'))
    (hP : h'.blk P = h.blk P) (hQ : h'.blk Q = h.blk Q) :
    Ready N L0 L1 L2 e0 e1 e2 o h' B P Q cell' :=
  ⟨r.size, r.data, r.pt1, r.pt2, hB, by rw [hP]; exact r.tab, by rw [hQ]; exact r.tab2, r.pt0, r.neq⟩

theorem elem_eq {N L0 L1 L2 e0 e1 e2} {o : PD} {h : Heap V} {B P Q cell} (r : Ready N L0 L1 L2 e0 e1 e2 o h B P Q cell)
    {n : Nat} {x y z : Int}
    (hn : n < N) (hx : (Dim.mk e0 L0).Has x) (hy : (Dim.mk e1 L1).Has y) (hz : (Dim.mk e2 L2).Has z) :
    elem N o n x y z h = .ok (.at B (((n * (Dim.mk e0 L0).width + (x + e0.n).toNat) * (Dim.mk e1 L1).width + (y + e1.n).toNat)
      * (Dim.mk e2 L2).width + (z + e2.n).toNat)) h := by
  have h0 := Dim.nonneg_of_has hx
  have h1 := Dim.width_pos_of_has hx
  have h2 := Dim.nonneg_of_has hy
  have h3 := Dim.width_pos_of_has hy
  have h4 := Dim.nonneg_of_has hz
  have h5 := Dim.width_pos_of_has hz
  obtain ⟨t, ht, ht'⟩ := r.tab
  obtain ⟨u, hu, hu'⟩ := r.tab2
  have hblk := r.blk
  rw [← Nat.mul_assoc, ← Nat.mul_assoc] at hblk
  simp only at h0 h1 h2 h3 h4 h5
  have h6 := mul_add_lt hn h1
  have h7 := mul_add_lt h6 h3
  unfold elem pt0At
  rw [if_pos hn, pure_bind, r.pt0 n hn, M.bind_ok (Heap.idx_at ht
    (r := n * (Dim.mk e0 L0).width + (x + e0.n).toNat) (by push_cast; omega) h6),
    M.bind_ok (Heap.loadP_at ht h6 (ht' _ h6)), M.bind_ok (Heap.idx_at hu
    (r := (n * (Dim.mk e0 L0).width + (x + e0.n).toNat) * (Dim.mk e1 L1).width + (y + e1.n).toNat) (by push_cast; omega) h7),
    M.bind_ok (Heap.loadP_at hu h7 (hu' _ h7))]
  exact Heap.idx_at hblk (by push_cast; omega) (mul_add_lt h7 h5)

/-- whatever the indices, an element lies in the data block or the access is undefined -/
theorem elem_cases {N L0 L1 L2 e0 e1 e2} {o : PD} {h : Heap V} {B P Q cell} (r : Ready N L0 L1 L2 e0 e1 e2 o h B P Q cell)
    (n : Nat) (x y z : Int) :
    (∃ k, k < N * ((Dim.mk e0 L0).width * ((Dim.mk e1 L1).width * (Dim.mk e2 L2).width)) ∧ elem N o n x y z h = .ok (.at B k) h)
      ∨ ∃ u, elem N o n x y z h = .ub u := by
  obtain ⟨t, ht, ht'⟩ := r.tab
  obtain ⟨u, hu, hu'⟩ := r.tab2
  unfold elem pt0At
  by_cases hn : n < N
  · rw [if_pos hn, pure_bind, r.pt0 n hn]
    rcases Heap.idx_cases ht (n * (Dim.mk e0 L0).width + e0.n) x with ⟨k, hk, e⟩ | ⟨u, e⟩
    · rw [M.bind_ok e, M.bind_ok (Heap.loadP_at ht hk (ht' k hk))]
      rcases Heap.idx_cases hu (k * (Dim.mk e1 L1).width + e1.n) y with ⟨l, hl, e⟩ | ⟨u, e⟩
      · rw [M.bind_ok e, M.bind_ok (Heap.loadP_at hu hl (hu' l hl))]
        exact Heap.idx_cases r.blk _ _
      · rw [M.bind_ub e]; exact .inr ⟨_, rfl⟩
    · rw [M.bind_ub e]; exact .inr ⟨_, rfl⟩
  · rw [if_neg hn]; exact .inr ⟨_, rfl⟩

theorem at_empty {N L0 L1 L2} {o : PD} (ho : Empty o) (h : Heap V) (n : Nat) (x y z : Int) (f g k : FL) :
    at_ true N L0 L1 L2 o n x y z f g k h = .err .noData h := by
  have : check_data true o = .err .noData := by unfold check_data; rw [ho.data]; rfl
  unfold at_
  rw [this]; rfl

theorem range_check_0 (chk : Bool) (e0 : Ext) (L0 : Loc) (b1 s1 b2 s2 : Int) (hf : e0.n + e0.i + e0.p + 1 < 2147483648) (x : Int) (f : FL) :
    RangeT.check_range chk ⟨tagBegin e0.n e0.i .ALL, tagEnd e0.i e0.p .ALL - tagBegin e0.n e0.i .ALL, b1, s1, b2, s2⟩ 0 L0 x f.offset =
      if chk = true ∧ ¬ (Dim.mk e0 L0).Has (x + f.offset) then .err (rangeErr 0 x f.offset ⟨e0, L0⟩) else .ok () := by
  cases chk
  · rfl
  · have hcr := check_range_core_eq 0 ⟨e0, L0⟩ x f hf
    have e : tagBegin e0.n e0.i .ALL + (tagEnd e0.i e0.p .ALL - tagBegin e0.n e0.i .ALL) = (e0.i : Int) + e0.p := by
      simp only [tagBegin, tagEnd]; omega
    simp only [RangeT.check_range, RangeT.begin_, RangeT.end_, RangeT.size, check_d_3_0, sel, Out.ok_bind, if_true, e]
    rw [i32_ok (by unfold InI32; omega), Out.ok_bind]
    simp only [tagBegin] at hcr ⊢
    rw [hcr]
    by_cases hh : (Dim.mk e0 L0).Has (x + f.offset) <;> simp [hh]

theorem range_check_1 (chk : Bool) (e1 : Ext) (L1 : Loc) (b0 s0 b2 s2 : Int) (hf : e1.n + e1.i + e1.p + 1 < 2147483648) (x : Int) (f : FL) :
    RangeT.check_range chk ⟨b0, s0, tagBegin e1.n e1.i .ALL, tagEnd e1.i e1.p .ALL - tagBegin e1.n e1.i .ALL, b2, s2⟩ 1 L1 x f.offset =
      if chk = true ∧ ¬ (Dim.mk e1 L1).Has (x + f.offset) then .err (rangeErr 1 x f.offset ⟨e1, L1⟩) else .ok () := by
  cases chk
  · rfl
  · have hcr := check_range_core_eq 1 ⟨e1, L1⟩ x f hf
    have e : tagBegin e1.n e1.i .ALL + (tagEnd e1.i e1.p .ALL - tagBegin e1.n e1.i .ALL) = (e1.i : Int) + e1.p := by
      simp only [tagBegin, tagEnd]; omega
    simp only [RangeT.check_range, RangeT.begin_, RangeT.end_, RangeT.size, check_d_3_1, sel, Out.ok_bind, if_true, e]
    rw [i32_ok (by unfold InI32; omega), Out.ok_bind]
    simp only [tagBegin] at hcr ⊢
    rw [hcr]
    by_cases hh : (Dim.mk e1 L1).Has (x + f.offset) <;> simp [hh]

theorem range_check_2 (chk : Bool) (e2 : Ext) (L2 : Loc) (b0 s0 b1 s1 : Int) (hf : e2.n + e2.i + e2.p + 1 < 2147483648) (x : Int) (f : FL) :
    RangeT.check_range chk ⟨b0, s0, b1, s1, tagBegin e2.n e2.i .ALL, tagEnd e2.i e2.p .ALL - tagBegin e2.n e2.i .ALL⟩ 2 L2 x f.offset =
      if chk = true ∧ ¬ (Dim.mk e2 L2).Has (x + f.offset) then .err (rangeErr 2 x f.offset ⟨e2, L2⟩) else .ok () := by
  cases chk
  · rfl
  · have hcr := check_range_core_eq 2 ⟨e2, L2⟩ x f hf
    have e : tagBegin e2.n e2.i .ALL + (tagEnd e2.i e2.p .ALL - tagBegin e2.n e2.i .ALL) = (e2.i : Int) + e2.p := by
      simp only [tagBegin, tagEnd]; omega
    simp only [RangeT.check_range, RangeT.begin_, RangeT.end_, RangeT.size, check_d_3_2, sel, Out.ok_bind, if_true, e]
    rw [i32_ok (by unfold InI32; omega), Out.ok_bind]
    simp only [tagBegin] at hcr ⊢
    rw [hcr]
    by_cases hh : (Dim.mk e2 L2).Has (x + f.offset) <;> simp [hh]

theorem at_reject {N L0 L1 L2 e0 e1 e2} {o : PD} {h : Heap V} {B P Q cell} (r : Ready N L0 L1 L2 e0 e1 e2 o h B P Q cell)
    (hf0 : e0.n + e0.i + e0.p + 1 < 2147483648) (hf1 : e1.n + e1.i + e1.p + 1 < 2147483648) (hf2 : e2.n + e2.i + e2.p + 1 < 2147483648)
    {n : Nat} {x y z : Int} {f g k : FL} {e : Err}
    (he : accessErr N [⟨e0, L0⟩, ⟨e1, L1⟩, ⟨e2, L2⟩] n [x, y, z] [f, g, k] = some e) :
    at_ true N L0 L1 L2 o n x y z f g k h = .err e h := by
  have hd : check_data true o = .ok () := by unfold check_data; rw [r.data]; simp
  have hfit0 : e0.Fits := by unfold Ext.Fits; omega
  have hfit1 : e1.Fits := by unfold Ext.Fits; omega
  have hfit2 : e2.Fits := by unfold Ext.Fits; omega
  unfold at_ check_flag
  rw [hd, checkFlagDim_eq, checkFlagDim_eq, checkFlagDim_eq, r.size, sz_range true e0 e1 e2 hfit0 hfit1 hfit2]
  simp only [accessErr, flagErrs, rangeErrs] at he
  unfold check_n
  simp only [M.liftM_eq, M.lift_ok, pure_bind, range_check_0 true e0 L0 _ _ _ _ hf0, range_check_1 true e1 L1 _ _ _ _ hf1,
    range_check_2 true e2 L2 _ _ _ _ hf2]
  by_cases hn : N ≤ n
  · rw [if_pos hn] at he; cases he
    simp [hn]
  · rw [if_neg hn] at he
    cases hff : flagFits L0 f
    · simp [hff] at he; subst he; simp [hn]
    · cases hgg : flagFits L1 g
      · simp [hff, hgg] at he; subst he; simp [hn]
      · cases hkk : flagFits L2 k
        · simp [hff, hgg, hkk] at he; subst he; simp [hn]
        · by_cases hh : (Dim.mk e0 L0).Has (x + f.offset)
          · by_cases hk : (Dim.mk e1 L1).Has (y + g.offset)
            · by_cases hl : (Dim.mk e2 L2).Has (z + k.offset)
              · simp [hff, hgg, hkk, hh, hk, hl] at he
              · simp [hff, hgg, hkk, hh, hk, hl] at he; subst he
                simp [hn, hh, hk, hl]
            · simp [hff, hgg, hkk, hh, hk] at he; subst he
              simp [hn, hh, hk]
          · simp [hff, hgg, hkk, hh] at he; subst he
            simp [hn, hh]

theorem at_ok (chk : Bool) {N L0 L1 L2 e0 e1 e2} {o : PD} {h : Heap V} {B P Q cell} (r : Ready N L0 L1 L2 e0 e1 e2 o h B P Q cell)
    (hf0 : e0.n + e0.i + e0.p + 1 < 2147483648) (hf1 : e1.n + e1.i + e1.p + 1 < 2147483648) (hf2 : e2.n + e2.i + e2.p + 1 < 2147483648)
    {n : Nat} {x y z : Int} {f g k : FL}
    (he : accessErr N [⟨e0, L0⟩, ⟨e1, L1⟩, ⟨e2, L2⟩] n [x, y, z] [f, g, k] = none) :
    at_ chk N L0 L1 L2 o n x y z f g k h
      = .ok (.at B (n * points [⟨e0, L0⟩, ⟨e1, L1⟩, ⟨e2, L2⟩]
          + offset [⟨e0, L0⟩, ⟨e1, L1⟩, ⟨e2, L2⟩] (point [x, y, z] [f, g, k]))) h ∧
    n < N ∧ HasPt [⟨e0, L0⟩, ⟨e1, L1⟩, ⟨e2, L2⟩] (point [x, y, z] [f, g, k]) := by
  have hd : check_data chk o = .ok () := by unfold check_data; rw [r.data]; simp
  have hfit0 : e0.Fits := by unfold Ext.Fits; omega
  have hfit1 : e1.Fits := by unfold Ext.Fits; omega
  have hfit2 : e2.Fits := by unfold Ext.Fits; omega
  simp only [accessErr, flagErrs, rangeErrs] at he
  by_cases hn : N ≤ n
  · rw [if_pos hn] at he; cases he
  · rw [if_neg hn] at he
    have hn' : n < N := by omega
    cases hff : flagFits L0 f
    · simp [hff] at he
    · cases hgg : flagFits L1 g
      · simp [hff, hgg] at he
      · cases hkk : flagFits L2 k
        · simp [hff, hgg, hkk] at he
        · by_cases hh : (Dim.mk e0 L0).Has (x + f.offset)
          · by_cases hk : (Dim.mk e1 L1).Has (y + g.offset)
            · by_cases hl : (Dim.mk e2 L2).Has (z + k.offset)
              · refine ⟨?_, hn', hh, hk, hl, trivial⟩
                unfold at_ check_flag
                rw [hd, checkFlagDim_eq, checkFlagDim_eq, checkFlagDim_eq, r.size, sz_range chk e0 e1 e2 hfit0 hfit1 hfit2]
                unfold check_n
                simp only [M.liftM_eq, M.lift_ok, pure_bind, range_check_0 chk e0 L0 _ _ _ _ hf0,
                  range_check_1 chk e1 L1 _ _ _ _ hf1, range_check_2 chk e2 L2 _ _ _ _ hf2]
                simp [hn, hff, hgg, hkk, hh, hk, hl, i32_ok (Dim.int_of_has hh hf0), i32_ok (Dim.int_of_has hk hf1),
                  i32_ok (Dim.int_of_has hl hf2), elem_eq r hn' hh hk hl, points, offset, point]
                ring
              · simp [hff, hgg, hkk, hh, hk, hl] at he
            · simp [hff, hgg, hkk, hh, hk] at he
          · simp [hff, hgg, hkk, hh] at he

/-- `data_pt` -/
theorem data_pt_eq (chk : Bool) {N L0 L1 L2 e0 e1 e2} {o : PD} {h : Heap V} {B P Q cell} (r : Ready N L0 L1 L2 e0 e1 e2 o h B P Q cell)
    (hf0 : e0.n + e0.i + e0.p + 1 < 2147483648) (hf1 : e1.n + e1.i + e1.p + 1 < 2147483648) (hf2 : e2.n + e2.i + e2.p + 1 < 2147483648)
    {n : Nat} (hn : n < N) (hp : points [⟨e0, L0⟩, ⟨e1, L1⟩, ⟨e2, L2⟩] ≠ 0) :
    data_pt chk N o n h = .ok (.at B (n * points [⟨e0, L0⟩, ⟨e1, L1⟩, ⟨e2, L2⟩])) h := by
  have hfit0 : e0.Fits := by unfold Ext.Fits; omega
  have hfit1 : e1.Fits := by unfold Ext.Fits; omega
  have hfit2 : e2.Fits := by unfold Ext.Fits; omega
  have hs0 := (sz_fields_0 e0 e1 e2 hfit0).1
  have hs1 := (sz_fields_1 e0 e1 e2 hfit1).1
  have hs2 := (sz_fields_2 e0 e1 e2 hfit2).1
  obtain ⟨t, ht, ht'⟩ := r.tab
  obtain ⟨u, hu, hu'⟩ := r.tab2
  have hW : 0 < (Dim.mk e0 L0).width := by
    rcases Nat.eq_zero_or_pos (Dim.mk e0 L0).width with h0 | h0
    · simp [points, h0] at hp
    · exact h0
  have hW1 : 0 < (Dim.mk e1 L1).width := by
    rcases Nat.eq_zero_or_pos (Dim.mk e1 L1).width with h0 | h0
    · simp [points, h0] at hp
    · exact h0
  have hblk := r.blk
  rw [← Nat.mul_assoc, ← Nat.mul_assoc] at hblk
  have h4 : n * (Dim.mk e0 L0).width < N * (Dim.mk e0 L0).width := Nat.mul_lt_mul_of_pos_right hn hW
  have h5 : n * (Dim.mk e0 L0).width * (Dim.mk e1 L1).width < N * (Dim.mk e0 L0).width * (Dim.mk e1 L1).width :=
    Nat.mul_lt_mul_of_pos_right h4 hW1
  unfold data_pt check_n pt0At SizeT.n
  rw [if_pos hn, r.size, r.pt0 n hn]
  have hng : ¬ (chk = true ∧ N ≤ n) := by omega
  rw [if_neg hng]
  simp only [check_d_3_0, check_d_3_1, check_d_3_2, sel, hs0, hs1, hs2, Out.ok_bind, M.liftM_eq, M.lift_ok, pure_bind]
  rw [i32_ok (by unfold InI32; omega), M.lift_ok, pure_bind,
    M.bind_ok (Heap.idx_at ht (r := n * (Dim.mk e0 L0).width) (by push_cast; omega) h4),
    M.bind_ok (Heap.loadP_at ht h4 (ht' _ h4)), i32_ok (by unfold InI32; omega), M.lift_ok, pure_bind,
    M.bind_ok (Heap.idx_at hu (r := n * (Dim.mk e0 L0).width * (Dim.mk e1 L1).width) (by push_cast; omega) h5),
    M.bind_ok (Heap.loadP_at hu h5 (hu' _ h5)),
    Heap.padd_at hblk (r := n * (Dim.mk e0 L0).width * (Dim.mk e1 L1).width * (Dim.mk e2 L2).width) (by push_cast; omega)
      (Nat.mul_le_mul_right _ (Nat.le_of_lt h5))]
  simp only [points, Nat.mul_one, Nat.mul_assoc]

theorem check_eq (e0 e1 e2 : Ext) (hf0 : e0.n + e0.i + e0.p < 2147483648) (hf1 : e1.n + e1.i + e1.p < 2147483648)
    (hf2 : e2.n + e2.i + e2.p < 2147483648) :
    (SizeT.new e0.n e0.i e0.p e1.n e1.i e1.p e2.n e2.i e2.p).check = Out.ofErr (sizeErrs 0 [e0, e1, e2]) := by
  have hfit0 : e0.Fits := by unfold Ext.Fits; omega
  have hfit1 : e1.Fits := by unfold Ext.Fits; omega
  have hfit2 : e2.Fits := by unfold Ext.Fits; omega
  obtain ⟨h1, h2, h3⟩ := sz_fields_0 e0 e1 e2 hfit0
  obtain ⟨h4, h5, h6⟩ := sz_fields_1 e0 e1 e2 hfit1
  obtain ⟨h7, h8, h9⟩ := sz_fields_2 e0 e1 e2 hfit2
  unfold sz at h1 h2 h3 h4 h5 h6 h7 h8 h9
  unfold SizeT.check SizeT.checkDim
  rw [h1, h2, h3, h4, h5, h6, h7, h8, h9, checkDim_eq e0 hf0 0, checkDim_eq e1 hf1 1, checkDim_eq e2 hf2 2]
  unfold sizeErrs sizeErrs sizeErrs sizeErrs
  by_cases c0 : e0.i = 0 ∧ e0.n + e0.p ≠ 0
  · rw [if_pos c0, if_pos c0]; rfl
  · rw [if_neg c0, if_neg c0]
    by_cases c1 : e1.i = 0 ∧ e1.n + e1.p ≠ 0
    · rw [if_pos c1, if_pos c1]; rfl
    · rw [if_neg c1, if_neg c1]
      by_cases c2 : e2.i = 0 ∧ e2.n + e2.p ≠ 0
      · rw [if_pos c2, if_pos c2]; rfl
      · rw [if_neg c2, if_neg c2]; rfl

/-- the initialisation of `pt0` -/
theorem setAll_eq (N : Nat) (hN : N < 4294967296) (f : Nat → Ptr) (h : Heap V) (o : PD) :
    forU 0 N (fun m => setPt0 N m (f m)) ⟨h, o⟩
      = .ok () ⟨h, { o with pt0 := fun m => if m < N then f m else o.pt0 m }⟩ := by
  have := forU_exact N hN (fun m => setPt0 (V := V) N m (f m))
    (fun k => ⟨h, { o with pt0 := fun m => if m < k then f m else o.pt0 m }⟩) (by
      intro m hm
      unfold setPt0
      rw [if_pos hm, St.modObj_run]
      congr 3
      funext q
      by_cases hq : q = m
      · subst hq; simp
      · simp only [hq, if_false]
        by_cases h2 : q < m
        · rw [if_pos h2, if_pos (by omega)]
        · rw [if_neg h2, if_neg (by omega)])
  simpa using this

theorem ctor0_eq (N : Nat) (h0 : N ≠ 0) (hN : N < 4294967296) (h : Heap V) (o : PD) :
    ctor0 N ⟨h, o⟩ = .ok () ⟨h, ⟨{}, .null, fun m => if m < N then .null else o.pt0 m, .null, .null⟩⟩ := by
  unfold ctor0
  rw [if_neg h0, M.bind_ok (St.modObj_run _ _)]
  exact setAll_eq N hN (fun _ => .null) h _

theorem allocCell_eq (chk : Bool) {N W0 W1 W2 b p q m ii jj n2 : Nat} {h : Heap V} {s : SizeT} {o : PD} {cell : Nat → Option V}
    {t u : Nat → Option Ptr}
    (hd : o.data = .at b 0) (hs : s.n2 = n2) (hnW : n2 ≤ W2) (hW : W2 ≠ 0) (hW1 : W1 ≠ 0) (hNW : N * W0 * W1 * W2 < 4294967296)
    (hb : h.blk b = some (.vals (N * W0 * W1 * W2) cell)) (ht : h.blk p = some (.ptrs (N * W0) t))
    (hu : h.blk q = some (.ptrs (N * W0 * W1) u))
    (hp0 : o.pt0 m = .at p (m * W0)) (hrow : t (m * W0 + ii) = some (.at q ((m * W0 + ii) * W1)))
    (hm : m < N) (hi : ii < W0) (hj : jj < W1) (hbq : b ≠ q) (hpq : p ≠ q) :
    ∃ u', allocCell chk N s W0 W1 W2 m ii jj ⟨h, o⟩ = .ok () ⟨h.upd q (some (.ptrs (N * W0 * W1) u')), o⟩ ∧
      u' ((m * W0 + ii) * W1 + jj) = some (.at b (((m * W0 + ii) * W1 + jj) * W2 + n2)) ∧
      ∀ k, k ≠ (m * W0 + ii) * W1 + jj → u' k = u k := by
  have hsn : s.n chk 2 = .ok (n2 : Int) := by unfold SizeT.n; rw [check_d_3_2]; simp only [sel, hs]; rfl
  have hk : m * W0 + ii < N * W0 := mul_add_lt hm hi
  have hk2 : (m * W0 + ii) * W1 + jj < N * W0 * W1 := mul_add_lt hk hj
  have hkw : ((m * W0 + ii) * W1 + jj) * W2 + n2 ≤ N * W0 * W1 * W2 := mul_add_le hk2 hnW
  have e1 : ((m * W0 + ii) * W1 + jj) * W2 = m * W0 * W1 * W2 + ii * W1 * W2 + jj * W2 := by ring
  have l1 : m * W0 ≤ m * W0 * W1 := Nat.le_mul_of_pos_right _ (by omega)
  have l2 : m * W0 * W1 ≤ m * W0 * W1 * W2 := Nat.le_mul_of_pos_right _ (by omega)
  have l3 : ii * W1 ≤ ii * W1 * W2 := Nat.le_mul_of_pos_right _ (by omega)
  have u1 : u32 (m * W0) = m * W0 := u32_of_lt (by omega)
  have u2 : u32 (m * W0 * W1) = m * W0 * W1 := u32_of_lt (by omega)
  have u3 : u32 (m * W0 * W1 * W2) = m * W0 * W1 * W2 := u32_of_lt (by omega)
  have u4 : u32 (ii * W1) = ii * W1 := u32_of_lt (by omega)
  have u5 : u32 (ii * W1 * W2) = ii * W1 * W2 := u32_of_lt (by omega)
  have u6 : u32 (jj * W2) = jj * W2 := u32_of_lt (by omega)
  unfold allocCell
  rw [M.bind_ok (St.obj_run _)]
  unfold pt0At
  simp only [if_pos hm, pure_bind, hp0, hd, u1, u2, u3, u4, u5, u6, hsn, M.liftM_eq, M.lift_ok]
  rw [M.bind_ok (St.heap_ok (s := ⟨h, o⟩) (Heap.idx_at (r := m * W0 + ii) ht (by push_cast; rfl) hk))]
  rw [M.bind_ok (St.heap_ok (s := ⟨h, o⟩) (Heap.loadP_at ht hk hrow))]
  rw [M.bind_ok (St.heap_ok (s := ⟨h, o⟩) (Heap.idx_at (r := (m * W0 + ii) * W1 + jj) hu (by push_cast; rfl) hk2))]
  rw [M.bind_ok (St.heap_ok (s := ⟨h, o⟩) (Heap.padd_at (r := m * W0 * W1 * W2) hb (by push_cast; omega)
    (by simp only [Block.len]; omega)))]
  rw [M.bind_ok (St.heap_ok (s := ⟨h, o⟩) (Heap.padd_at (r := m * W0 * W1 * W2 + ii * W1 * W2) hb (by push_cast; rfl)
    (by simp only [Block.len]; omega)))]
  rw [M.bind_ok (St.heap_ok (s := ⟨h, o⟩) (Heap.padd_at (r := m * W0 * W1 * W2 + ii * W1 * W2 + jj * W2) hb (by push_cast; rfl)
    (by simp only [Block.len]; omega)))]
  rw [M.bind_ok (St.heap_ok (s := ⟨h, o⟩) (Heap.storeP_at hu hk2))]
  simp only
  generalize hu1 : (fun k => if k = (m * W0 + ii) * W1 + jj then some (Ptr.at b (m * W0 * W1 * W2 + ii * W1 * W2 + jj * W2)) else u k) = u1
  generalize hg : h.upd q (some (.ptrs (N * W0 * W1) u1)) = g
  have ht2 : g.blk p = some (.ptrs (N * W0) t) := by rw [← hg, Heap.upd_blk_ne _ _ hpq, ht]
  have hu2 : g.blk q = some (.ptrs (N * W0 * W1) u1) := by rw [← hg]; simp
  have hb2 : g.blk b = some (.vals (N * W0 * W1 * W2) cell) := by rw [← hg, Heap.upd_blk_ne _ _ hbq, hb]
  rw [M.bind_ok (St.heap_ok (s := ⟨g, o⟩) (Heap.idx_at (r := m * W0 + ii) ht2 (by push_cast; rfl) hk))]
  rw [M.bind_ok (St.heap_ok (s := ⟨g, o⟩) (Heap.loadP_at ht2 hk hrow))]
  rw [M.bind_ok (St.heap_ok (s := ⟨g, o⟩) (Heap.idx_at (r := (m * W0 + ii) * W1 + jj) hu2 (by push_cast; rfl) hk2))]
  rw [M.bind_ok (St.heap_ok (s := ⟨g, o⟩) (Heap.loadP_at (q := .at b (m * W0 * W1 * W2 + ii * W1 * W2 + jj * W2)) hu2 hk2
    (by rw [← hu1]; exact if_pos rfl)))]
  rw [M.bind_ok (St.heap_ok (s := ⟨g, o⟩) (Heap.padd_at (r := m * W0 * W1 * W2 + ii * W1 * W2 + jj * W2 + n2) hb2 (by push_cast; rfl)
    (by simp only [Block.len]; omega)))]
  rw [St.heap_ok (s := ⟨g, o⟩) (Heap.storeP_at hu2 hk2), ← hg, Heap.upd_upd]
  refine ⟨_, rfl, ?_, ?_⟩
  · simp only [if_true, e1]
  · intro k hk; simp only [← hu1, if_neg hk]

theorem allocRow_eq (chk : Bool) {N W0 W1 W2 b p q m ii n1 n2 : Nat} {h : Heap V} {s : SizeT} {o : PD} {cell : Nat → Option V}
    {t u : Nat → Option Ptr}
    (hd : o.data = .at b 0) (hq : o.pt2 = .at q 0) (hs1 : s.n1 = n1) (hn1 : n1 ≤ W1)
    (hs : s.n2 = n2) (hnW : n2 ≤ W2) (hW : W2 ≠ 0) (hW1 : W1 ≠ 0) (hNW : N * W0 * W1 * W2 < 4294967296)
    (hb : h.blk b = some (.vals (N * W0 * W1 * W2) cell)) (ht : h.blk p = some (.ptrs (N * W0) t))
    (hu : h.blk q = some (.ptrs (N * W0 * W1) u))
    (hp0 : o.pt0 m = .at p (m * W0))
    (hm : m < N) (hi : ii < W0) (hbp : b ≠ p) (hbq : b ≠ q) (hpq : p ≠ q)
    (hdone : ∀ k < (m * W0 + ii) * W1, u k = some (.at b (k * W2 + n2))) :
    ∃ t' u', allocRow chk N s W0 W1 W2 m ii ⟨h, o⟩
        = .ok () ⟨(h.upd p (some (.ptrs (N * W0) t'))).upd q (some (.ptrs (N * W0 * W1) u')), o⟩ ∧
      t' (m * W0 + ii) = some (.at q ((m * W0 + ii) * W1 + n1)) ∧
      (∀ k, k ≠ m * W0 + ii → t' k = t k) ∧
      ∀ k < (m * W0 + (ii + 1)) * W1, u' k = some (.at b (k * W2 + n2)) := by
  have hsn : s.n chk 1 = .ok (n1 : Int) := by unfold SizeT.n; rw [check_d_3_1]; simp only [sel, hs1]; rfl
  have hk : m * W0 + ii < N * W0 := mul_add_lt hm hi
  have hk2 : (m * W0 + ii) * W1 + n1 ≤ N * W0 * W1 := mul_add_le hk hn1
  have hk3 : (m * W0 + ii) * W1 + W1 ≤ N * W0 * W1 := mul_add_le hk (Nat.le_refl _)
  have e1 : (m * W0 + ii) * W1 = m * W0 * W1 + ii * W1 := by ring
  have l1 : m * W0 ≤ m * W0 * W1 := Nat.le_mul_of_pos_right _ (by omega)
  have l2 : N * W0 * W1 ≤ N * W0 * W1 * W2 := Nat.le_mul_of_pos_right _ (by omega)
  have u1 : u32 (m * W0) = m * W0 := u32_of_lt (by omega)
  have u2 : u32 (m * W0 * W1) = m * W0 * W1 := u32_of_lt (by omega)
  have u4 : u32 (ii * W1) = ii * W1 := u32_of_lt (by omega)
  unfold allocRow
  rw [M.bind_ok (St.obj_run _)]
  unfold pt0At
  simp only [if_pos hm, pure_bind, hp0, hq, u1, u2, u4, hsn, M.liftM_eq, M.lift_ok]
  rw [M.bind_ok (St.heap_ok (s := ⟨h, o⟩) (Heap.idx_at (r := m * W0 + ii) ht (by push_cast; rfl) hk))]
  rw [M.bind_ok (St.heap_ok (s := ⟨h, o⟩) (Heap.padd_at (r := m * W0 * W1) hu (by push_cast; omega)
    (by simp only [Block.len]; omega)))]
  rw [M.bind_ok (St.heap_ok (s := ⟨h, o⟩) (Heap.padd_at (r := (m * W0 + ii) * W1) hu (by push_cast; rw [← Nat.cast_mul, ← Nat.cast_mul]; push_cast; ring)
    (by simp only [Block.len]; omega)))]
  rw [M.bind_ok (St.heap_ok (s := ⟨h, o⟩) (Heap.storeP_at ht hk))]
  simp only
  generalize ht1 : (fun k => if k = m * W0 + ii then some (Ptr.at q ((m * W0 + ii) * W1)) else t k) = t1
  generalize hg : h.upd p (some (.ptrs (N * W0) t1)) = g
  have ht2 : g.blk p = some (.ptrs (N * W0) t1) := by rw [← hg]; simp
  have hu2 : g.blk q = some (.ptrs (N * W0 * W1) u) := by rw [← hg, Heap.upd_blk_ne _ _ hpq.symm, hu]
  have hb2 : g.blk b = some (.vals (N * W0 * W1 * W2) cell) := by rw [← hg, Heap.upd_blk_ne _ _ hbp, hb]
  have hrow : t1 (m * W0 + ii) = some (.at q ((m * W0 + ii) * W1)) := by rw [← ht1]; exact if_pos rfl
  obtain ⟨s', h1, u', h2, h3⟩ := forU_nats (σ := St V PD) W1 (by omega) (fun jj => allocCell chk N s W0 W1 W2 m ii jj)
    (fun jj st => ∃ u', st = ⟨g.upd q (some (.ptrs (N * W0 * W1) u')), o⟩ ∧
      ∀ k < (m * W0 + ii) * W1 + jj, u' k = some (.at b (k * W2 + n2))) (by
        rintro jj st hj ⟨v1, rfl, hdone1⟩
        obtain ⟨v2, e, c1, c2⟩ := allocCell_eq chk (N := N) (W0 := W0) (W1 := W1) (W2 := W2) (b := b) (p := p) (q := q)
          (m := m) (ii := ii) (jj := jj) (n2 := n2)
          (h := g.upd q (some (.ptrs (N * W0 * W1) v1))) (s := s) (o := o) (cell := cell) (t := t1) (u := v1)
          hd hs hnW hW hW1 hNW (by rw [Heap.upd_blk_ne _ _ hbq, hb2]) (by rw [Heap.upd_blk_ne _ _ hpq, ht2]) (by simp) hp0 hrow
          hm hi hj hbq hpq
        refine ⟨_, e, v2, by rw [Heap.upd_upd], ?_⟩
        intro k hk
        by_cases hk' : k = (m * W0 + ii) * W1 + jj
        · rw [hk', c1]
        · rw [c2 k hk', hdone1 k (by omega)])
    ⟨g, o⟩ ⟨u, by rw [Heap.upd_self _ _ _ hu2], by simpa using hdone⟩
  rw [M.bind_ok h1, h2]
  generalize hg' : g.upd q (some (.ptrs (N * W0 * W1) u')) = g'
  have ht3 : g'.blk p = some (.ptrs (N * W0) t1) := by rw [← hg', Heap.upd_blk_ne _ _ hpq, ht2]
  have hu3 : g'.blk q = some (.ptrs (N * W0 * W1) u') := by rw [← hg']; simp
  rw [M.bind_ok (St.heap_ok (s := ⟨g', o⟩) (Heap.idx_at (r := m * W0 + ii) ht3 (by push_cast; rfl) hk))]
  rw [M.bind_ok (St.heap_ok (s := ⟨g', o⟩) (Heap.loadP_at ht3 hk hrow))]
  rw [M.bind_ok (St.heap_ok (s := ⟨g', o⟩) (Heap.padd_at (r := (m * W0 + ii) * W1 + n1) hu3 (by push_cast; rfl)
    (by simp only [Block.len]; omega)))]
  rw [St.heap_ok (s := ⟨g', o⟩) (Heap.storeP_at ht3 hk), ← hg', Heap.upd_comm _ hpq.symm, ← hg, Heap.upd_upd]
  refine ⟨_, u', rfl, ?_, ?_, ?_⟩
  · simp only [if_true]
  · intro k hk; simp only [← ht1, if_neg hk]
  · intro k hk
    refine h3 k ?_
    have : (m * W0 + (ii + 1)) * W1 = (m * W0 + ii) * W1 + W1 := by ring
    omega

theorem allocComp_eq (chk : Bool) {N W0 W1 W2 b p q m n0 n1 n2 : Nat} {h : Heap V} {s : SizeT} {o : PD} {cell : Nat → Option V}
    {t u : Nat → Option Ptr}
    (hd : o.data = .at b 0) (hp1 : o.pt1 = .at p 0) (hq : o.pt2 = .at q 0)
    (hs0 : s.n0 = n0) (hn0 : n0 ≤ W0) (hs1 : s.n1 = n1) (hn1 : n1 ≤ W1)
    (hs : s.n2 = n2) (hnW : n2 ≤ W2) (hW : W2 ≠ 0) (hW1 : W1 ≠ 0) (hNW : N * W0 * W1 * W2 < 4294967296) (hN : N ≠ 0)
    (hb : h.blk b = some (.vals (N * W0 * W1 * W2) cell)) (ht : h.blk p = some (.ptrs (N * W0) t))
    (hu : h.blk q = some (.ptrs (N * W0 * W1) u))
    (hm : m < N) (hbp : b ≠ p) (hbq : b ≠ q) (hpq : p ≠ q)
    (hdone : ∀ k < m * W0, t k = some (.at q (k * W1 + n1)))
    (hdone2 : ∀ k < m * W0 * W1, u k = some (.at b (k * W2 + n2))) :
    ∃ t' u', allocComp chk N s W0 W1 W2 m ⟨h, o⟩
        = .ok () ⟨(h.upd p (some (.ptrs (N * W0) t'))).upd q (some (.ptrs (N * W0 * W1) u')),
          { o with pt0 := fun q => if q = m then .at p (m * W0 + n0) else o.pt0 q }⟩ ∧
      (∀ k < (m + 1) * W0, t' k = some (.at q (k * W1 + n1))) ∧
      ∀ k < (m + 1) * W0 * W1, u' k = some (.at b (k * W2 + n2)) := by
  have hsn : s.n chk 0 = .ok (n0 : Int) := by unfold SizeT.n; rw [check_d_3_0]; simp only [sel, hs0]; rfl
  have l1 : N * W0 ≤ N * W0 * W1 := Nat.le_mul_of_pos_right _ (by omega)
  have l2 : N * W0 * W1 ≤ N * W0 * W1 * W2 := Nat.le_mul_of_pos_right _ (by omega)
  have hmle : m * W0 ≤ N * W0 := Nat.mul_le_mul_right _ (by omega)
  have hmle' := mul_add_le hm hn0
  have hW0N : W0 ≤ N * W0 := Nat.le_mul_of_pos_left _ (by omega)
  unfold allocComp
  rw [M.bind_ok (St.obj_run _)]
  simp only [hp1]
  rw [u32_of_lt (by omega), M.bind_ok (St.heap_ok (s := ⟨h, o⟩) (Heap.padd_at (r := m * W0) ht (by push_cast; omega)
    (by simp only [Block.len]; omega)))]
  have hset : ∀ (g : Heap V) (o' : PD) q, setPt0 N m q ⟨g, o'⟩ = .ok () ⟨g, { o' with pt0 := fun k => if k = m then q else o'.pt0 k }⟩ := by
    intro g o' q; unfold setPt0; rw [if_pos hm, St.modObj_run]
  rw [M.bind_ok (hset _ _ _)]
  obtain ⟨s', h1, t', u', h2, h3, h3'⟩ := forU_nats (σ := St V PD) W0 (by omega) (fun ii => allocRow chk N s W0 W1 W2 m ii)
    (fun ii st => ∃ t' u', st = ⟨(h.upd p (some (.ptrs (N * W0) t'))).upd q (some (.ptrs (N * W0 * W1) u')),
        { o with pt0 := fun k => if k = m then .at p (m * W0) else o.pt0 k }⟩ ∧
      (∀ k < m * W0 + ii, t' k = some (.at q (k * W1 + n1))) ∧
      ∀ k < (m * W0 + ii) * W1, u' k = some (.at b (k * W2 + n2))) (by
        rintro ii st hi ⟨t1, v1, rfl, hdone1, hdone1'⟩
        obtain ⟨t2, v2, e, c1, c2, c3⟩ := allocRow_eq chk (N := N) (W0 := W0) (W1 := W1) (W2 := W2) (b := b) (p := p) (q := q)
          (m := m) (ii := ii) (n1 := n1) (n2 := n2)
          (h := (h.upd p (some (.ptrs (N * W0) t1))).upd q (some (.ptrs (N * W0 * W1) v1))) (s := s)
          (o := { o with pt0 := fun k => if k = m then .at p (m * W0) else o.pt0 k }) (cell := cell) (t := t1) (u := v1)
          hd hq hs1 hn1 hs hnW hW hW1 hNW (by rw [Heap.upd_blk_ne _ _ hbq, Heap.upd_blk_ne _ _ hbp, hb])
          (by rw [Heap.upd_blk_ne _ _ hpq]; simp) (by simp) (by simp) hm hi hbp hbq hpq hdone1'
        refine ⟨_, e, t2, v2, ?_, ?_, c3⟩
        · rw [Heap.upd4 _ hpq]
        · intro k hk
          by_cases hk' : k = m * W0 + ii
          · rw [hk', c1]
          · rw [c2 k hk', hdone1 k (by omega)])
    ⟨h, { o with pt0 := fun k => if k = m then .at p (m * W0) else o.pt0 k }⟩
    ⟨t, u, by rw [Heap.upd_self _ _ _ ht, Heap.upd_self _ _ _ hu], by simpa using hdone, by simpa using hdone2⟩
  rw [M.bind_ok h1, h2, M.bind_ok (St.obj_run _)]
  unfold pt0At
  simp only [if_pos hm, pure_bind, if_true, hsn, M.liftM_eq, M.lift_ok]
  rw [M.bind_ok (St.heap_ok (s := ⟨_, _⟩) (Heap.padd_at (r := m * W0 + n0) (b := p) (B := .ptrs (N * W0) t')
    (by simp only; rw [Heap.upd_blk_ne _ _ hpq]; simp) (by push_cast; omega)
    (by simp only [Block.len]; omega)))]
  rw [hset]
  refine ⟨t', u', ?_, by rw [Nat.succ_mul]; exact h3, by rw [Nat.succ_mul]; exact h3'⟩
  simp only [hp1, Res.ok.injEq, true_and, St.mk.injEq, PD.mk.injEq, and_true]
  funext k
  by_cases hk : k = m <;> simp [hk]

/-- what `alloc` does when it gets as far as asking for memory -/
inductive AllocRes (N : Nat) (L0 L1 L2 : Loc) (e0 e1 e2 : Ext) (h : Heap V) (o : PD) : Res (St V PD) Unit → Prop
  | nomem (hm : h.mem h.next (N * points [⟨e0, L0⟩, ⟨e1, L1⟩, ⟨e2, L2⟩]) = false) :
      AllocRes N L0 L1 L2 e0 e1 e2 h o (.err .noMemory ⟨h.skip, o⟩)
  | broken (h' : Heap V) (o' : PD) (hm : h.mem h.next (N * points [⟨e0, L0⟩, ⟨e1, L1⟩, ⟨e2, L2⟩]) = true)
      (hm2 : h.mem (h.next + 1) (N * (Dim.mk e0 L0).width) = false)
      (hn : h'.next = h.next + 2) (hmem : h'.mem = h.mem) (hfr : ∀ b, b ≠ h.next → h'.blk b = h.blk b)
      (hr : Broken e0 e1 e2 o' h' h.next none) (hp : o'.pt0 = o.pt0) : AllocRes N L0 L1 L2 e0 e1 e2 h o (.err .noMemory ⟨h', o'⟩)
  | broken2 (h' : Heap V) (o' : PD) (hm : h.mem h.next (N * points [⟨e0, L0⟩, ⟨e1, L1⟩, ⟨e2, L2⟩]) = true)
      (hm2 : h.mem (h.next + 1) (N * (Dim.mk e0 L0).width) = true)
      (hm3 : h.mem (h.next + 2) (N * (Dim.mk e0 L0).width * (Dim.mk e1 L1).width) = false)
      (hn : h'.next = h.next + 3) (hmem : h'.mem = h.mem) (hfr : ∀ b, b ≠ h.next → b ≠ h.next + 1 → h'.blk b = h.blk b)
      (hr : Broken e0 e1 e2 o' h' h.next (some (h.next + 1))) (hp : o'.pt0 = o.pt0) : AllocRes N L0 L1 L2 e0 e1 e2 h o (.err .noMemory ⟨h', o'⟩)
  | ok (h' : Heap V) (o' : PD) (hm : h.mem h.next (N * points [⟨e0, L0⟩, ⟨e1, L1⟩, ⟨e2, L2⟩]) = true)
      (hm2 : h.mem (h.next + 1) (N * (Dim.mk e0 L0).width) = true)
      (hm3 : h.mem (h.next + 2) (N * (Dim.mk e0 L0).width * (Dim.mk e1 L1).width) = true)
      (hn : h'.next = h.next + 3) (hmem : h'.mem = h.mem)
      (hfr : ∀ b, b ≠ h.next → b ≠ h.next + 1 → b ≠ h.next + 2 → h'.blk b = h.blk b)
      (hr : Ready N L0 L1 L2 e0 e1 e2 o' h' h.next (h.next + 1) (h.next + 2) (fun _ => none)) :
      AllocRes N L0 L1 L2 e0 e1 e2 h o (.ok () ⟨h', o'⟩)

theorem alloc_notEmpty (chk : Bool) {N L0 L1 L2} {n0 i0 p0 n1 i1 p1 n2 i2 p2 : Nat} {h : Heap V} {o : PD} (hd : o.data ≠ .null) :
    alloc chk N L0 L1 L2 n0 i0 p0 n1 i1 p1 n2 i2 p2 ⟨h, o⟩ = .err .notEmpty ⟨h, o⟩ := by
  unfold alloc
  rw [M.bind_ok (St.obj_run _)]; simp only; rw [if_pos hd]; rfl

theorem alloc_bad (chk : Bool) {N L0 L1 L2} {e0 e1 e2 : Ext} {h : Heap V} {o : PD} (hd : o.data = .null)
    (hf0 : e0.n + e0.i + e0.p < 2147483648) (hf1 : e1.n + e1.i + e1.p < 2147483648) (hf2 : e2.n + e2.i + e2.p < 2147483648)
    {e : Err} (he : sizeErrs 0 [e0, e1, e2] = some e) :
    alloc chk N L0 L1 L2 e0.n e0.i e0.p e1.n e1.i e1.p e2.n e2.i e2.p ⟨h, o⟩ = .err e ⟨h, o⟩ := by
  unfold alloc
  rw [M.bind_ok (St.obj_run _)]; simp only; rw [if_neg (by simp [hd]), check_eq e0 e1 e2 hf0 hf1 hf2, he]; rfl

theorem alloc_none (chk : Bool) {N L0 L1 L2} {e0 e1 e2 : Ext} {h : Heap V} {o : PD} (hd : o.data = .null)
    (hf0 : e0.n + e0.i + e0.p + 1 < 2147483648) (hf1 : e1.n + e1.i + e1.p + 1 < 2147483648) (hf2 : e2.n + e2.i + e2.p + 1 < 2147483648)
    (hlt : (Dim.mk e0 L0).width * (Dim.mk e1 L1).width < 4294967296 ∨ (Dim.mk e2 L2).width = 0)
    (he : sizeErrs 0 [e0, e1, e2] = none) (hp : points [⟨e0, L0⟩, ⟨e1, L1⟩, ⟨e2, L2⟩] = 0) :
    alloc chk N L0 L1 L2 e0.n e0.i e0.p e1.n e1.i e1.p e2.n e2.i e2.p ⟨h, o⟩ = .ok () ⟨h, o⟩ := by
  have hfit0 : e0.Fits := by unfold Ext.Fits; omega
  have hfit1 : e1.Fits := by unfold Ext.Fits; omega
  have hfit2 : e2.Fits := by unfold Ext.Fits; omega
  have hz0 := (sz_acc_0 chk e0 e1 e2 hfit0 .ALL).2.2.1
  have hz1 := (sz_acc_1 chk e0 e1 e2 hfit1 .ALL).2.2.1
  have hz2 := (sz_acc_2 chk e0 e1 e2 hfit2 .ALL).2.2.1
  unfold sz at hz0 hz1 hz2
  unfold alloc
  rw [M.bind_ok (St.obj_run _)]; simp only; rw [if_neg (by simp [hd]), check_eq e0 e1 e2 (Nat.lt_of_succ_lt hf0) (Nat.lt_of_succ_lt hf1) (Nat.lt_of_succ_lt hf2), he]
  have hz : u32 (u32 ((Dim.mk e0 L0).width * (Dim.mk e1 L1).width) * (Dim.mk e2 L2).width) = 0 := by
    rcases hlt with hlt | hlt
    · have : (Dim.mk e0 L0).width * (Dim.mk e1 L1).width * (Dim.mk e2 L2).width = 0 := by
        simpa [points, Nat.mul_assoc] using hp
      rw [u32_of_lt hlt, this]; rfl
    · rw [hlt, Nat.mul_zero]; rfl
  simp only [Out.ofErr, hz0, hz1, hz2, M.liftM_eq, M.lift_ok, pure_bind, width_u32 e0 L0 (Nat.lt_of_succ_lt hf0), width_u32 e1 L1 (Nat.lt_of_succ_lt hf1), width_u32 e2 L2 (Nat.lt_of_succ_lt hf2), hz]
  rfl

theorem alloc_some (chk : Bool) {N L0 L1 L2} {e0 e1 e2 : Ext} {h : Heap V} {o : PD} (hd : o.data = .null) (hq1 : o.pt1 = .null)
    (hq2 : o.pt2 = .null) (hN : N < 4294967296) (hN0 : N ≠ 0)
    (hf0 : e0.n + e0.i + e0.p < 2147483648) (hf1 : e1.n + e1.i + e1.p < 2147483648) (hf2 : e2.n + e2.i + e2.p < 2147483648)
    (hNp : N * points [⟨e0, L0⟩, ⟨e1, L1⟩, ⟨e2, L2⟩] < 4294967296)
    (he : sizeErrs 0 [e0, e1, e2] = none) (hp : points [⟨e0, L0⟩, ⟨e1, L1⟩, ⟨e2, L2⟩] ≠ 0) :
    AllocRes N L0 L1 L2 e0 e1 e2 h o (alloc chk N L0 L1 L2 e0.n e0.i e0.p e1.n e1.i e1.p e2.n e2.i e2.p ⟨h, o⟩) := by
  have hfit0 : e0.Fits := by unfold Ext.Fits; omega
  have hfit1 : e1.Fits := by unfold Ext.Fits; omega
  have hfit2 : e2.Fits := by unfold Ext.Fits; omega
  have hz0 := (sz_acc_0 chk e0 e1 e2 hfit0 .ALL).2.2.1
  have hz1 := (sz_acc_1 chk e0 e1 e2 hfit1 .ALL).2.2.1
  have hz2 := (sz_acc_2 chk e0 e1 e2 hfit2 .ALL).2.2.1
  have hsn0 := (sz_fields_0 e0 e1 e2 hfit0).1
  have hsn1 := (sz_fields_1 e0 e1 e2 hfit1).1
  have hsn2 := (sz_fields_2 e0 e1 e2 hfit2).1
  have hW : points [⟨e0, L0⟩, ⟨e1, L1⟩, ⟨e2, L2⟩] = (Dim.mk e0 L0).width * ((Dim.mk e1 L1).width * (Dim.mk e2 L2).width) := by
    simp [points]
  have hwd0 := width_u32 e0 L0 hf0
  have hwd1 := width_u32 e1 L1 hf1
  have hwd2 := width_u32 e2 L2 hf2
  have hnW0 := Dim.n_le_width ⟨e0, L0⟩
  have hnW1 := Dim.n_le_width ⟨e1, L1⟩
  have hnW2 := Dim.n_le_width ⟨e2, L2⟩
  rw [hW] at hNp hp
  unfold sz at hz0 hz1 hz2 hsn0 hsn1 hsn2
  unfold alloc
  rw [M.bind_ok (St.obj_run _)]; simp only; rw [if_neg (by simp [hd]), check_eq e0 e1 e2 hf0 hf1 hf2, he]
  simp only [Out.ofErr, hz0, hz1, hz2, M.liftM_eq, M.lift_ok, pure_bind, hwd0, hwd1, hwd2]
  generalize hw0 : (Dim.mk e0 L0).width = W0 at *
  generalize hw1 : (Dim.mk e1 L1).width = W1 at *
  generalize hw2 : (Dim.mk e2 L2).width = W2 at *
  have hW0 : W0 ≠ 0 := by rintro rfl; simp at hp
  have hW1 : W1 ≠ 0 := by rintro rfl; simp at hp
  have hW2 : W2 ≠ 0 := by rintro rfl; simp at hp
  have hle : W0 * (W1 * W2) ≤ N * (W0 * (W1 * W2)) := Nat.le_mul_of_pos_left _ (by omega)
  have hle1 : W0 * W1 ≤ W0 * W1 * W2 := Nat.le_mul_of_pos_right _ (by omega)
  have ea : N * (W0 * (W1 * W2)) = N * W0 * W1 * W2 := by ring
  have eb : W0 * (W1 * W2) = W0 * W1 * W2 := by ring
  have hle2 : N * W0 ≤ N * W0 * W1 := Nat.le_mul_of_pos_right _ (by omega)
  have hle3 : N * W0 * W1 ≤ N * W0 * W1 * W2 := Nat.le_mul_of_pos_right _ (by omega)
  have u1 : u32 (W0 * W1) = W0 * W1 := u32_of_lt (by omega)
  have u1' : u32 (W0 * W1 * W2) = W0 * W1 * W2 := u32_of_lt (by omega)
  have u2 : u32 (N * (W0 * W1 * W2)) = N * (W0 * W1 * W2) := u32_of_lt (by rw [← eb]; exact hNp)
  have u3 : u32 (N * W0) = N * W0 := u32_of_lt (by omega)
  have u4 : u32 (N * W0 * W1) = N * W0 * W1 := u32_of_lt (by omega)
  rw [u1, u1', if_pos (by rw [← eb]; exact hp)]
  have ec : N * (W0 * W1 * W2) = N * W0 * W1 * W2 := by ring
  have hu : allocMem (V := V) chk N (SizeT.new e0.n e0.i e0.p e1.n e1.i e1.p e2.n e2.i e2.p) W0 W1 W2 = (do
      let d ← St.heap (Heap.newVals (N * W0 * W1 * W2))
      St.modObj (fun o => { o with data := d })
      St.modObj (fun o => { o with size := (SizeT.new e0.n e0.i e0.p e1.n e1.i e1.p e2.n e2.i e2.p) })
      let q ← St.heap (Heap.newPtrs (N * W0))
      St.modObj (fun o => { o with pt1 := q })
      let q ← St.heap (Heap.newPtrs (N * W0 * W1))
      St.modObj (fun o => { o with pt2 := q })
      forU 0 N fun m => allocComp chk N (SizeT.new e0.n e0.i e0.p e1.n e1.i e1.p e2.n e2.i e2.p) W0 W1 W2 m) := by
    unfold allocMem; rw [u1, u1', Nat.mul_comm (W0 * W1 * W2) N, u2, u3, u4, ec]
  rw [hu]
  rw [ea] at hNp hle
  have hWp : N * points [⟨e0, L0⟩, ⟨e1, L1⟩, ⟨e2, L2⟩] = N * W0 * W1 * W2 := by rw [hW, ea]
  cases hm : h.mem h.next (N * W0 * W1 * W2)
  · rw [tryAlloc_bad (s' := ⟨h.skip, o⟩)]
    · exact .nomem (by rw [hWp]; exact hm)
    · rw [M.bind_err (St.heap_err (s := ⟨h, o⟩) (Heap.newVals_fail hm))]
  · have hb : (h.push (.vals (N * W0 * W1 * W2) fun _ => none)).blk h.next = some (.vals (N * W0 * W1 * W2) fun _ => none) := by simp
    cases hm2 : h.mem (h.next + 1) (N * W0)
    · rw [tryAlloc_bad (s' := ⟨(h.push (.vals (N * W0 * W1 * W2) fun _ => none)).skip,
        ⟨SizeT.new e0.n e0.i e0.p e1.n e1.i e1.p e2.n e2.i e2.p, .at h.next 0, o.pt0, o.pt1, o.pt2⟩⟩)]
      · exact .broken _ _ (by rw [hWp]; exact hm) (by rw [hw0]; exact hm2) rfl rfl
          (fun b hb => Heap.push_blk_ne _ _ hb) ⟨rfl, rfl, hq1, hq2, ⟨_, _, hb⟩, by simp⟩ rfl
      · rw [M.bind_ok (St.heap_ok (s := ⟨h, o⟩) (Heap.newVals_ok hm)),
          M.bind_ok (St.modObj_run _ _), M.bind_ok (St.modObj_run _ _)]
        simp only
        rw [M.bind_err (St.heap_err (s := ⟨_, _⟩) (Heap.newPtrs_fail (by simpa using hm2)))]
    · generalize hg1 : h.push (.vals (N * W0 * W1 * W2) fun _ => none) = g1 at hb
      have hg1n : g1.next = h.next + 1 := by rw [← hg1]; rfl
      have hg1m : g1.mem = h.mem := by rw [← hg1]; rfl
      generalize hg2 : g1.push (.ptrs (N * W0) fun _ => none) = g2
      have hg2n : g2.next = h.next + 2 := by rw [← hg2, Heap.push_next, hg1n]
      have hg2m : g2.mem = h.mem := by rw [← hg2, Heap.push_mem, hg1m]
      have hb2 : g2.blk h.next = some (.vals (N * W0 * W1 * W2) fun _ => none) := by
        rw [← hg2, Heap.push_blk_ne _ _ (by omega), hb]
      have hp2 : g2.blk (h.next + 1) = some (.ptrs (N * W0) fun _ => none) := by
        rw [← hg2, ← hg1n]; simp
      have hfr2 : ∀ b, b ≠ h.next → b ≠ h.next + 1 → g2.blk b = h.blk b := by
        intro b hb1 hb2
        rw [← hg2, Heap.push_blk_ne _ _ (by omega), ← hg1, Heap.push_blk_ne _ _ hb1]
      cases hm3 : h.mem (h.next + 2) (N * W0 * W1)
      · rw [tryAlloc_bad (s' := ⟨g2.skip,
          ⟨SizeT.new e0.n e0.i e0.p e1.n e1.i e1.p e2.n e2.i e2.p, .at h.next 0, o.pt0, .at (h.next + 1) 0, o.pt2⟩⟩)]
        · exact .broken2 _ _ (by rw [hWp]; exact hm) (by rw [hw0]; exact hm2) (by rw [hw0, hw1]; exact hm3)
            (by rw [Heap.skip_next, hg2n]) (by rw [Heap.skip_mem, hg2m])
            (fun b hb1 hb2 => hfr2 b hb1 hb2) ⟨rfl, rfl, rfl, hq2, ⟨_, _, hb2⟩, by rintro p ⟨⟩; exact ⟨_, _, hp2⟩⟩ rfl
        · rw [M.bind_ok (St.heap_ok (s := ⟨h, o⟩) (Heap.newVals_ok hm)),
            M.bind_ok (St.modObj_run _ _), M.bind_ok (St.modObj_run _ _)]
          simp only [hg1]
          rw [M.bind_ok (St.heap_ok (s := ⟨_, _⟩) (Heap.newPtrs_ok (by simpa [hg1m, hg1n] using hm2))), M.bind_ok (St.modObj_run _ _)]
          simp only [hg2, hg1n]
          rw [M.bind_err (St.heap_err (s := ⟨_, _⟩) (Heap.newPtrs_fail (by simpa [hg2m, hg2n] using hm3)))]
      · generalize hg3 : g2.push (.ptrs (N * W0 * W1) fun _ => none) = g3
        have hb3 : g3.blk h.next = some (.vals (N * W0 * W1 * W2) fun _ => none) := by
          rw [← hg3, Heap.push_blk_ne _ _ (by omega), hb2]
        have hp3 : g3.blk (h.next + 1) = some (.ptrs (N * W0) fun _ => none) := by
          rw [← hg3, Heap.push_blk_ne _ _ (by omega), hp2]
        have hq3 : g3.blk (h.next + 2) = some (.ptrs (N * W0 * W1) fun _ => none) := by
          rw [← hg3, ← hg2n]; simp
        obtain ⟨s', k1, t', u', k2, k3, k4⟩ := forU_nats (σ := St V PD) N hN
          (fun m => allocComp chk N (SizeT.new e0.n e0.i e0.p e1.n e1.i e1.p e2.n e2.i e2.p) W0 W1 W2 m)
          (fun m st => ∃ t' u', st = ⟨(g3.upd (h.next + 1) (some (.ptrs (N * W0) t'))).upd (h.next + 2) (some (.ptrs (N * W0 * W1) u')),
              ⟨SizeT.new e0.n e0.i e0.p e1.n e1.i e1.p e2.n e2.i e2.p, .at h.next 0,
                fun k => if k < m then .at (h.next + 1) (k * W0 + e0.n) else o.pt0 k, .at (h.next + 1) 0, .at (h.next + 2) 0⟩⟩ ∧
            (∀ k < m * W0, t' k = some (.at (h.next + 2) (k * W1 + e1.n))) ∧
            ∀ k < m * W0 * W1, u' k = some (.at h.next (k * W2 + e2.n))) (by
              rintro m st hm' ⟨t1, v1, rfl, hdone1, hdone2⟩
              obtain ⟨t2, v2, e, c, c'⟩ := allocComp_eq chk (N := N) (W0 := W0) (W1 := W1) (W2 := W2) (b := h.next) (p := h.next + 1)
                (q := h.next + 2) (m := m) (n0 := e0.n) (n1 := e1.n) (n2 := e2.n)
                (h := (g3.upd (h.next + 1) (some (.ptrs (N * W0) t1))).upd (h.next + 2) (some (.ptrs (N * W0 * W1) v1)))
                (s := SizeT.new e0.n e0.i e0.p e1.n e1.i e1.p e2.n e2.i e2.p)
                (o := ⟨SizeT.new e0.n e0.i e0.p e1.n e1.i e1.p e2.n e2.i e2.p, .at h.next 0,
                  fun k => if k < m then .at (h.next + 1) (k * W0 + e0.n) else o.pt0 k, .at (h.next + 1) 0, .at (h.next + 2) 0⟩)
                (cell := fun _ => none) (t := t1) (u := v1)
                rfl rfl rfl hsn0 hnW0 hsn1 hnW1 hsn2 hnW2 hW2 hW1 hNp hN0
                (by rw [Heap.upd_blk_ne _ _ (by omega), Heap.upd_blk_ne _ _ (by omega), hb3])
                (by rw [Heap.upd_blk_ne _ _ (by omega)]; simp) (by simp) hm' (by omega) (by omega) (by omega) hdone1 hdone2
              refine ⟨_, e, t2, v2, ?_, c, c'⟩
              have hne : h.next + 2 ≠ h.next + 1 := by omega
              rw [Heap.upd4 _ hne.symm]
              congr 3
              funext q
              by_cases hq : q = m
              · subst hq; simp
              · simp only [hq, if_false]
                by_cases h2 : q < m
                · rw [if_pos h2, if_pos (by omega)]
                · rw [if_neg h2, if_neg (by omega)])
          ⟨g3, ⟨SizeT.new e0.n e0.i e0.p e1.n e1.i e1.p e2.n e2.i e2.p, .at h.next 0, o.pt0, .at (h.next + 1) 0, .at (h.next + 2) 0⟩⟩
          ⟨fun _ => none, fun _ => none, by rw [Heap.upd_self _ _ _ hp3, Heap.upd_self _ _ _ hq3]; simp, by simp, by simp⟩
        rw [tryAlloc_ok (s' := s')]
        · rw [k2]
          refine AllocRes.ok _ _ (by rw [hWp]; exact hm) (by rw [hw0]; exact hm2) (by rw [hw0, hw1]; exact hm3)
            (by rw [Heap.upd_next, Heap.upd_next, ← hg3, Heap.push_next, hg2n])
            (by rw [Heap.upd_mem, Heap.upd_mem, ← hg3, Heap.push_mem, hg2m]) ?_ ⟨rfl, rfl, rfl, rfl, ?_, ⟨t', ?_, ?_⟩, ⟨u', ?_, ?_⟩, ?_, by omega⟩
          · intro b hb1 hb2 hb3
            rw [Heap.upd_blk_ne _ _ hb3, Heap.upd_blk_ne _ _ hb2, ← hg3, Heap.push_blk_ne _ _ (by omega), hfr2 b hb1 hb2]
          · rw [Heap.upd_blk_ne _ _ (by omega), Heap.upd_blk_ne _ _ (by omega), hb3, hw0, hw1, hw2, ea]
          · rw [Heap.upd_blk_ne _ _ (by omega), hw0]; simp
          · rw [hw0, hw1]; exact k3
          · rw [hw0, hw1]; simp
          · rw [hw0, hw1, hw2]; exact k4
          · intro n hn
            simp only [if_pos hn, hw0]
        · rw [M.bind_ok (St.heap_ok (s := ⟨h, o⟩) (Heap.newVals_ok hm)),
            M.bind_ok (St.modObj_run _ _), M.bind_ok (St.modObj_run _ _)]
          simp only [hg1]
          rw [M.bind_ok (St.heap_ok (s := ⟨_, _⟩) (Heap.newPtrs_ok (by simpa [hg1m, hg1n] using hm2))), M.bind_ok (St.modObj_run _ _)]
          simp only [hg2, hg1n]
          rw [M.bind_ok (St.heap_ok (s := ⟨_, _⟩) (Heap.newPtrs_ok (by simpa [hg2m, hg2n] using hm3))), M.bind_ok (St.modObj_run _ _)]
          simp only [hg3, hg2n]
          exact k1

theorem clear_empty {h : Heap V} {o : PD} (hd : o.data = .null) : clear ⟨h, o⟩ = .err .isEmpty ⟨h, o⟩ := by
  unfold clear
  rw [M.bind_ok (St.obj_run _)]; simp only; rw [if_pos hd]; rfl

theorem clear_ready {N L0 L1 L2 e0 e1 e2} {o : PD} {h : Heap V} {B P Q cell} (r : Ready N L0 L1 L2 e0 e1 e2 o h B P Q cell) :
    ∃ o', clear ⟨h, o⟩ = .ok () ⟨((h.upd B none).upd P none).upd Q none, o'⟩ ∧ Empty o' ∧ o'.pt0 = o.pt0 := by
  obtain ⟨t, ht, -⟩ := r.tab
  obtain ⟨u, hu, -⟩ := r.tab2
  unfold clear
  rw [M.bind_ok (St.obj_run _)]; simp only
  rw [if_neg (by rw [r.data]; simp), r.data, r.pt1, r.pt2, M.bind_ok (St.heap_ok (s := ⟨h, o⟩) (Heap.delArr_at r.blk)),
    M.bind_ok (St.modObj_run _ _)]
  simp only
  rw [M.bind_ok (St.heap_ok (s := ⟨_, _⟩) (Heap.delArr_at (B := .ptrs (N * (Dim.mk e0 L0).width) t)
      (by rw [Heap.upd_blk_ne _ _ r.ne.symm, ht]))),
    M.bind_ok (St.modObj_run _ _)]
  simp only
  rw [M.bind_ok (St.heap_ok (s := ⟨_, _⟩) (Heap.delArr_at (B := .ptrs (N * (Dim.mk e0 L0).width * (Dim.mk e1 L1).width) u)
      (by rw [Heap.upd_blk_ne _ _ r.neq.symm, Heap.upd_blk_ne _ _ r.ne2.symm, hu]))),
    M.bind_ok (St.modObj_run _ _), St.modObj_run]
  exact ⟨_, rfl, ⟨rfl, rfl, rfl, rfl⟩, rfl⟩

theorem clear_broken {e0 e1 e2} {o : PD} {h : Heap V} {B} (r : Broken e0 e1 e2 o h B none) :
    ∃ o', clear ⟨h, o⟩ = .ok () ⟨h.upd B none, o'⟩ ∧ Empty o' ∧ o'.pt0 = o.pt0 := by
  obtain ⟨l, c, hb⟩ := r.blk
  unfold clear
  rw [M.bind_ok (St.obj_run _)]; simp only
  rw [if_neg (by rw [r.data]; simp), r.data, r.pt1, r.pt2, M.bind_ok (St.heap_ok (s := ⟨h, o⟩) (Heap.delArr_at hb)),
    M.bind_ok (St.modObj_run _ _)]
  simp only
  rw [M.bind_ok (St.heap_ok (s := ⟨_, _⟩) (Heap.delArr_null _)), M.bind_ok (St.modObj_run _ _),
    M.bind_ok (St.heap_ok (s := ⟨_, _⟩) (Heap.delArr_null _)), M.bind_ok (St.modObj_run _ _), St.modObj_run]
  exact ⟨_, rfl, ⟨rfl, rfl, rfl, rfl⟩, rfl⟩

theorem clear_broken2 {e0 e1 e2} {o : PD} {h : Heap V} {B P} (r : Broken e0 e1 e2 o h B (some P)) :
    ∃ o', clear ⟨h, o⟩ = .ok () ⟨(h.upd B none).upd P none, o'⟩ ∧ Empty o' ∧ o'.pt0 = o.pt0 := by
  obtain ⟨l, c, hb⟩ := r.blk
  obtain ⟨l', c', hp⟩ := r.tab P rfl
  have hne : P ≠ B := by rintro rfl; rw [hb] at hp; cases hp
  unfold clear
  rw [M.bind_ok (St.obj_run _)]; simp only
  rw [if_neg (by rw [r.data]; simp), r.data, r.pt1, r.pt2, M.bind_ok (St.heap_ok (s := ⟨h, o⟩) (Heap.delArr_at hb)),
    M.bind_ok (St.modObj_run _ _)]
  simp only
  rw [M.bind_ok (St.heap_ok (s := ⟨_, _⟩) (Heap.delArr_at (B := .ptrs l' c') (by rw [Heap.upd_blk_ne _ _ hne, hp]))),
    M.bind_ok (St.modObj_run _ _),
    M.bind_ok (St.heap_ok (s := ⟨_, _⟩) (Heap.delArr_null _)), M.bind_ok (St.modObj_run _ _), St.modObj_run]
  exact ⟨_, rfl, ⟨rfl, rfl, rfl, rfl⟩, rfl⟩

end PD
end Verif.D3
