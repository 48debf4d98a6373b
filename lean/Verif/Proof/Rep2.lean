import Verif.Proof.Access
/-!
# 2D arrays in memory
-/
namespace Verif.D2
open Spec
variable {V : Type}

/-- an allocated 2D array: data block `B`, row table `P` -/
structure PD.Ready (N : Nat) (L0 L1 : Loc) (e0 e1 : Ext) (o : PD) (h : Heap V) (B P : Nat) (cell : Nat → Option V) : Prop where
  size : o.size = sz e0 e1
  data : o.data = .at B 0
  pt1 : o.pt1 = .at P 0
  blk : h.blk B = some (.vals (N * ((Dim.mk e0 L0).width * (Dim.mk e1 L1).width)) cell)
  tab : ∃ t, h.blk P = some (.ptrs (N * (Dim.mk e0 L0).width) t) ∧
    ∀ k < N * (Dim.mk e0 L0).width, t k = some (.at B (k * (Dim.mk e1 L1).width + e1.n))
  pt0 : ∀ n < N, o.pt0 n = .at P (n * (Dim.mk e0 L0).width + e0.n)

/-- an empty 2D array -/
structure PD.Empty (o : PD) : Prop where
  size : o.size = {}
  data : o.data = .null
  pt1 : o.pt1 = .null

/-- a 2D array whose `alloc` failed between its two allocations -/
structure PD.Broken (e0 e1 : Ext) (o : PD) (h : Heap V) (B : Nat) : Prop where
  size : o.size = sz e0 e1
  data : o.data = .at B 0
  pt1 : o.pt1 = .null
  blk : ∃ l c, h.blk B = some (.vals l c)

namespace PD

theorem Ready.ne {N L0 L1 e0 e1} {o : PD} {h : Heap V} {B P cell} (r : Ready N L0 L1 e0 e1 o h B P cell) : B ≠ P := by
  rintro rfl
  obtain ⟨t, h1, -⟩ := r.tab
  rw [r.blk] at h1; cases h1

theorem Ready.congr {N L0 L1 e0 e1} {o : PD} {h h' : Heap V} {B P cell} (r : Ready N L0 L1 e0 e1 o h B P cell)
    (hB : h'.blk B = h.blk B) (hP : h'.blk P = h.blk P) : Ready N L0 L1 e0 e1 o h' B P cell :=
  ⟨r.size, r.data, r.pt1, by rw [hB, r.blk], by rw [hP]; exact r.tab, r.pt0⟩

theorem Ready.write {N L0 L1 e0 e1} {o : PD} {h h' : Heap V} {B P cell cell'} (r : Ready N L0 L1 e0 e1 o h B P cell)
    (hB : h'.blk B = some (.vals (N * ((Dim.mk e0 L0).width * (Dim.mk e1 L1).width)) cell')) (hP : h'.blk P = h.blk P) :
    Ready N L0 L1 e0 e1 o h' B P cell' :=
  ⟨r.size, r.data, r.pt1, hB, by rw [hP]; exact r.tab, r.pt0⟩

theorem elem_eq {N L0 L1 e0 e1} {o : PD} {h : Heap V} {B P cell} (r : Ready N L0 L1 e0 e1 o h B P cell) {n : Nat} {x y : Int}
    (hn : n < N) (hx : (Dim.mk e0 L0).Has x) (hy : (Dim.mk e1 L1).Has y) :
    elem N o n x y h = .ok (.at B ((n * (Dim.mk e0 L0).width + (x + e0.n).toNat) * (Dim.mk e1 L1).width + (y + e1.n).toNat)) h := by
  have h0 := Dim.nonneg_of_has hx
  have h1 := Dim.width_pos_of_has hx
  have h2 := Dim.nonneg_of_has hy
  have h3 := Dim.width_pos_of_has hy
  obtain ⟨t, ht, ht'⟩ := r.tab
  have hblk := r.blk
  rw [← Nat.mul_assoc] at hblk
  simp only at h0 h1 h2 h3
  have h4 := mul_add_lt hn h1
  unfold elem pt0At
  rw [if_pos hn, pure_bind, r.pt0 n hn, M.bind_ok (Heap.idx_at ht
    (r := n * (Dim.mk e0 L0).width + (x + e0.n).toNat) (by push_cast; omega) h4),
    M.bind_ok (Heap.loadP_at ht h4 (ht' _ h4))]
  exact Heap.idx_at hblk (by push_cast; omega) (mul_add_lt h4 h3)

/-- whatever the indices, an element lies in the data block or the access is undefined -/
theorem elem_cases {N L0 L1 e0 e1} {o : PD} {h : Heap V} {B P cell} (r : Ready N L0 L1 e0 e1 o h B P cell) (n : Nat) (x y : Int) :
    (∃ k, k < N * ((Dim.mk e0 L0).width * (Dim.mk e1 L1).width) ∧ elem N o n x y h = .ok (.at B k) h)
      ∨ ∃ u, elem N o n x y h = .ub u := by
  obtain ⟨t, ht, ht'⟩ := r.tab
  unfold elem pt0At
  by_cases hn : n < N
  · rw [if_pos hn, pure_bind, r.pt0 n hn]
    rcases Heap.idx_cases ht (n * (Dim.mk e0 L0).width + e0.n) x with ⟨k, hk, e⟩ | ⟨u, e⟩
    · rw [M.bind_ok e, M.bind_ok (Heap.loadP_at ht hk (ht' k hk))]
      exact Heap.idx_cases r.blk _ _
    · rw [M.bind_ub e]; exact .inr ⟨_, rfl⟩
  · rw [if_neg hn]; exact .inr ⟨_, rfl⟩

theorem at_empty {N L0 L1} {o : PD} (ho : Empty o) (h : Heap V) (n : Nat) (x y : Int) (f g : FL) :
    at_ true N L0 L1 o n x y f g h = .err .noData h := by
  have : check_data true o = .err .noData := by unfold check_data; rw [ho.data]; rfl
  unfold at_
  rw [this]; rfl

theorem range_check_0 (chk : Bool) (e0 : Ext) (L0 : Loc) (b1 s1 : Int) (hf : e0.n + e0.i + e0.p + 1 < 2147483648) (x : Int) (f : FL) :
    RangeT.check_range chk ⟨tagBegin e0.n e0.i .ALL, tagEnd e0.i e0.p .ALL - tagBegin e0.n e0.i .ALL, b1, s1⟩ 0 L0 x f.offset =
      if chk = true ∧ ¬ (Dim.mk e0 L0).Has (x + f.offset) then .err (rangeErr 0 x f.offset ⟨e0, L0⟩) else .ok () := by
  cases chk
  · rfl
  · have hcr := check_range_core_eq 0 ⟨e0, L0⟩ x f hf
    have e : tagBegin e0.n e0.i .ALL + (tagEnd e0.i e0.p .ALL - tagBegin e0.n e0.i .ALL) = (e0.i : Int) + e0.p := by
      simp only [tagBegin, tagEnd]; omega
    simp only [RangeT.check_range, RangeT.begin_, RangeT.end_, RangeT.size, check_d_2_0, sel, Out.ok_bind, if_true, e]
    rw [i32_ok (by unfold InI32; omega), Out.ok_bind]
    simp only [tagBegin] at hcr ⊢
    rw [hcr]
    by_cases hh : (Dim.mk e0 L0).Has (x + f.offset) <;> simp [hh]

theorem range_check_1 (chk : Bool) (e1 : Ext) (L1 : Loc) (b0 s0 : Int) (hf : e1.n + e1.i + e1.p + 1 < 2147483648) (x : Int) (f : FL) :
    RangeT.check_range chk ⟨b0, s0, tagBegin e1.n e1.i .ALL, tagEnd e1.i e1.p .ALL - tagBegin e1.n e1.i .ALL⟩ 1 L1 x f.offset =
      if chk = true ∧ ¬ (Dim.mk e1 L1).Has (x + f.offset) then .err (rangeErr 1 x f.offset ⟨e1, L1⟩) else .ok () := by
  cases chk
  · rfl
  · have hcr := check_range_core_eq 1 ⟨e1, L1⟩ x f hf
    have e : tagBegin e1.n e1.i .ALL + (tagEnd e1.i e1.p .ALL - tagBegin e1.n e1.i .ALL) = (e1.i : Int) + e1.p := by
      simp only [tagBegin, tagEnd]; omega
    simp only [RangeT.check_range, RangeT.begin_, RangeT.end_, RangeT.size, check_d_2_1, sel, Out.ok_bind, if_true, e]
    rw [i32_ok (by unfold InI32; omega), Out.ok_bind]
    simp only [tagBegin] at hcr ⊢
    rw [hcr]
    by_cases hh : (Dim.mk e1 L1).Has (x + f.offset) <;> simp [hh]

theorem at_reject {N L0 L1 e0 e1} {o : PD} {h : Heap V} {B P cell} (r : Ready N L0 L1 e0 e1 o h B P cell)
    (hf0 : e0.n + e0.i + e0.p + 1 < 2147483648) (hf1 : e1.n + e1.i + e1.p + 1 < 2147483648)
    {n : Nat} {x y : Int} {f g : FL} {e : Err}
    (he : accessErr N [⟨e0, L0⟩, ⟨e1, L1⟩] n [x, y] [f, g] = some e) : at_ true N L0 L1 o n x y f g h = .err e h := by
  have hd : check_data true o = .ok () := by unfold check_data; rw [r.data]; simp
  have hfit0 : e0.Fits := by unfold Ext.Fits; omega
  have hfit1 : e1.Fits := by unfold Ext.Fits; omega
  unfold at_ check_flag
  rw [hd, checkFlagDim_eq, checkFlagDim_eq, r.size, sz_range true e0 e1 hfit0 hfit1]
  simp only [accessErr, flagErrs, rangeErrs] at he
  unfold check_n
  simp only [M.liftM_eq, M.lift_ok, pure_bind, range_check_0 true e0 L0 _ _ hf0, range_check_1 true e1 L1 _ _ hf1]
  by_cases hn : N ≤ n
  · rw [if_pos hn] at he; cases he
    simp [hn]
  · rw [if_neg hn] at he
    cases hff : flagFits L0 f
    · simp [hff] at he; subst he; simp [hn]
    · cases hgg : flagFits L1 g
      · simp [hff, hgg] at he; subst he; simp [hn]
      · by_cases hh : (Dim.mk e0 L0).Has (x + f.offset)
        · by_cases hk : (Dim.mk e1 L1).Has (y + g.offset)
          · simp [hff, hgg, hh, hk] at he
          · simp [hff, hgg, hh, hk] at he; subst he
            simp [hn, hh, hk]
        · simp [hff, hgg, hh] at he; subst he
          simp [hn, hh]

theorem at_ok (chk : Bool) {N L0 L1 e0 e1} {o : PD} {h : Heap V} {B P cell} (r : Ready N L0 L1 e0 e1 o h B P cell)
    (hf0 : e0.n + e0.i + e0.p + 1 < 2147483648) (hf1 : e1.n + e1.i + e1.p + 1 < 2147483648)
    {n : Nat} {x y : Int} {f g : FL}
    (he : accessErr N [⟨e0, L0⟩, ⟨e1, L1⟩] n [x, y] [f, g] = none) :
    at_ chk N L0 L1 o n x y f g h
      = .ok (.at B (n * points [⟨e0, L0⟩, ⟨e1, L1⟩] + offset [⟨e0, L0⟩, ⟨e1, L1⟩] (point [x, y] [f, g]))) h ∧
    n < N ∧ HasPt [⟨e0, L0⟩, ⟨e1, L1⟩] (point [x, y] [f, g]) := by
  have hd : check_data chk o = .ok () := by unfold check_data; rw [r.data]; simp
  have hfit0 : e0.Fits := by unfold Ext.Fits; omega
  have hfit1 : e1.Fits := by unfold Ext.Fits; omega
  simp only [accessErr, flagErrs, rangeErrs] at he
  by_cases hn : N ≤ n
  · rw [if_pos hn] at he; cases he
  · rw [if_neg hn] at he
    have hn' : n < N := by omega
    cases hff : flagFits L0 f
    · simp [hff] at he
    · cases hgg : flagFits L1 g
      · simp [hff, hgg] at he
      · by_cases hh : (Dim.mk e0 L0).Has (x + f.offset)
        · by_cases hk : (Dim.mk e1 L1).Has (y + g.offset)
          · refine ⟨?_, hn', hh, hk, trivial⟩
            unfold at_ check_flag
            rw [hd, checkFlagDim_eq, checkFlagDim_eq, r.size, sz_range chk e0 e1 hfit0 hfit1]
            unfold check_n
            simp only [M.liftM_eq, M.lift_ok, pure_bind, range_check_0 chk e0 L0 _ _ hf0, range_check_1 chk e1 L1 _ _ hf1]
            simp [hn, hff, hgg, hh, hk, i32_ok (Dim.int_of_has hh hf0), i32_ok (Dim.int_of_has hk hf1),
              elem_eq r hn' hh hk, points, offset, point]
            ring
          · simp [hff, hgg, hh, hk] at he
        · simp [hff, hgg, hh] at he

/-- `data_pt` -/
theorem data_pt_eq (chk : Bool) {N L0 L1 e0 e1} {o : PD} {h : Heap V} {B P cell} (r : Ready N L0 L1 e0 e1 o h B P cell)
    (hf0 : e0.n + e0.i + e0.p + 1 < 2147483648) (hf1 : e1.n + e1.i + e1.p + 1 < 2147483648) {n : Nat} (hn : n < N)
    (hp : points [⟨e0, L0⟩, ⟨e1, L1⟩] ≠ 0) :
    data_pt chk N o n h = .ok (.at B (n * points [⟨e0, L0⟩, ⟨e1, L1⟩])) h := by
  have hfit0 : e0.Fits := by unfold Ext.Fits; omega
  have hfit1 : e1.Fits := by unfold Ext.Fits; omega
  have hs0 := (sz_fields_0 e0 e1 hfit0).1
  have hs1 := (sz_fields_1 e0 e1 hfit1).1
  obtain ⟨t, ht, ht'⟩ := r.tab
  have hW : 0 < (Dim.mk e0 L0).width := by
    rcases Nat.eq_zero_or_pos (Dim.mk e0 L0).width with h0 | h0
    · simp [points, h0] at hp
    · exact h0
  have hblk := r.blk
  rw [← Nat.mul_assoc] at hblk
  have h4 : n * (Dim.mk e0 L0).width < N * (Dim.mk e0 L0).width := Nat.mul_lt_mul_of_pos_right hn hW
  unfold data_pt check_n pt0At SizeT.n
  rw [if_pos hn, r.size, r.pt0 n hn]
  have hng : ¬ (chk = true ∧ N ≤ n) := by omega
  rw [if_neg hng]
  simp only [check_d_2_0, check_d_2_1, sel, hs0, hs1, Out.ok_bind, M.liftM_eq, M.lift_ok, pure_bind]
  rw [i32_ok (by unfold InI32; omega), M.lift_ok, pure_bind,
    M.bind_ok (Heap.idx_at ht (r := n * (Dim.mk e0 L0).width) (by push_cast; omega) h4),
    M.bind_ok (Heap.loadP_at ht h4 (ht' _ h4)),
    Heap.padd_at hblk (r := n * (Dim.mk e0 L0).width * (Dim.mk e1 L1).width) (by push_cast; omega)
      (Nat.mul_le_mul_right _ (Nat.le_of_lt h4))]
  simp only [points, Nat.mul_one, Nat.mul_assoc]

theorem check_eq (e0 e1 : Ext) (hf0 : e0.n + e0.i + e0.p < 2147483648) (hf1 : e1.n + e1.i + e1.p < 2147483648) :
    (SizeT.new e0.n e0.i e0.p e1.n e1.i e1.p).check = Out.ofErr (sizeErrs 0 [e0, e1]) := by
  have hfit0 : e0.Fits := by unfold Ext.Fits; omega
  have hfit1 : e1.Fits := by unfold Ext.Fits; omega
  obtain ⟨h1, h2, h3⟩ := sz_fields_0 e0 e1 hfit0
  obtain ⟨h4, h5, h6⟩ := sz_fields_1 e0 e1 hfit1
  unfold sz at h1 h2 h3 h4 h5 h6
  unfold SizeT.check SizeT.checkDim
  rw [h1, h2, h3, h4, h5, h6, checkDim_eq e0 hf0 0, checkDim_eq e1 hf1 1]
  unfold sizeErrs sizeErrs sizeErrs
  by_cases c0 : e0.i = 0 ∧ e0.n + e0.p ≠ 0
  · rw [if_pos c0, if_pos c0]; rfl
  · rw [if_neg c0, if_neg c0]
    by_cases c1 : e1.i = 0 ∧ e1.n + e1.p ≠ 0
    · rw [if_pos c1, if_pos c1]; rfl
    · rw [if_neg c1, if_neg c1]; rfl

/-- the initialisation of `pt0` -/
theorem setAll_eq (N : Nat) (hN : N < 4294967296) (f : Nat → Ptr) (h : Heap V) (o : PD) :
    forU 0 N (fun m => setPt0 N m (f m)) ⟨h, o⟩
      = .ok () ⟨h, { o with pt0 := fun m => if m < N then f m else o.pt0 m }⟩ := by
  have := forU_exact N hN (fun m => setPt0 (V := V) N m (f m))
    (fun k => ⟨h, { o with pt0 := fun m => if m < k then f m else o.pt0 m }⟩) (by
      intro m hm
      unfold setPt0
      rw [if_pos hm, St.modObj_run]
      congr 3
      funext q
      by_cases hq : q = m
      · subst hq; simp
      · simp only [hq, if_false]
        by_cases h2 : q < m
        · rw [if_pos h2, if_pos (by omega)]
        · rw [if_neg h2, if_neg (by omega)])
  simpa using this

theorem ctor0_eq (N : Nat) (h0 : N ≠ 0) (hN : N < 4294967296) (h : Heap V) (o : PD) :
    ctor0 N ⟨h, o⟩ = .ok () ⟨h, ⟨{}, .null, fun m => if m < N then .null else o.pt0 m, .null⟩⟩ := by
  unfold ctor0
  rw [if_neg h0, M.bind_ok (St.modObj_run _ _)]
  exact setAll_eq N hN (fun _ => .null) h _

theorem allocRow_eq (chk : Bool) {N W0 W1 b p m ii n1 : Nat} {h : Heap V} {s : SizeT} {o : PD} {cell : Nat → Option V}
    {t : Nat → Option Ptr}
    (hd : o.data = .at b 0) (hs : s.n1 = n1) (hnW : n1 ≤ W1) (hW : W1 ≠ 0) (hNW : N * (W0 * W1) < 4294967296)
    (hb : h.blk b = some (.vals (N * (W0 * W1)) cell)) (ht : h.blk p = some (.ptrs (N * W0) t))
    (hp0 : o.pt0 m = .at p (m * W0)) (hm : m < N) (hi : ii < W0) (hbp : b ≠ p) :
    ∃ t', allocRow chk N s W0 W1 m ii ⟨h, o⟩ = .ok () ⟨h.upd p (some (.ptrs (N * W0) t')), o⟩ ∧
      t' (m * W0 + ii) = some (.at b ((m * W0 + ii) * W1 + n1)) ∧
      ∀ k, k ≠ m * W0 + ii → t' k = t k := by
  have hsn : s.n chk 1 = .ok (n1 : Int) := by unfold SizeT.n; rw [check_d_2_1]; simp only [sel, hs]; rfl
  have hk : m * W0 + ii < N * W0 := mul_add_lt hm hi
  have hkw : (m * W0 + ii) * W1 + n1 ≤ N * W0 * W1 := mul_add_le hk hnW
  have e1 : (m * W0 + ii) * W1 = m * W0 * W1 + ii * W1 := by ring
  rw [← Nat.mul_assoc] at hNW hb
  have l1 : m * W0 ≤ m * W0 * W1 := Nat.le_mul_of_pos_right _ (by omega)
  have u1 : u32 (m * W0) = m * W0 := u32_of_lt (by omega)
  have u2 : u32 (m * W0 * W1) = m * W0 * W1 := u32_of_lt (by omega)
  have u3 : u32 (ii * W1) = ii * W1 := u32_of_lt (by omega)
  unfold allocRow
  rw [M.bind_ok (St.obj_run _)]
  unfold pt0At
  simp only [if_pos hm, pure_bind, hp0, hd, u1, u2, u3, hsn, M.liftM_eq, M.lift_ok]
  rw [M.bind_ok (St.heap_ok (s := ⟨h, o⟩) (Heap.idx_at (r := m * W0 + ii) ht (by push_cast; rfl) hk))]
  rw [M.bind_ok (St.heap_ok (s := ⟨h, o⟩) (Heap.padd_at (r := m * W0 * W1) hb (by push_cast; omega)
    (by simp only [Block.len]; omega)))]
  rw [M.bind_ok (St.heap_ok (s := ⟨h, o⟩) (Heap.padd_at (r := m * W0 * W1 + ii * W1) hb (by push_cast; rfl)
    (by simp only [Block.len]; omega)))]
  rw [M.bind_ok (St.heap_ok (s := ⟨h, o⟩) (Heap.storeP_at ht hk))]
  simp only
  generalize ht1 : (fun k => if k = m * W0 + ii then some (Ptr.at b (m * W0 * W1 + ii * W1)) else t k) = t1
  generalize hg : h.upd p (some (.ptrs (N * W0) t1)) = g
  have ht2 : g.blk p = some (.ptrs (N * W0) t1) := by rw [← hg]; simp
  have hb2 : g.blk b = some (.vals (N * W0 * W1) cell) := by rw [← hg, Heap.upd_blk_ne _ _ hbp, hb]
  rw [M.bind_ok (St.heap_ok (s := ⟨g, o⟩) (Heap.idx_at (r := m * W0 + ii) ht2 (by push_cast; rfl) hk))]
  rw [M.bind_ok (St.heap_ok (s := ⟨g, o⟩) (Heap.loadP_at (q := .at b (m * W0 * W1 + ii * W1)) ht2 hk (by rw [← ht1]; exact if_pos rfl)))]
  rw [M.bind_ok (St.heap_ok (s := ⟨g, o⟩) (Heap.padd_at (r := m * W0 * W1 + ii * W1 + n1) hb2 (by push_cast; rfl)
    (by simp only [Block.len]; omega)))]
  rw [St.heap_ok (s := ⟨g, o⟩) (Heap.storeP_at ht2 hk), ← hg, Heap.upd_upd]
  refine ⟨_, rfl, ?_, ?_⟩
  · simp only [if_true, e1]
  · intro k hk; simp only [← ht1, if_neg hk]

theorem allocComp_eq (chk : Bool) {N W0 W1 b p m n0 n1 : Nat} {h : Heap V} {s : SizeT} {o : PD} {cell : Nat → Option V}
    {t : Nat → Option Ptr}
    (hd : o.data = .at b 0) (hp1 : o.pt1 = .at p 0) (hs0 : s.n0 = n0) (hn0 : n0 ≤ W0)
    (hs : s.n1 = n1) (hnW : n1 ≤ W1) (hW : W1 ≠ 0) (hNW : N * (W0 * W1) < 4294967296) (hN : N ≠ 0)
    (hb : h.blk b = some (.vals (N * (W0 * W1)) cell)) (ht : h.blk p = some (.ptrs (N * W0) t))
    (hm : m < N) (hbp : b ≠ p) (hdone : ∀ k < m * W0, t k = some (.at b (k * W1 + n1))) :
    ∃ t', allocComp chk N s W0 W1 m ⟨h, o⟩ = .ok () ⟨h.upd p (some (.ptrs (N * W0) t')),
        { o with pt0 := fun q => if q = m then .at p (m * W0 + n0) else o.pt0 q }⟩ ∧
      ∀ k < (m + 1) * W0, t' k = some (.at b (k * W1 + n1)) := by
  have hsn : s.n chk 0 = .ok (n0 : Int) := by unfold SizeT.n; rw [check_d_2_0]; simp only [sel, hs0]; rfl
  have hNW' : N * W0 ≤ N * (W0 * W1) := Nat.mul_le_mul_left _ (Nat.le_mul_of_pos_right _ (by omega))
  have hmle : m * W0 ≤ N * W0 := Nat.mul_le_mul_right _ (by omega)
  have hmle' := mul_add_le hm hn0
  have hW0N : W0 ≤ N * W0 := Nat.le_mul_of_pos_left _ (by omega)
  unfold allocComp
  rw [M.bind_ok (St.obj_run _)]
  simp only [hp1]
  rw [u32_of_lt (by omega), M.bind_ok (St.heap_ok (s := ⟨h, o⟩) (Heap.padd_at (r := m * W0) ht (by push_cast; omega)
    (by simp only [Block.len]; omega)))]
  have hset : ∀ (g : Heap V) (o' : PD) q, setPt0 N m q ⟨g, o'⟩ = .ok () ⟨g, { o' with pt0 := fun k => if k = m then q else o'.pt0 k }⟩ := by
    intro g o' q; unfold setPt0; rw [if_pos hm, St.modObj_run]
  rw [M.bind_ok (hset _ _ _)]
  obtain ⟨s', h1, t', h2, h3⟩ := forU_nats (σ := St V PD) W0 (by omega) (fun ii => allocRow chk N s W0 W1 m ii)
    (fun ii st => ∃ t', st = ⟨h.upd p (some (.ptrs (N * W0) t')), { o with pt0 := fun k => if k = m then .at p (m * W0) else o.pt0 k }⟩ ∧
      ∀ k < m * W0 + ii, t' k = some (.at b (k * W1 + n1))) (by
        rintro ii st hi ⟨t1, rfl, hdone1⟩
        obtain ⟨t2, e, c1, c2⟩ := allocRow_eq chk (N := N) (W0 := W0) (W1 := W1) (b := b) (p := p) (m := m) (ii := ii) (n1 := n1)
          (h := h.upd p (some (.ptrs (N * W0) t1))) (s := s)
          (o := { o with pt0 := fun k => if k = m then .at p (m * W0) else o.pt0 k }) (cell := cell) (t := t1)
          hd hs hnW hW hNW (by rw [Heap.upd_blk_ne _ _ hbp, hb]) (by simp) (by simp) hm hi hbp
        refine ⟨_, e, t2, by rw [Heap.upd_upd], ?_⟩
        intro k hk
        by_cases hk' : k = m * W0 + ii
        · rw [hk', c1]
        · rw [c2 k hk', hdone1 k (by omega)])
    ⟨h, { o with pt0 := fun k => if k = m then .at p (m * W0) else o.pt0 k }⟩
    ⟨t, by rw [Heap.upd_self _ _ _ ht], by simpa using hdone⟩
  rw [M.bind_ok h1, h2, M.bind_ok (St.obj_run _)]
  unfold pt0At
  simp only [if_pos hm, pure_bind, if_true, hsn, M.liftM_eq, M.lift_ok]
  rw [M.bind_ok (St.heap_ok (s := ⟨_, _⟩) (Heap.padd_at (r := m * W0 + n0) (b := p) (B := .ptrs (N * W0) t') (by simp) (by push_cast; omega)
    (by simp only [Block.len]; omega)))]
  rw [hset]
  refine ⟨t', ?_, by rw [Nat.succ_mul]; exact h3⟩
  simp only [hp1, Res.ok.injEq, true_and, St.mk.injEq, PD.mk.injEq, and_true]
  funext k
  by_cases hk : k = m <;> simp [hk]

/-- what `alloc` does when it gets as far as asking for memory -/
inductive AllocRes (N : Nat) (L0 L1 : Loc) (e0 e1 : Ext) (h : Heap V) (o : PD) : Res (St V PD) Unit → Prop
  | nomem (hm : h.mem h.next (N * points [⟨e0, L0⟩, ⟨e1, L1⟩]) = false) : AllocRes N L0 L1 e0 e1 h o (.err .noMemory ⟨h.skip, o⟩)
  | broken (h' : Heap V) (o' : PD) (hm : h.mem h.next (N * points [⟨e0, L0⟩, ⟨e1, L1⟩]) = true)
      (hm2 : h.mem (h.next + 1) (N * (Dim.mk e0 L0).width) = false)
      (hn : h'.next = h.next + 2) (hmem : h'.mem = h.mem) (hfr : ∀ b, b ≠ h.next → h'.blk b = h.blk b)
      (hr : Broken e0 e1 o' h' h.next) (hp : o'.pt0 = o.pt0) : AllocRes N L0 L1 e0 e1 h o (.err .noMemory ⟨h', o'⟩)
  | ok (h' : Heap V) (o' : PD) (hm : h.mem h.next (N * points [⟨e0, L0⟩, ⟨e1, L1⟩]) = true)
      (hm2 : h.mem (h.next + 1) (N * (Dim.mk e0 L0).width) = true)
      (hn : h'.next = h.next + 2) (hmem : h'.mem = h.mem) (hfr : ∀ b, b ≠ h.next → b ≠ h.next + 1 → h'.blk b = h.blk b)
      (hr : Ready N L0 L1 e0 e1 o' h' h.next (h.next + 1) (fun _ => none)) : AllocRes N L0 L1 e0 e1 h o (.ok () ⟨h', o'⟩)

theorem alloc_notEmpty (chk : Bool) {N L0 L1} {n0 i0 p0 n1 i1 p1 : Nat} {h : Heap V} {o : PD} (hd : o.data ≠ .null) :
    alloc chk N L0 L1 n0 i0 p0 n1 i1 p1 ⟨h, o⟩ = .err .notEmpty ⟨h, o⟩ := by
  unfold alloc
  rw [M.bind_ok (St.obj_run _)]; simp only; rw [if_pos hd]; rfl

theorem alloc_bad (chk : Bool) {N L0 L1} {e0 e1 : Ext} {h : Heap V} {o : PD} (hd : o.data = .null)
    (hf0 : e0.n + e0.i + e0.p < 2147483648) (hf1 : e1.n + e1.i + e1.p < 2147483648)
    {e : Err} (he : sizeErrs 0 [e0, e1] = some e) :
    alloc chk N L0 L1 e0.n e0.i e0.p e1.n e1.i e1.p ⟨h, o⟩ = .err e ⟨h, o⟩ := by
  unfold alloc
  rw [M.bind_ok (St.obj_run _)]; simp only; rw [if_neg (by simp [hd]), check_eq e0 e1 hf0 hf1, he]; rfl

theorem alloc_none (chk : Bool) {N L0 L1} {e0 e1 : Ext} {h : Heap V} {o : PD} (hd : o.data = .null)
    (hf0 : e0.n + e0.i + e0.p + 1 < 2147483648) (hf1 : e1.n + e1.i + e1.p + 1 < 2147483648)
    (he : sizeErrs 0 [e0, e1] = none) (hp : points [⟨e0, L0⟩, ⟨e1, L1⟩] = 0) :
    alloc chk N L0 L1 e0.n e0.i e0.p e1.n e1.i e1.p ⟨h, o⟩ = .ok () ⟨h, o⟩ := by
  have hfit0 : e0.Fits := by unfold Ext.Fits; omega
  have hfit1 : e1.Fits := by unfold Ext.Fits; omega
  have hz0 := (sz_acc_0 chk e0 e1 hfit0 .ALL).2.2.1
  have hz1 := (sz_acc_1 chk e0 e1 hfit1 .ALL).2.2.1
  unfold sz at hz0 hz1
  unfold alloc
  rw [M.bind_ok (St.obj_run _)]; simp only; rw [if_neg (by simp [hd]), check_eq e0 e1 (Nat.lt_of_succ_lt hf0) (Nat.lt_of_succ_lt hf1), he]
  have hz : u32 ((Dim.mk e0 L0).width * (Dim.mk e1 L1).width) = 0 := by
    have : (Dim.mk e0 L0).width * (Dim.mk e1 L1).width = 0 := by simpa [points] using hp
    rw [this]; rfl
  simp only [Out.ofErr, hz0, hz1, M.liftM_eq, M.lift_ok, pure_bind, width_u32 e0 L0 (Nat.lt_of_succ_lt hf0), width_u32 e1 L1 (Nat.lt_of_succ_lt hf1), hz]
  rfl

theorem alloc_some (chk : Bool) {N L0 L1} {e0 e1 : Ext} {h : Heap V} {o : PD} (hd : o.data = .null) (hq : o.pt1 = .null)
    (hN : N < 4294967296) (hN0 : N ≠ 0)
    (hf0 : e0.n + e0.i + e0.p < 2147483648) (hf1 : e1.n + e1.i + e1.p < 2147483648)
    (hNp : N * points [⟨e0, L0⟩, ⟨e1, L1⟩] < 4294967296)
    (he : sizeErrs 0 [e0, e1] = none) (hp : points [⟨e0, L0⟩, ⟨e1, L1⟩] ≠ 0) :
    AllocRes N L0 L1 e0 e1 h o (alloc chk N L0 L1 e0.n e0.i e0.p e1.n e1.i e1.p ⟨h, o⟩) := by
  have hfit0 : e0.Fits := by unfold Ext.Fits; omega
  have hfit1 : e1.Fits := by unfold Ext.Fits; omega
  have hz0 := (sz_acc_0 chk e0 e1 hfit0 .ALL).2.2.1
  have hz1 := (sz_acc_1 chk e0 e1 hfit1 .ALL).2.2.1
  have hsn0 := (sz_fields_0 e0 e1 hfit0).1
  have hsn1 := (sz_fields_1 e0 e1 hfit1).1
  have hW : points [⟨e0, L0⟩, ⟨e1, L1⟩] = (Dim.mk e0 L0).width * (Dim.mk e1 L1).width := by simp [points]
  have hwd0 := width_u32 e0 L0 hf0
  have hwd1 := width_u32 e1 L1 hf1
  have hnW0 := Dim.n_le_width ⟨e0, L0⟩
  have hnW1 := Dim.n_le_width ⟨e1, L1⟩
  rw [hW] at hNp hp
  unfold sz at hz0 hz1 hsn0 hsn1
  unfold alloc
  rw [M.bind_ok (St.obj_run _)]; simp only; rw [if_neg (by simp [hd]), check_eq e0 e1 hf0 hf1, he]
  simp only [Out.ofErr, hz0, hz1, M.liftM_eq, M.lift_ok, pure_bind, hwd0, hwd1]
  generalize hw0 : (Dim.mk e0 L0).width = W0 at *
  generalize hw1 : (Dim.mk e1 L1).width = W1 at *
  have hW1 : W1 ≠ 0 := by rintro rfl; simp at hp
  have hle : W0 * W1 ≤ N * (W0 * W1) := Nat.le_mul_of_pos_left _ (by omega)
  have hle2 : N * W0 ≤ N * (W0 * W1) := Nat.mul_le_mul_left _ (Nat.le_mul_of_pos_right _ (by omega))
  have u1 : u32 (W0 * W1) = W0 * W1 := u32_of_lt (by omega)
  have u2 : u32 (N * (W0 * W1)) = N * (W0 * W1) := u32_of_lt hNp
  have u3 : u32 (N * W0) = N * W0 := u32_of_lt (by omega)
  rw [u1, if_pos hp]
  have hu : allocMem (V := V) chk N (SizeT.new e0.n e0.i e0.p e1.n e1.i e1.p) W0 W1 = (do
      let d ← St.heap (Heap.newVals (N * (W0 * W1)))
      St.modObj (fun o => { o with data := d })
      St.modObj (fun o => { o with size := (SizeT.new e0.n e0.i e0.p e1.n e1.i e1.p) })
      let q ← St.heap (Heap.newPtrs (N * W0))
      St.modObj (fun o => { o with pt1 := q })
      forU 0 N fun m => allocComp chk N (SizeT.new e0.n e0.i e0.p e1.n e1.i e1.p) W0 W1 m) := by
    unfold allocMem; rw [u1, Nat.mul_comm (W0 * W1) N, u2, u3]
  rw [hu]
  cases hm : h.mem h.next (N * (W0 * W1))
  · rw [tryAlloc_bad (s' := ⟨h.skip, o⟩)]
    · exact .nomem (by rw [hW]; exact hm)
    · rw [M.bind_err (St.heap_err (s := ⟨h, o⟩) (Heap.newVals_fail hm))]
  · have hb : (h.push (.vals (N * (W0 * W1)) fun _ => none)).blk h.next = some (.vals (N * (W0 * W1)) fun _ => none) := by simp
    cases hm2 : h.mem (h.next + 1) (N * W0)
    · rw [tryAlloc_bad (s' := ⟨(h.push (.vals (N * (W0 * W1)) fun _ => none)).skip,
        ⟨SizeT.new e0.n e0.i e0.p e1.n e1.i e1.p, .at h.next 0, o.pt0, o.pt1⟩⟩)]
      · exact .broken _ _ (by rw [hW]; exact hm) (by rw [hw0]; exact hm2) rfl rfl
          (fun b hb => Heap.push_blk_ne _ _ hb) ⟨rfl, rfl, hq, _, _, hb⟩ rfl
      · rw [M.bind_ok (St.heap_ok (s := ⟨h, o⟩) (Heap.newVals_ok hm)),
          M.bind_ok (St.modObj_run _ _), M.bind_ok (St.modObj_run _ _)]
        simp only
        rw [M.bind_err (St.heap_err (s := ⟨_, _⟩) (Heap.newPtrs_fail (by simpa using hm2)))]
    · generalize hg1 : h.push (.vals (N * (W0 * W1)) fun _ => none) = g1 at hb
      have hg1n : g1.next = h.next + 1 := by rw [← hg1]; rfl
      have hg1m : g1.mem = h.mem := by rw [← hg1]; rfl
      generalize hg2 : g1.push (.ptrs (N * W0) fun _ => none) = g2
      have hb2 : g2.blk h.next = some (.vals (N * (W0 * W1)) fun _ => none) := by
        rw [← hg2, Heap.push_blk_ne _ _ (by omega), hb]
      have hp2 : g2.blk (h.next + 1) = some (.ptrs (N * W0) fun _ => none) := by
        rw [← hg2, ← hg1n]; simp
      obtain ⟨s', k1, t', k2, k3⟩ := forU_nats (σ := St V PD) N hN
        (fun m => allocComp chk N (SizeT.new e0.n e0.i e0.p e1.n e1.i e1.p) W0 W1 m)
        (fun m st => ∃ t', st = ⟨g2.upd (h.next + 1) (some (.ptrs (N * W0) t')),
            ⟨SizeT.new e0.n e0.i e0.p e1.n e1.i e1.p, .at h.next 0,
              fun k => if k < m then .at (h.next + 1) (k * W0 + e0.n) else o.pt0 k, .at (h.next + 1) 0⟩⟩ ∧
          ∀ k < m * W0, t' k = some (.at h.next (k * W1 + e1.n))) (by
            rintro m st hm' ⟨t1, rfl, hdone1⟩
            obtain ⟨t2, e, c⟩ := allocComp_eq chk (N := N) (W0 := W0) (W1 := W1) (b := h.next) (p := h.next + 1) (m := m)
              (n0 := e0.n) (n1 := e1.n) (h := g2.upd (h.next + 1) (some (.ptrs (N * W0) t1)))
              (s := SizeT.new e0.n e0.i e0.p e1.n e1.i e1.p)
              (o := ⟨SizeT.new e0.n e0.i e0.p e1.n e1.i e1.p, .at h.next 0,
                fun k => if k < m then .at (h.next + 1) (k * W0 + e0.n) else o.pt0 k, .at (h.next + 1) 0⟩)
              (cell := fun _ => none) (t := t1)
              rfl rfl hsn0 hnW0 hsn1 hnW1 hW1 hNp hN0 (by rw [Heap.upd_blk_ne _ _ (by omega), hb2]) (by simp) hm' (by omega) hdone1
            refine ⟨_, e, t2, ?_, c⟩
            rw [Heap.upd_upd]
            congr 3
            funext q
            by_cases hq : q = m
            · subst hq; simp
            · simp only [hq, if_false]
              by_cases h2 : q < m
              · rw [if_pos h2, if_pos (by omega)]
              · rw [if_neg h2, if_neg (by omega)])
        ⟨g2, ⟨SizeT.new e0.n e0.i e0.p e1.n e1.i e1.p, .at h.next 0, o.pt0, .at (h.next + 1) 0⟩⟩
        ⟨fun _ => none, by rw [Heap.upd_self _ _ _ hp2]; simp, by simp⟩
      rw [tryAlloc_ok (s' := s')]
      · rw [k2]
        refine AllocRes.ok _ _ (by rw [hW]; exact hm) (by rw [hw0]; exact hm2) (by rw [Heap.upd_next, ← hg2, Heap.push_next, hg1n])
          (by rw [Heap.upd_mem, ← hg2, Heap.push_mem, hg1m]) ?_ ⟨rfl, rfl, rfl, ?_, ⟨t', ?_, ?_⟩, ?_⟩
        · intro b hb1 hb2
          rw [Heap.upd_blk_ne _ _ hb2, ← hg2, Heap.push_blk_ne _ _ (by omega), ← hg1, Heap.push_blk_ne _ _ hb1]
        · rw [Heap.upd_blk_ne _ _ (by omega), hb2, hw0, hw1]
        · rw [hw0]; simp
        · rw [hw0, hw1]; exact k3
        · intro n hn
          simp only [if_pos hn, hw0]
      · rw [M.bind_ok (St.heap_ok (s := ⟨h, o⟩) (Heap.newVals_ok hm)),
          M.bind_ok (St.modObj_run _ _), M.bind_ok (St.modObj_run _ _)]
        simp only [hg1]
        rw [M.bind_ok (St.heap_ok (s := ⟨_, _⟩) (Heap.newPtrs_ok (by simpa [hg1m, hg1n] using hm2))), M.bind_ok (St.modObj_run _ _)]
        simp only [hg2, hg1n]
        exact k1

theorem clear_empty {h : Heap V} {o : PD} (hd : o.data = .null) : clear ⟨h, o⟩ = .err .isEmpty ⟨h, o⟩ := by
  unfold clear
  rw [M.bind_ok (St.obj_run _)]; simp only; rw [if_pos hd]; rfl

theorem clear_ready {N L0 L1 e0 e1} {o : PD} {h : Heap V} {B P cell} (r : Ready N L0 L1 e0 e1 o h B P cell) :
    ∃ o', clear ⟨h, o⟩ = .ok () ⟨(h.upd B none).upd P none, o'⟩ ∧ Empty o' ∧ o'.pt0 = o.pt0 := by
  obtain ⟨t, ht, -⟩ := r.tab
  unfold clear
  rw [M.bind_ok (St.obj_run _)]; simp only
  rw [if_neg (by rw [r.data]; simp), r.data, r.pt1, M.bind_ok (St.heap_ok (s := ⟨h, o⟩) (Heap.delArr_at r.blk)),
    M.bind_ok (St.modObj_run _ _)]
  simp only
  rw [M.bind_ok (St.heap_ok (s := ⟨_, _⟩) (Heap.delArr_at (B := .ptrs (N * (Dim.mk e0 L0).width) t)
      (by rw [Heap.upd_blk_ne _ _ r.ne.symm, ht]))),
    M.bind_ok (St.modObj_run _ _), St.modObj_run]
  exact ⟨_, rfl, ⟨rfl, rfl, rfl⟩, rfl⟩

theorem clear_broken {e0 e1} {o : PD} {h : Heap V} {B} (r : Broken e0 e1 o h B) :
    ∃ o', clear ⟨h, o⟩ = .ok () ⟨h.upd B none, o'⟩ ∧ Empty o' ∧ o'.pt0 = o.pt0 := by
  obtain ⟨l, c, hb⟩ := r.blk
  unfold clear
  rw [M.bind_ok (St.obj_run _)]; simp only
  rw [if_neg (by rw [r.data]; simp), r.data, r.pt1, M.bind_ok (St.heap_ok (s := ⟨h, o⟩) (Heap.delArr_at hb)),
    M.bind_ok (St.modObj_run _ _)]
  simp only
  rw [M.bind_ok (St.heap_ok (s := ⟨_, _⟩) (Heap.delArr_null _)),
    M.bind_ok (St.modObj_run _ _), St.modObj_run]
  exact ⟨_, rfl, ⟨rfl, rfl, rfl⟩, rfl⟩

end PD
end Verif.D2
