import Verif.Proof.Access
/-!
# 1D arrays in memory
-/
namespace Verif.D1
open Spec
variable {V : Type}

/-- an allocated 1D array -/
structure PD.Ready (N : Nat) (L0 : Loc) (e0 : Ext) (o : PD) (h : Heap V) (B : Nat) (cell : Nat → Option V) : Prop where
  size : o.size = sz e0
  data : o.data = .at B 0
  blk : h.blk B = some (.vals (N * (Dim.mk e0 L0).width) cell)
  pt0 : ∀ n < N, o.pt0 n = .at B (n * (Dim.mk e0 L0).width + e0.n)

/-- an empty 1D array -/
structure PD.Empty (o : PD) : Prop where
  size : o.size = {}
  data : o.data = .null

namespace PD

theorem Ready.congr {N L0 e0} {o : PD} {h h' : Heap V} {B cell} (r : Ready N L0 e0 o h B cell)
    (hB : h'.blk B = h.blk B) : Ready N L0 e0 o h' B cell :=
  ⟨r.size, r.data, by rw [hB, r.blk], r.pt0⟩

theorem Ready.write {N L0 e0} {o : PD} {h h' : Heap V} {B cell cell'} (r : Ready N L0 e0 o h B cell)
    (hB : h'.blk B = some (.vals (N * (Dim.mk e0 L0).width) cell')) : Ready N L0 e0 o h' B cell' :=
  ⟨r.size, r.data, hB, r.pt0⟩

theorem elem_eq {N L0 e0} {o : PD} {h : Heap V} {B cell} (r : Ready N L0 e0 o h B cell) {n : Nat} {x : Int}
    (hn : n < N) (hx : (Dim.mk e0 L0).Has x) :
    elem N o n x h = .ok (.at B (n * (Dim.mk e0 L0).width + (x + e0.n).toNat)) h := by
  have h0 := Dim.nonneg_of_has hx
  have h1 := Dim.width_pos_of_has hx
  simp only at h0 h1
  unfold elem pt0At
  rw [if_pos hn, pure_bind, r.pt0 n hn]
  exact Heap.idx_at r.blk (by push_cast; omega) (mul_add_lt hn h1)

/-- whatever the indices, an element lies in the data block or the access is undefined -/
theorem elem_cases {N L0 e0} {o : PD} {h : Heap V} {B cell} (r : Ready N L0 e0 o h B cell) (n : Nat) (x : Int) :
    (∃ k, k < N * (Dim.mk e0 L0).width ∧ elem N o n x h = .ok (.at B k) h) ∨ ∃ u, elem N o n x h = .ub u := by
  unfold elem pt0At
  by_cases hn : n < N
  · rw [if_pos hn, pure_bind, r.pt0 n hn]
    exact Heap.idx_cases r.blk _ _
  · rw [if_neg hn]; exact .inr ⟨_, rfl⟩

theorem at_empty {N L0} {o : PD} (ho : Empty o) (h : Heap V) (n : Nat) (x : Int) (f : FL) :
    at_ true N L0 o n x f h = .err .noData h := by
  have : check_data true o = .err .noData := by unfold check_data; rw [ho.data]; rfl
  unfold at_
  rw [this]; rfl

theorem range_check_0 (chk : Bool) (e0 : Ext) (L0 : Loc) (hf : e0.n + e0.i + e0.p + 1 < 2147483648) (x : Int) (f : FL) :
    RangeT.check_range chk ⟨tagBegin e0.n e0.i .ALL, tagEnd e0.i e0.p .ALL - tagBegin e0.n e0.i .ALL⟩ 0 L0 x f.offset =
      if chk = true ∧ ¬ (Dim.mk e0 L0).Has (x + f.offset) then .err (rangeErr 0 x f.offset ⟨e0, L0⟩) else .ok () := by
  cases chk
  · rfl
  · have hcr := check_range_core_eq 0 ⟨e0, L0⟩ x f hf
    have e : tagBegin e0.n e0.i .ALL + (tagEnd e0.i e0.p .ALL - tagBegin e0.n e0.i .ALL) = (e0.i : Int) + e0.p := by
      simp only [tagBegin, tagEnd]; omega
    simp only [RangeT.check_range, RangeT.begin_, RangeT.end_, RangeT.size, check_d_1_0, Out.ok_bind, if_true, e]
    rw [i32_ok (by unfold InI32; omega), Out.ok_bind]
    simp only [tagBegin] at hcr ⊢
    rw [hcr]
    by_cases hh : (Dim.mk e0 L0).Has (x + f.offset) <;> simp [hh]

theorem at_reject {N L0 e0} {o : PD} {h : Heap V} {B cell} (r : Ready N L0 e0 o h B cell)
    (hf : e0.n + e0.i + e0.p + 1 < 2147483648) {n : Nat} {x : Int} {f : FL} {e : Err}
    (he : accessErr N [⟨e0, L0⟩] n [x] [f] = some e) : at_ true N L0 o n x f h = .err e h := by
  have hd : check_data true o = .ok () := by unfold check_data; rw [r.data]; simp
  have hfit : e0.Fits := by unfold Ext.Fits; omega
  unfold at_
  rw [hd, check_flag_eq, r.size, sz_range true e0 hfit]
  simp only [accessErr, flagErrs, rangeErrs] at he
  unfold check_n
  simp only [M.liftM_eq, M.lift_ok, pure_bind, range_check_0 true e0 L0 hf]
  by_cases hn : N ≤ n
  · rw [if_pos hn] at he; cases he
    simp [hn]
  · rw [if_neg hn] at he
    cases hff : flagFits L0 f
    · simp [hff] at he; subst he; simp [hn]
    · by_cases hh : (Dim.mk e0 L0).Has (x + f.offset)
      · simp [hff, hh] at he
      · simp [hff, hh] at he; subst he
        simp [hn, hh]

theorem at_ok (chk : Bool) {N L0 e0} {o : PD} {h : Heap V} {B cell} (r : Ready N L0 e0 o h B cell)
    (hf : e0.n + e0.i + e0.p + 1 < 2147483648) {n : Nat} {x : Int} {f : FL}
    (he : accessErr N [⟨e0, L0⟩] n [x] [f] = none) :
    at_ chk N L0 o n x f h
      = .ok (.at B (n * points [⟨e0, L0⟩] + offset [⟨e0, L0⟩] (point [x] [f]))) h ∧
    n < N ∧ HasPt [⟨e0, L0⟩] (point [x] [f]) := by
  have hd : check_data chk o = .ok () := by unfold check_data; rw [r.data]; simp
  have hfit : e0.Fits := by unfold Ext.Fits; omega
  simp only [accessErr, flagErrs, rangeErrs] at he
  by_cases hn : N ≤ n
  · rw [if_pos hn] at he; cases he
  · rw [if_neg hn] at he
    have hn' : n < N := by omega
    cases hff : flagFits L0 f
    · simp [hff] at he
    · by_cases hh : (Dim.mk e0 L0).Has (x + f.offset)
      · refine ⟨?_, hn', hh, trivial⟩
        unfold at_
        rw [hd, check_flag_eq, r.size, sz_range chk e0 hfit]
        unfold check_n
        simp only [M.liftM_eq, M.lift_ok, pure_bind, range_check_0 chk e0 L0 hf]
        simp [hn, hff, hh, i32_ok (Dim.int_of_has hh hf), elem_eq r hn' hh, points, offset, point]
      · simp [hff, hh] at he

/-- `data_pt` -/
theorem data_pt_eq (chk : Bool) {N L0 e0} {o : PD} {h : Heap V} {B cell} (r : Ready N L0 e0 o h B cell)
    (hf : e0.n + e0.i + e0.p + 1 < 2147483648) {n : Nat} (hn : n < N) :
    data_pt chk N o n h = .ok (.at B (n * points [⟨e0, L0⟩])) h := by
  have hfit : e0.Fits := by unfold Ext.Fits; omega
  have hs := (sz_fields_0 e0 hfit).1
  unfold data_pt check_n pt0At SizeT.n
  rw [if_pos hn, r.size, r.pt0 n hn, hs]
  have := Nat.not_le.2 hn
  simp [this, points]
  exact Heap.padd_at r.blk (by push_cast; omega) (by simp only [Block.len]; exact Nat.mul_le_mul_right _ (by omega))

theorem check_eq (e0 : Ext) (hf : e0.n + e0.i + e0.p < 2147483648) :
    (SizeT.new e0.n e0.i e0.p).check = Out.ofErr (sizeErrs 0 [e0]) := by
  have hfit : e0.Fits := by unfold Ext.Fits; omega
  obtain ⟨h1, h2, h3⟩ := sz_fields_0 e0 hfit
  unfold sz at h1 h2 h3
  unfold SizeT.check
  rw [h1, h2, h3]
  have := checkDim_eq e0 hf 0
  rw [this]; unfold sizeErrs sizeErrs
  split <;> rfl

/-- the initialisation of `pt0` -/
theorem setAll_eq (N : Nat) (hN : N < 4294967296) (f : Nat → Ptr) (h : Heap V) (o : PD) :
    forU 0 N (fun m => setPt0 N m (f m)) ⟨h, o⟩
      = .ok () ⟨h, { o with pt0 := fun m => if m < N then f m else o.pt0 m }⟩ := by
  have := forU_exact N hN (fun m => setPt0 (V := V) N m (f m))
    (fun k => ⟨h, { o with pt0 := fun m => if m < k then f m else o.pt0 m }⟩) (by
      intro m hm
      unfold setPt0
      rw [if_pos hm, St.modObj_run]
      congr 3
      funext q
      by_cases hq : q = m
      · subst hq; simp
      · simp only [hq, if_false]
        by_cases h2 : q < m
        · rw [if_pos h2, if_pos (by omega)]
        · rw [if_neg h2, if_neg (by omega)])
  simpa using this

theorem ctor0_eq (N : Nat) (h0 : N ≠ 0) (hN : N < 4294967296) (h : Heap V) (o : PD) :
    ctor0 N ⟨h, o⟩ = .ok () ⟨h, ⟨{}, .null, fun m => if m < N then .null else o.pt0 m⟩⟩ := by
  unfold ctor0
  rw [if_neg h0, M.bind_ok (St.modObj_run _ _)]
  exact setAll_eq N hN (fun _ => .null) h _

/-- what `alloc` does when it gets as far as asking for memory -/
inductive AllocRes (N : Nat) (L0 : Loc) (e0 : Ext) (h : Heap V) (o : PD) : Res (St V PD) Unit → Prop
  | nomem (hm : h.mem h.next (N * points [⟨e0, L0⟩]) = false) : AllocRes N L0 e0 h o (.err .noMemory ⟨h.skip, o⟩)
  | ok (h' : Heap V) (o' : PD) (hm : h.mem h.next (N * points [⟨e0, L0⟩]) = true)
      (hn : h'.next = h.next + 1) (hmem : h'.mem = h.mem) (hfr : ∀ b, b ≠ h.next → h'.blk b = h.blk b)
      (hr : Ready N L0 e0 o' h' h.next (fun _ => none)) : AllocRes N L0 e0 h o (.ok () ⟨h', o'⟩)

theorem alloc_notEmpty (chk : Bool) {N L0} {n i p : Nat} {h : Heap V} {o : PD} (hd : o.data ≠ .null) :
    alloc chk N L0 n i p ⟨h, o⟩ = .err .notEmpty ⟨h, o⟩ := by
  unfold alloc
  rw [M.bind_ok (St.obj_run _)]; simp only; rw [if_pos hd]; rfl

theorem alloc_bad (chk : Bool) {N L0} {e0 : Ext} {h : Heap V} {o : PD} (hd : o.data = .null)
    (hf : e0.n + e0.i + e0.p < 2147483648) {e : Err} (he : sizeErrs 0 [e0] = some e) :
    alloc chk N L0 e0.n e0.i e0.p ⟨h, o⟩ = .err e ⟨h, o⟩ := by
  unfold alloc
  rw [M.bind_ok (St.obj_run _)]; simp only; rw [if_neg (by simp [hd]), check_eq e0 hf, he]; rfl

theorem alloc_none (chk : Bool) {N L0} {e0 : Ext} {h : Heap V} {o : PD} (hd : o.data = .null)
    (hf : e0.n + e0.i + e0.p + 1 < 2147483648) (he : sizeErrs 0 [e0] = none) (hp : points [⟨e0, L0⟩] = 0) :
    alloc chk N L0 e0.n e0.i e0.p ⟨h, o⟩ = .ok () ⟨h, o⟩ := by
  have hfit : e0.Fits := by unfold Ext.Fits; omega
  have hz := (sz_acc_0 chk e0 hfit .ALL).2.2.1
  unfold sz at hz
  unfold alloc
  rw [M.bind_ok (St.obj_run _)]; simp only; rw [if_neg (by simp [hd]), check_eq e0 (Nat.lt_of_succ_lt hf), he]
  have : (Dim.mk e0 L0).width = 0 := by simpa [points] using hp
  simp [Out.ofErr, hz, width_u32 e0 L0 (Nat.lt_of_succ_lt hf), this]

theorem allocComp_eq (chk : Bool) {N W b m n : Nat} {h : Heap V} {s : SizeT} {o : PD} {cell : Nat → Option V}
    (hd : o.data = .at b 0) (hs : s.n_ = n) (hnW : n ≤ W) (hNW : N * W < 4294967296)
    (hb : h.blk b = some (.vals (N * W) cell)) (hm : m < N) :
    allocComp chk N s W m ⟨h, o⟩
      = .ok () ⟨h, { o with pt0 := fun q => if q = m then .at b (m * W + n) else o.pt0 q }⟩ := by
  have hsn : s.n chk 0 = .ok (n : Int) := by unfold SizeT.n; rw [check_d_1_0, hs]; rfl
  have h2 : m * W ≤ N * W := Nat.mul_le_mul_right _ (by omega)
  have h3 := mul_add_le hm hnW
  unfold allocComp
  rw [M.bind_ok (St.obj_run _)]
  simp only
  rw [hd, u32_of_lt (by omega), M.bind_ok (St.heap_ok (s := ⟨h, o⟩) (Heap.padd_at (r := m * W) hb (by omega) h2)),
    hsn, M.liftM_eq, M.lift_ok, pure_bind,
    M.bind_ok (St.heap_ok (s := ⟨h, o⟩) (Heap.padd_at (r := m * W + n) hb (by omega) h3))]
  unfold setPt0
  rw [if_pos hm, St.modObj_run]
  simp only [hd]

theorem allocLoop_eq (chk : Bool) {N W b n : Nat} {h : Heap V} {s : SizeT} {o : PD} {cell : Nat → Option V}
    (hN : N < 4294967296) (hd : o.data = .at b 0) (hs : s.n_ = n) (hnW : n ≤ W) (hNW : N * W < 4294967296)
    (hb : h.blk b = some (.vals (N * W) cell)) :
    forU 0 N (fun m => allocComp chk N s W m) ⟨h, o⟩
      = .ok () ⟨h, { o with pt0 := fun m => if m < N then .at b (m * W + n) else o.pt0 m }⟩ := by
  have := forU_exact (σ := St V PD) N hN (fun m => allocComp chk N s W m)
    (fun k => ⟨h, { o with pt0 := fun m => if m < k then .at b (m * W + n) else o.pt0 m }⟩) (by
      intro m hm
      rw [allocComp_eq chk (by exact hd) hs hnW hNW hb hm]
      congr 3
      funext q
      by_cases hq : q = m
      · subst hq; simp
      · simp only [hq, if_false]
        by_cases h2 : q < m
        · rw [if_pos h2, if_pos (by omega)]
        · rw [if_neg h2, if_neg (by omega)])
  simp only [Nat.not_lt_zero, if_false] at this
  exact this

theorem alloc_some (chk : Bool) {N L0} {e0 : Ext} {h : Heap V} {o : PD} (hd : o.data = .null)
    (hN : N < 4294967296)
    (hf : e0.n + e0.i + e0.p < 2147483648) (hNp : N * points [⟨e0, L0⟩] < 4294967296)
    (he : sizeErrs 0 [e0] = none) (hp : points [⟨e0, L0⟩] ≠ 0) :
    AllocRes N L0 e0 h o (alloc chk N L0 e0.n e0.i e0.p ⟨h, o⟩) := by
  have hfit : e0.Fits := by unfold Ext.Fits; omega
  have hz := (sz_acc_0 chk e0 hfit .ALL).2.2.1
  have hsn := (sz_fields_0 e0 hfit).1
  have hW : points [⟨e0, L0⟩] = (Dim.mk e0 L0).width := by simp [points]
  have hwd := width_u32 e0 L0 hf
  have hnW := Dim.n_le_width ⟨e0, L0⟩
  rw [hW] at hNp hp
  unfold sz at hz hsn
  unfold alloc
  rw [M.bind_ok (St.obj_run _)]; simp only; rw [if_neg (by simp [hd]), check_eq e0 hf, he]
  simp only [Out.ofErr, hz, M.liftM_eq, M.lift_ok, pure_bind, hwd]
  generalize hw : (Dim.mk e0 L0).width = W at *
  rw [if_pos hp]
  cases hm : h.mem h.next (N * W)
  · rw [tryAlloc_bad (s' := ⟨h.skip, o⟩)]
    · exact .nomem (by rw [hW]; exact hm)
    · unfold allocMem
      rw [Nat.mul_comm W N, u32_of_lt hNp, M.bind_err (St.heap_err (s := ⟨h, o⟩) (Heap.newVals_fail hm))]
  · have hb : (h.push (.vals (N * W) fun _ => none)).blk h.next = some (.vals (N * W) fun _ => none) := by simp
    rw [tryAlloc_ok (s' := ⟨h.push (.vals (N * W) fun _ => none), ⟨SizeT.new e0.n e0.i e0.p, .at h.next 0,
      fun m => if m < N then .at h.next (m * W + e0.n) else o.pt0 m⟩⟩)]
    · refine AllocRes.ok _ _ (by rw [hW]; exact hm) (Heap.push_next _ _) (Heap.push_mem _ _)
        (fun b hb => Heap.push_blk_ne _ _ hb) ⟨rfl, rfl, by rw [hw]; exact hb, ?_⟩
      intro n hn
      simp only [if_pos hn, hw]
    · unfold allocMem
      rw [Nat.mul_comm W N, u32_of_lt hNp, M.bind_ok (St.heap_ok (s := ⟨h, o⟩) (Heap.newVals_ok hm)),
        M.bind_ok (St.modObj_run _ _), M.bind_ok (St.modObj_run _ _)]
      simp only
      rw [allocLoop_eq chk hN rfl hsn hnW hNp hb]

theorem clear_empty {N} {h : Heap V} {o : PD} (hd : o.data = .null) : clear N ⟨h, o⟩ = .err .isEmpty ⟨h, o⟩ := by
  unfold clear
  rw [M.bind_ok (St.obj_run _)]; simp only; rw [if_pos hd]; rfl

theorem clear_ready {N L0 e0} {o : PD} {h : Heap V} {B cell} (hN : N < 4294967296) (r : Ready N L0 e0 o h B cell) :
    ∃ o', clear N ⟨h, o⟩ = .ok () ⟨h.upd B none, o'⟩ ∧ Empty o' ∧ ∀ n < N, o'.pt0 n = .null := by
  unfold clear
  rw [M.bind_ok (St.obj_run _)]; simp only
  rw [if_neg (by rw [r.data]; simp), r.data, M.bind_ok (St.heap_ok (s := ⟨h, o⟩) (Heap.delArr_at r.blk)),
    M.bind_ok (St.modObj_run _ _), M.bind_ok (setAll_eq N hN (fun _ => .null) _ _), St.modObj_run]
  exact ⟨_, rfl, ⟨rfl, rfl⟩, fun n hn => if_pos hn⟩

end PD
end Verif.D1
