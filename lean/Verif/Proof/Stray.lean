import Verif.Spec.Stray
import Verif.Proof.CopyAll
import Verif.Proof.Program
/-!
# Lemmas: where an access without checks ends
-/
namespace Verif
open Spec
variable {V : Type} {mem : Nat → Nat → Bool} {chk : Bool} {w : World V} {aw : AWorld V} {L : List Nat}

/-- indexing a known block, exactly -/
theorem Heap.idx_exact {h : Heap V} {b : Nat} {B : Block V} (hb : h.blk b = some B) (o : Nat) (k : Int) :
    (0 ≤ (o : Int) + k ∧ (o : Int) + k < B.len → Heap.idx (.at b o) k h = .ok (.at b ((o : Int) + k).toNat) h) ∧
    (¬ (0 ≤ (o : Int) + k ∧ (o : Int) + k < B.len) → ∃ u, Heap.idx (.at b o) k h = .ub u) := by
  constructor
  · intro c
    exact Heap.idx_at hb (by omega) (by omega)
  · intro c
    rcases Heap.idx_cases hb o k with ⟨r, h1, h2⟩ | h1
    · exfalso
      unfold Heap.idx at h2
      by_cases c1 : 0 ≤ (o : Int) + k ∧ (o : Int) + k ≤ B.len
      · have e : Heap.padd (.at b o) k h = .ok (.at b ((o : Int) + k).toNat) h := by simp only [Heap.padd, hb, if_pos c1]
        rw [M.bind_ok e] at h2
        simp only [Heap.lval, hb] at h2
        split at h2
        · omega
        · cases h2
      · have e : Heap.padd (.at b o) k h = .ub .oob := by simp only [Heap.padd, hb, if_neg c1]
        rw [M.bind_ub e] at h2; cases h2
    · exact h1

/-- the address of an element, for any indices -/
theorem Obj.elem_walk {k : Kind} {es : List Ext} {o : Obj} {h : Heap V} {B : Nat} {c : Nat → Option V}
    (r : ObjReady k es o h B c) (n : Nat) {ys : List Int} (hy : ys.length = k.locs.length) (hn : n < k.N) :
    (∀ a, walk k.N n (mkShape es k.locs) ys = some a → Obj.elem k o n ys h = .ok (.at B a) h) ∧
    (walk k.N n (mkShape es k.locs) ys = none → ∃ u, Obj.elem k o n ys h = .ub u) := by
  cases r with
  | @d1 N L0 e0 o h B cell r =>
    match ys, hy with
    | [x], _ =>
      simp only [Obj.elem, mkShape, walk]
      unfold D1.PD.elem D1.PD.pt0At
      rw [if_pos hn, pure_bind, r.pt0 n hn]
      have hb := Heap.idx_exact r.blk (n * (Dim.mk e0 L0).width + e0.n) x
      simp only [Block.len] at hb
      have e : ((n * (Dim.mk e0 L0).width + e0.n : Nat) : Int) + x = ((n * (Dim.mk e0 L0).width : Nat) : Int) + (x + e0.n) := by
        push_cast; omega
      rw [e] at hb
      split
      · rename_i c
        refine ⟨?_, by simp⟩
        intro a ha; cases ha
        exact hb.1 c
      · rename_i c
        exact ⟨by simp, fun _ => hb.2 c⟩
  | @d2 N L0 L1 e0 e1 o h B P cell r =>
    match ys, hy with
    | [x, y], _ =>
      obtain ⟨t, ht, ht'⟩ := r.tab
      have hblk := r.blk
      rw [← Nat.mul_assoc] at hblk
      simp only [Obj.elem, mkShape, walk]
      unfold D2.PD.elem D2.PD.pt0At
      rw [if_pos hn, pure_bind, r.pt0 n hn]
      have hb := Heap.idx_exact ht (n * (Dim.mk e0 L0).width + e0.n) x
      simp only [Block.len] at hb
      have e : ((n * (Dim.mk e0 L0).width + e0.n : Nat) : Int) + x = ((n * (Dim.mk e0 L0).width : Nat) : Int) + (x + e0.n) := by
        push_cast; omega
      rw [e] at hb
      generalize ((n * (Dim.mk e0 L0).width : Nat) : Int) + (x + e0.n) = A at hb ⊢
      by_cases c : 0 ≤ A ∧ A < ((N * (Dim.mk e0 L0).width : Nat) : Int)
      · rw [if_pos c, M.bind_ok (hb.1 c), M.bind_ok (Heap.loadP_at ht (show A.toNat < _ by omega) (ht' _ (by omega)))]
        have hb := Heap.idx_exact hblk (A.toNat * (Dim.mk e1 L1).width + e1.n) y
        simp only [Block.len] at hb
        have e : ((A.toNat * (Dim.mk e1 L1).width + e1.n : Nat) : Int) + y =
          ((A.toNat * (Dim.mk e1 L1).width : Nat) : Int) + (y + e1.n) := by push_cast; omega
        rw [e] at hb
        split
        · rename_i c
          refine ⟨?_, by simp⟩
          intro a ha; cases ha
          exact hb.1 c
        · rename_i c
          exact ⟨by simp, fun _ => hb.2 c⟩
      · rw [if_neg c]
        obtain ⟨u, hu⟩ := hb.2 c
        rw [M.bind_ub hu]
        exact ⟨by simp, fun _ => ⟨u, rfl⟩⟩
  | @d3 N L0 L1 L2 e0 e1 e2 o h B P Q cell r =>
    match ys, hy with
    | [x, y, z], _ =>
      obtain ⟨t, ht, ht'⟩ := r.tab
      obtain ⟨t2, hu, hu'⟩ := r.tab2
      have hblk := r.blk
      rw [← Nat.mul_assoc, ← Nat.mul_assoc] at hblk
      simp only [Obj.elem, mkShape, walk]
      unfold D3.PD.elem D3.PD.pt0At
      rw [if_pos hn, pure_bind, r.pt0 n hn]
      have hb := Heap.idx_exact ht (n * (Dim.mk e0 L0).width + e0.n) x
      simp only [Block.len] at hb
      have e : ((n * (Dim.mk e0 L0).width + e0.n : Nat) : Int) + x = ((n * (Dim.mk e0 L0).width : Nat) : Int) + (x + e0.n) := by
        push_cast; omega
      rw [e] at hb
      generalize ((n * (Dim.mk e0 L0).width : Nat) : Int) + (x + e0.n) = A at hb ⊢
      by_cases c : 0 ≤ A ∧ A < ((N * (Dim.mk e0 L0).width : Nat) : Int)
      · rw [if_pos c, M.bind_ok (hb.1 c), M.bind_ok (Heap.loadP_at ht (show A.toNat < _ by omega) (ht' _ (by omega)))]
        have hb := Heap.idx_exact hu (A.toNat * (Dim.mk e1 L1).width + e1.n) y
        simp only [Block.len] at hb
        have e : ((A.toNat * (Dim.mk e1 L1).width + e1.n : Nat) : Int) + y =
          ((A.toNat * (Dim.mk e1 L1).width : Nat) : Int) + (y + e1.n) := by push_cast; omega
        rw [e] at hb
        generalize ((A.toNat * (Dim.mk e1 L1).width : Nat) : Int) + (y + e1.n) = A' at hb ⊢
        by_cases c : 0 ≤ A' ∧ A' < ((N * (Dim.mk e0 L0).width * (Dim.mk e1 L1).width : Nat) : Int)
        · rw [if_pos c, M.bind_ok (hb.1 c), M.bind_ok (Heap.loadP_at hu (show A'.toNat < _ by omega) (hu' _ (by omega)))]
          have hb := Heap.idx_exact hblk (A'.toNat * (Dim.mk e2 L2).width + e2.n) z
          simp only [Block.len] at hb
          have e : ((A'.toNat * (Dim.mk e2 L2).width + e2.n : Nat) : Int) + z =
            ((A'.toNat * (Dim.mk e2 L2).width : Nat) : Int) + (z + e2.n) := by push_cast; omega
          rw [e] at hb
          split
          · rename_i c
            refine ⟨?_, by simp⟩
            intro a ha; cases ha
            exact hb.1 c
          · rename_i c
            exact ⟨by simp, fun _ => hb.2 c⟩
        · rw [if_neg c]
          obtain ⟨u, hu⟩ := hb.2 c
          rw [M.bind_ub hu]
          exact ⟨by simp, fun _ => ⟨u, rfl⟩⟩
      · rw [if_neg c]
        obtain ⟨u, hu⟩ := hb.2 c
        rw [M.bind_ub hu]
        exact ⟨by simp, fun _ => ⟨u, rfl⟩⟩

theorem Obj.elem_noComp {k : Kind} {o : Obj} {n : Nat} (hn : ¬ n < k.N) (ys : List Int) (h : Heap V) :
    ∃ u, Obj.elem k o n ys h = .ub u := by
  unfold Obj.elem
  split
  · exact ⟨.oob, by unfold D1.PD.elem D1.PD.pt0At; rw [if_neg hn]; rfl⟩
  · exact ⟨.oob, by unfold D2.PD.elem D2.PD.pt0At; rw [if_neg hn]; rfl⟩
  · exact ⟨.oob, by unfold D3.PD.elem D3.PD.pt0At; rw [if_neg hn]; rfl⟩
  · exact ⟨_, rfl⟩

/-- the access function without checks: the sums of index and flag, then the element -/
theorem Obj.at_free {k : Kind} {es : List Ext} {o : Obj} (t : Typed k o) (sz : Sized o es) (n : Nat) {xs : List Int} {fs : List FL}
    (hx : xs.length = k.locs.length) (hf : fs.length = k.locs.length) (h : Heap V) :
    Obj.at_ false k o n xs fs h = if ∀ y ∈ point xs fs, InI32 y then Obj.elem k o n (point xs fs) h else .ub .overflow := by
  cases t with
  | @d1 N L0 o =>
    cases sz with
    | @d1 _ e0 hs hfit0 =>
    match xs, fs, hx, hf with
    | [x], [f], _, _ =>
      have hd : D1.PD.check_data false o = .ok () := rfl
      simp only [Obj.at_, point, List.forall_mem_cons, List.not_mem_nil, false_imp_iff, implies_true, and_true, Obj.elem]
      have hg : D1.PD.check_flag false L0 f = .ok () := by simp [D1.PD.check_flag]
      unfold D1.PD.at_
      rw [hd, hg, hs, D1.sz_range false e0 hfit0]
      unfold D1.PD.check_n
      simp only [M.liftM_eq, M.lift_ok, pure_bind, D1.RangeT.check_range]
      by_cases c : InI32 (x + f.offset)
      · simp [c]
      · simp [i32_bad c, c]
  | @d2 N L0 L1 o =>
    cases sz with
    | @d2 _ e0 e1 hs hfit0 hfit1 =>
    match xs, fs, hx, hf with
    | [x, y], [f, g], _, _ =>
      have hd : D2.PD.check_data false o = .ok () := rfl
      simp only [Obj.at_, point, List.forall_mem_cons, List.not_mem_nil, false_imp_iff, implies_true, and_true, Obj.elem]
      have hg : D2.PD.check_flag false L0 L1 f g = .ok () := by simp [D2.PD.check_flag, D2.PD.checkFlagDim]
      unfold D2.PD.at_
      rw [hd, hg, hs, D2.sz_range false e0 e1 hfit0 hfit1]
      unfold D2.PD.check_n
      simp only [M.liftM_eq, M.lift_ok, pure_bind, D2.RangeT.check_range]
      by_cases c : InI32 (x + f.offset)
      · by_cases c1 : InI32 (y + g.offset)
        · simp [c, c1]
        · simp [i32_ok c, i32_bad c1, c1]
      · simp [i32_bad c, c]
  | @d3 N L0 L1 L2 o =>
    cases sz with
    | @d3 _ e0 e1 e2 hs hfit0 hfit1 hfit2 =>
    match xs, fs, hx, hf with
    | [x, y, z], [f, g, l], _, _ =>
      have hd : D3.PD.check_data false o = .ok () := rfl
      simp only [Obj.at_, point, List.forall_mem_cons, List.not_mem_nil, false_imp_iff, implies_true, and_true, Obj.elem]
      have hg : D3.PD.check_flag false L0 L1 L2 f g l = .ok () := by simp [D3.PD.check_flag, D3.PD.checkFlagDim]
      unfold D3.PD.at_
      rw [hd, hg, hs, D3.sz_range false e0 e1 e2 hfit0 hfit1 hfit2]
      unfold D3.PD.check_n
      simp only [M.liftM_eq, M.lift_ok, pure_bind, D3.RangeT.check_range]
      by_cases c : InI32 (x + f.offset)
      · by_cases c1 : InI32 (y + g.offset)
        · by_cases c2 : InI32 (z + l.offset)
          · simp [c, c1, c2]
          · simp [i32_ok c, i32_ok c1, i32_bad c2, c2]
        · simp [i32_ok c, i32_bad c1, c1]
      · simp [i32_bad c, c]

/-- the pointers of an array without usable elements lead nowhere -/
theorem Rel.stray_loose (R : Rel mem w aw L) {x : Nat} {k : Kind} {a : AArr V} (hx : aw.arr x = some (k, a))
    (hn : ∀ es val, a ≠ .ready es val) {o : Obj} (hb : w.objs x = some (k, o)) : ∀ b, o.Points k b → w.h.blk b = none := by
  intro b hp
  obtain ⟨o', hb', -, -, r⟩ := R.arr_some hx
  rw [hb] at hb'; cases hb'
  have ht : ¬ o.Tied := by
    cases r with
    | empty e => exact e.loose
    | ready r => exact (hn _ _ rfl).elim
    | broken r => exact r.loose
  rcases R.stale x b (by rw [hb]; exact hp) with h1 | h1
  · rw [hb] at h1; exact (ht h1).elim
  · exact h1.1

theorem Reps.typed_stray {k : Kind} {o : Obj} {h : Heap V} {a : AArr V} (r : Reps k o h a) : Typed k o := by
  cases r with
  | empty e => cases e <;> constructor
  | ready r => exact r.typed
  | broken r => cases r <;> constructor

/-- the element under indices, whatever they are -/
theorem Obj.elem_place {k : Kind} {es : List Ext} {o : Obj} {h : Heap V} {B : Nat} {c : Nat → Option V}
    (r : ObjReady k es o h B c) (n : Nat) {ys : List Int} (hy : ys.length = k.locs.length) (hi : ∀ y ∈ ys, InI32 y) :
    (∀ a, seat k es n ys = some a → Obj.elem k o n ys h = .ok (.at B a) h) ∧
    (seat k es n ys = none → ∃ u, Obj.elem k o n ys h = .ub u) := by
  unfold seat
  by_cases hn : n < k.N
  · rw [if_pos ⟨hn, hi⟩]
    exact Obj.elem_walk r n hy hn
  · rw [if_neg (fun h => hn h.1)]
    exact ⟨by simp, fun _ => Obj.elem_noComp hn ys h⟩

/-- the place lies in the storage -/
theorem walk_lt {sh : Shape} {ys : List Int} {m r a : Nat} (hr : r < m) (h : walk m r sh ys = some a) : a < m * points sh := by
  induction sh generalizing ys m r with
  | nil =>
    cases ys with
    | nil => simp only [walk, Option.some.injEq] at h; simp [points]; omega
    | cons y ys => simp [walk] at h
  | cons d sh ih =>
    cases ys with
    | nil => simp [walk] at h
    | cons y ys =>
      simp only [walk] at h
      split at h
      · have := ih (by omega) h
        rw [points, ← Nat.mul_assoc]; exact this
      · cases h

theorem place_lt {k : Kind} {es : List Ext} {n : Nat} {ys : List Int} {a : Nat} (h : seat k es n ys = some a) :
    a < k.N * points (mkShape es k.locs) := by
  unfold seat at h
  split at h
  · rename_i c; exact walk_lt c.1 h
  · cases h

/-- a stored point has its own place -/
theorem walk_pt {sh : Shape} {ys : List Int} {m r : Nat} (hr : r < m) (h : HasPt sh ys) :
    walk m r sh ys = some (r * points sh + offset sh ys) := by
  induction sh generalizing ys m r with
  | nil =>
    cases ys with
    | nil => simp [walk, points, offset]
    | cons y ys => exact h.elim
  | cons d sh ih =>
    cases ys with
    | nil => exact h.elim
    | cons y ys =>
      have h0 := Dim.nonneg_of_has h.1
      have h1 := Dim.width_pos_of_has h.1
      simp only [walk, points, offset]
      have h2 := mul_add_lt hr h1
      rw [if_pos ⟨by omega, by omega⟩, ih (by omega) h.2]
      have e : (((r * d.width : Nat) : Int) + (y + d.ext.n)).toNat = r * d.width + (y + d.ext.n).toNat := by omega
      rw [e]; congr 1; ring

theorem place_pt {k : Kind} {es : List Ext} (fits : ShapeFits k.N (mkShape es k.locs)) {n : Nat} {ys : List Int} (hn : n < k.N)
    (h : HasPt (mkShape es k.locs) ys) :
    seat k es n ys = some (n * points (mkShape es k.locs) + offset (mkShape es k.locs) ys) := by
  unfold seat
  rw [if_pos ⟨hn, hasPt_int fits h⟩, walk_pt hn h]

/-- every place belongs to a valid access -/
theorem place_surj {k : Kind} {es : List Ext} (hl : es.length = k.locs.length) {a : Nat}
    (ha : a < k.N * points (mkShape es k.locs)) :
    ∃ n xs fs, Valid k es n xs fs ∧ n * points (mkShape es k.locs) + offset (mkShape es k.locs) (point xs fs) = a := by
  have hp : 0 < points (mkShape es k.locs) := by
    rcases Nat.eq_zero_or_pos (points (mkShape es k.locs)) with h | h
    · rw [h] at ha; simp at ha
    · exact h
  obtain ⟨ys, h1, h2⟩ := offset_surj (Nat.mod_lt a hp)
  have hq : a / points (mkShape es k.locs) < k.N := Nat.div_lt_of_lt_mul (by rw [Nat.mul_comm]; exact ha)
  obtain ⟨xs, fs, v, e⟩ := valid_of_pt hl hq h1
  refine ⟨_, xs, fs, v, ?_⟩
  rw [e, h2, Nat.mul_comm]
  exact Nat.div_add_mod a _

end Verif
