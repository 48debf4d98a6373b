import Verif.Model.Heap
import Verif.Proof.Loops
/-!
# Stepping lemmas for the free store
-/
namespace Verif
variable {V : Type}

namespace Heap

theorem padd_at {h : Heap V} {b o r : Nat} {B : Block V} {k : Int} (hb : h.blk b = some B)
    (hr : (o : Int) + k = r) (hl : r ≤ B.len) : padd (.at b o) k h = .ok (.at b r) h := by
  simp only [padd, hb, hr]
  rw [if_pos (by omega), Int.toNat_natCast]

theorem lval_at {h : Heap V} {b o : Nat} {B : Block V} (hb : h.blk b = some B) (hl : o < B.len) :
    lval (.at b o) h = .ok (.at b o) h := by
  simp only [lval, hb, if_pos hl]

theorem idx_at {h : Heap V} {b o r : Nat} {B : Block V} {k : Int} (hb : h.blk b = some B)
    (hr : (o : Int) + k = r) (hl : r < B.len) : idx (.at b o) k h = .ok (.at b r) h := by
  unfold idx
  rw [M.bind_ok (padd_at hb hr (by omega)), lval_at hb hl]

/-- indexing a known block: inside it, or undefined -/
theorem idx_cases {h : Heap V} {b : Nat} {B : Block V} (hb : h.blk b = some B) (o : Nat) (k : Int) :
    (∃ r, r < B.len ∧ idx (.at b o) k h = .ok (.at b r) h) ∨ ∃ u, idx (.at b o) k h = .ub u := by
  unfold idx
  by_cases h1 : 0 ≤ (o : Int) + k ∧ (o : Int) + k ≤ B.len
  · have e : padd (.at b o) k h = .ok (.at b ((o : Int) + k).toNat) h := by simp only [padd, hb, if_pos h1]
    rw [M.bind_ok e]
    by_cases h2 : ((o : Int) + k).toNat < B.len
    · exact .inl ⟨_, h2, lval_at hb h2⟩
    · refine .inr ⟨.oob, ?_⟩
      simp only [lval, hb, if_neg h2]
  · have e : padd (.at b o) k h = .ub .oob := by simp only [padd, hb, if_neg h1]
    rw [M.bind_ub e]; exact .inr ⟨_, rfl⟩

theorem loadV_at {h : Heap V} {b o len : Nat} {cell} (hb : h.blk b = some (.vals len cell)) (hl : o < len) :
    loadV (.at b o) h = .ok (cell o) h := by
  simp only [loadV, hb, if_pos hl]

theorem storeV_at {h : Heap V} {b o len : Nat} {cell} {v : Option V} (hb : h.blk b = some (.vals len cell)) (hl : o < len) :
    storeV (.at b o) v h = .ok () (h.upd b (some (.vals len (fun k => if k = o then v else cell k)))) := by
  simp only [storeV, hb, if_pos hl]

theorem loadP_at {h : Heap V} {b o len : Nat} {cell} {q : Ptr} (hb : h.blk b = some (.ptrs len cell)) (hl : o < len)
    (hq : cell o = some q) : loadP (.at b o) h = .ok q h := by
  simp only [loadP, hb, if_pos hl, hq]

theorem storeP_at {h : Heap V} {b o len : Nat} {cell} {q : Ptr} (hb : h.blk b = some (.ptrs len cell)) (hl : o < len) :
    storeP (.at b o) q h = .ok () (h.upd b (some (.ptrs len (fun k => if k = o then some q else cell k)))) := by
  simp only [storeP, hb, if_pos hl]

@[simp] theorem upd_blk_same (h : Heap V) (b : Nat) (x : Option (Block V)) : (h.upd b x).blk b = x := by simp [upd]
theorem upd_blk_ne (h : Heap V) {b c : Nat} (x : Option (Block V)) (hc : c ≠ b) : (h.upd b x).blk c = h.blk c := by
  simp [upd, hc]
@[simp] theorem upd_next (h : Heap V) (b : Nat) (x : Option (Block V)) : (h.upd b x).next = h.next := rfl
@[simp] theorem upd_mem (h : Heap V) (b : Nat) (x : Option (Block V)) : (h.upd b x).mem = h.mem := rfl
theorem upd_upd (h : Heap V) (b : Nat) (x y : Option (Block V)) : (h.upd b x).upd b y = h.upd b y := by
  unfold upd; simp only [Heap.mk.injEq, and_true]
  funext c; by_cases hc : c = b <;> simp [hc]
theorem upd_comm (h : Heap V) {b c : Nat} (hbc : b ≠ c) (x y : Option (Block V)) :
    (h.upd b x).upd c y = (h.upd c y).upd b x := by
  unfold upd; simp only [Heap.mk.injEq, and_true]
  funext a; by_cases ha : a = b
  · subst ha; simp [hbc]
  · by_cases hc : a = c
    · subst hc; simp [ha]
    · simp [ha, hc]
theorem upd_self (h : Heap V) (b : Nat) (x : Option (Block V)) (hx : h.blk b = x) : h.upd b x = h := by
  obtain ⟨blk, next, mem⟩ := h
  unfold upd; simp only [Heap.mk.injEq, and_true]
  funext c; by_cases hc : c = b
  · subst hc; simp [← hx]
  · simp [hc]

theorem delArr_at {h : Heap V} {b : Nat} {B : Block V} (hb : h.blk b = some B) :
    delArr (.at b 0) h = .ok () (h.upd b none) := by
  simp only [delArr, hb, Option.isSome_some, and_self, if_true]
@[simp] theorem delArr_null (h : Heap V) : delArr .null h = .ok () h := rfl

/-- the heap after one more successful `new[]` -/
def push (h : Heap V) (B : Block V) : Heap V :=
  { h with blk := fun c => if c = h.next then some B else h.blk c, next := h.next + 1 }
/-- the heap after one more failed `new[]` -/
def skip (h : Heap V) : Heap V := { h with next := h.next + 1 }

theorem newVals_ok {h : Heap V} {sz : Nat} (hm : h.mem h.next sz = true) :
    newVals sz h = .ok (.at h.next 0) (h.push (.vals sz fun _ => none)) := by
  simp only [newVals, hm, if_true, push]
theorem newVals_fail {h : Heap V} {sz : Nat} (hm : h.mem h.next sz = false) :
    newVals sz h = .err .badAlloc h.skip := by
  simp only [newVals, hm, skip]; rfl
theorem newPtrs_ok {h : Heap V} {sz : Nat} (hm : h.mem h.next sz = true) :
    newPtrs sz h = .ok (.at h.next 0) (h.push (.ptrs sz fun _ => none)) := by
  simp only [newPtrs, hm, if_true, push]
theorem newPtrs_fail {h : Heap V} {sz : Nat} (hm : h.mem h.next sz = false) :
    newPtrs sz h = .err .badAlloc h.skip := by
  simp only [newPtrs, hm, skip]; rfl

@[simp] theorem push_blk_same (h : Heap V) (B : Block V) : (h.push B).blk h.next = some B := by simp [push]
theorem push_blk_ne (h : Heap V) (B : Block V) {c : Nat} (hc : c ≠ h.next) : (h.push B).blk c = h.blk c := by simp [push, hc]
@[simp] theorem push_next (h : Heap V) (B : Block V) : (h.push B).next = h.next + 1 := rfl
@[simp] theorem push_mem (h : Heap V) (B : Block V) : (h.push B).mem = h.mem := rfl
@[simp] theorem skip_next (h : Heap V) : (h.skip).next = h.next + 1 := rfl
@[simp] theorem skip_mem (h : Heap V) : (h.skip).mem = h.mem := rfl
@[simp] theorem skip_blk (h : Heap V) : (h.skip).blk = h.blk := rfl

end Heap

namespace St
variable {O α : Type}
theorem heap_ok {m : M (Heap V) α} {s : St V O} {a : α} {h' : Heap V} (e : m s.h = .ok a h') :
    St.heap m s = .ok a ⟨h', s.o⟩ := by simp only [St.heap, e]
theorem heap_err {m : M (Heap V) α} {s : St V O} {e : Err} {h' : Heap V} (e' : m s.h = .err e h') :
    St.heap m s = .err e ⟨h', s.o⟩ := by simp only [St.heap, e']
theorem obj_run (s : St V O) : St.obj s = .ok s.o s := rfl
theorem modObj_run (f : O → O) (s : St V O) : St.modObj f s = .ok () ⟨s.h, f s.o⟩ := rfl
end St

theorem tryAlloc_ok {σ α : Type} {m : M σ α} {s s' : σ} {a : α} (h : m s = .ok a s') : tryAlloc m s = .ok a s' := by
  unfold tryAlloc M.catchAs; rw [h]
theorem tryAlloc_bad {σ α : Type} {m : M σ α} {s s' : σ} (h : m s = .err .badAlloc s') :
    tryAlloc m s = .err .noMemory s' := by
  unfold tryAlloc M.catchAs; rw [h]; simp

/-- induction along a run over consecutive numbers -/
theorem runAll_nats {σ : Type} (body : Nat → M σ Unit) (I : Nat → σ → Prop) (b k : Nat)
    (step : ∀ m s, b ≤ m → m < b + k → I m s → ∃ s', body m s = .ok () s' ∧ I (m + 1) s') (s : σ) (h : I b s) :
    ∃ s', Spec.runAll body (nats b k) s = .ok () s' ∧ I (b + k) s' := by
  induction k generalizing b s with
  | zero => exact ⟨s, rfl, h⟩
  | succ k ih =>
    obtain ⟨s1, h1, h2⟩ := step b s (Nat.le_refl _) (by omega) h
    obtain ⟨s2, h3, h4⟩ := ih (b + 1) (fun m s hm hm' => step m s (by omega) (by omega)) s1 h2
    refine ⟨s2, ?_, by rw [show b + (k + 1) = b + 1 + k by omega]; exact h4⟩
    simp only [nats, runAll_cons]
    rw [M.bind_ok h1, h3]

theorem forU_nats {σ : Type} (N : Nat) (hN : N < 4294967296) (body : Nat → M σ Unit) (I : Nat → σ → Prop)
    (step : ∀ m s, m < N → I m s → ∃ s', body m s = .ok () s' ∧ I (m + 1) s') (s : σ) (h : I 0 s) :
    ∃ s', forU 0 N body s = .ok () s' ∧ I N s' := by
  rw [forU_eq _ _ (Nat.zero_le _) hN]
  obtain ⟨s', h1, h2⟩ := runAll_nats body I 0 N (fun m s _ hm => step m s (by omega)) s h
  rw [Nat.zero_add] at h2
  exact ⟨s', h1, h2⟩

/-- the exact variant: the state after `m` rounds is `F m` -/
theorem forU_exact {σ : Type} (N : Nat) (hN : N < 4294967296) (body : Nat → M σ Unit) (F : Nat → σ)
    (step : ∀ m, m < N → body m (F m) = .ok () (F (m + 1))) : forU 0 N body (F 0) = .ok () (F N) := by
  obtain ⟨s', h1, h2⟩ := forU_nats N hN body (fun m s => s = F m)
    (fun m s hm hs => ⟨_, by rw [hs]; exact step m hm, rfl⟩) (F 0) rfl
  rw [h1, h2]

end Verif
