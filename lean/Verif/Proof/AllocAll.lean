import Verif.Proof.LifecycleAll
import Verif.Proof.CopyFrame
/-!
# `alloc` with arguments that are not in machine range
-/
namespace Verif
open Spec
variable {V : Type}

/-- if the statement returns, `I` still holds; if it throws, memory has run out -/
structure Stay {σ α : Type} (I : σ → Prop) (m : M σ α) : Prop where
  ok : ∀ s a s', I s → m s = .ok a s' → I s'
  err : ∀ s e s', I s → m s = .err e s' → e = .badAlloc

section
variable {σ α β : Type} {I : σ → Prop}

theorem Stay.bind {m : M σ α} {f : α → M σ β} (h : Stay I m) (h' : ∀ a, Stay I (f a)) : Stay I (m >>= f) := by
  constructor
  · intro s a s' hs e
    rw [M.bind_run] at e
    cases hm : m s with
    | ok b t => rw [hm] at e; exact (h' b).ok _ _ _ (h.ok _ _ _ hs hm) e
    | err x t => rw [hm] at e; cases e
    | ub u => rw [hm] at e; cases e
  · intro s x s' hs e
    rw [M.bind_run] at e
    cases hm : m s with
    | ok b t => rw [hm] at e; exact (h' b).err _ _ _ (h.ok _ _ _ hs hm) e
    | err y t => rw [hm] at e; cases e; exact h.err _ _ _ hs hm
    | ub u => rw [hm] at e; cases e

theorem Stay.pure (a : α) : Stay I (pure a : M σ α) := ⟨fun _ _ _ hs e => (by cases e; exact hs), fun _ _ _ _ e => (by cases e)⟩
theorem Stay.undef (u : UB) : Stay I (M.undef u : M σ α) := ⟨fun _ _ _ _ e => (nomatch e), fun _ _ _ _ e => (nomatch e)⟩

/-- a computation that cannot throw -/
theorem Stay.lift {x : Out α} (h : ∀ e, x ≠ .err e) : Stay I (liftM x : M σ α) := by
  cases x with
  | ok a => exact Stay.pure a
  | err e => exact absurd rfl (h e)
  | ub u => exact Stay.undef u

theorem Stay.ite {c : Prop} [Decidable c] {m m' : M σ α} (h : Stay I m) (h' : Stay I m') : Stay I (if c then m else m') := by
  split <;> assumption

theorem Stay.loopU {body : Nat → M σ Unit} (h : ∀ i, Stay I (body i)) (k : Nat) (i : Nat) : Stay I (loopU body k i) := by
  induction k generalizing i with
  | zero => exact Stay.pure ()
  | succ k ih => exact (h i).bind fun _ => ih _

theorem Stay.forU {body : Nat → M σ Unit} (h : ∀ i, Stay I (body i)) (b e : Nat) : Stay I (forU b e body) := .loopU h _ _
end

/-- the data member points to the beginning of a block of numbers; how many fits `unsigned` -/
def Held {O : Type} (dat : O → Ptr) (s : St V O) : Prop :=
  ∃ B len cell, dat s.o = .at B 0 ∧ s.h.blk B = some (.vals len cell) ∧ len < 4294967296 ∧ B < s.h.next

section
variable {O α : Type} {dat : O → Ptr}

theorem Stay.obj : Stay (Held dat) (St.obj : M (St V O) O) :=
  ⟨fun _ _ _ hs e => (by cases e; exact hs), fun _ _ _ _ e => (by cases e)⟩

theorem Stay.modObj {f : O → O} (h : ∀ o, dat (f o) = dat o) : Stay (Held dat) (St.modObj f : M (St V O) Unit) := by
  refine ⟨fun s _ _ hs e => ?_, fun _ _ _ _ e => (by cases e)⟩
  cases e
  obtain ⟨B, len, cell, h1, h2, h3, h4⟩ := hs
  exact ⟨B, len, cell, by rw [← h1]; exact h _, h2, h3, h4⟩

/-- a statement that only reads the free store -/
theorem Stay.reads {m : M (Heap V) α} (h : Reads m) (h' : ∀ s e s', m s ≠ .err e s') : Stay (Held dat) (St.heap m : M (St V O) α) := by
  constructor
  · intro s a s' hs e
    unfold St.heap at e
    split at e
    · rename_i a' h1 hm
      cases e
      rw [(h _).1 _ _ hm]; exact hs
    · cases e
    · cases e
  · intro s a s' hs e
    unfold St.heap at e
    split at e
    · cases e
    · rename_i hm; exact absurd hm (h' _ _ _)
    · cases e

theorem padd_noErr (p : Ptr) (k : Int) (s : Heap V) (e : Err) (s' : Heap V) : Heap.padd p k s ≠ .err e s' := by
  intro h; unfold Heap.padd at h
  repeat' split at h
  all_goals cases h

theorem lval_noErr (p : Ptr) (s : Heap V) (e : Err) (s' : Heap V) : Heap.lval p s ≠ .err e s' := by
  intro h; unfold Heap.lval at h
  repeat' split at h
  all_goals cases h

theorem loadP_noErr (p : Ptr) (s : Heap V) (e : Err) (s' : Heap V) : Heap.loadP p s ≠ .err e s' := by
  intro h; unfold Heap.loadP at h
  repeat' split at h
  all_goals cases h

theorem idx_noErr (p : Ptr) (k : Int) (s : Heap V) (e : Err) (s' : Heap V) : Heap.idx p k s ≠ .err e s' := by
  intro h
  unfold Heap.idx at h
  rw [M.bind_run] at h
  split at h
  · exact lval_noErr _ _ _ _ h
  · rename_i hm; exact padd_noErr _ _ _ _ _ hm
  · cases h

theorem Stay.padd (p : Ptr) (k : Int) : Stay (Held dat) (St.heap (Heap.padd p k) : M (St V O) Ptr) :=
  .reads (Heap.padd_reads p k) (padd_noErr p k)

theorem Stay.idx (p : Ptr) (k : Int) : Stay (Held dat) (St.heap (Heap.idx p k) : M (St V O) Ptr) :=
  .reads ((Heap.padd_reads p k).bind fun q => Heap.lval_reads q) (idx_noErr p k)

theorem Stay.loadP (p : Ptr) : Stay (Held dat) (St.heap (Heap.loadP p) : M (St V O) Ptr) := by
  refine .reads ?_ (loadP_noErr p)
  intro h
  unfold Heap.loadP
  constructor
  · intro a s' e
    repeat' split at e
    all_goals cases e
    all_goals rfl
  · intro a s' e
    repeat' split at e
    all_goals cases e

theorem Stay.storeP (p q : Ptr) : Stay (Held dat) (St.heap (Heap.storeP p q) : M (St V O) Unit) := by
  constructor
  · intro s a s' hs e
    unfold St.heap at e
    split at e
    · rename_i a' h1 hm
      cases e
      obtain ⟨B, len, cell, g1, g2, g3, g4⟩ := hs
      unfold Heap.storeP at hm
      repeat' split at hm
      all_goals cases hm
      rename_i b o _ l c hb _
      refine ⟨B, len, cell, g1, ?_, g3, g4⟩
      show (if B = b then _ else s.h.blk B) = _
      rw [if_neg]
      · exact g2
      · rintro rfl; rw [g2] at hb; cases hb
    · cases e
    · cases e
  · intro s x s' hs e
    unfold St.heap at e
    split at e
    · cases e
    · rename_i hm
      unfold Heap.storeP at hm
      repeat' split at hm
      all_goals cases hm
    · cases e

theorem Stay.newPtrs (sz : Nat) : Stay (Held dat) (St.heap (Heap.newPtrs sz) : M (St V O) Ptr) := by
  constructor
  · intro s a s' hs e
    unfold St.heap at e
    split at e
    · rename_i a' h1 hm
      cases e
      obtain ⟨B, len, cell, g1, g2, g3, g4⟩ := hs
      unfold Heap.newPtrs at hm
      split at hm
      · cases hm
        refine ⟨B, len, cell, g1, ?_, g3, Nat.lt_succ_of_lt g4⟩
        show (if B = s.h.next then _ else s.h.blk B) = _
        rw [if_neg (by omega)]; exact g2
      · cases hm
    · cases e
    · cases e
  · intro s x s' hs e
    unfold St.heap at e
    split at e
    · cases e
    · rename_i hm
      cases e
      unfold Heap.newPtrs at hm
      split at hm
      · cases hm
      · cases hm; rfl
    · cases e

/-- after a first request for numbers -/
theorem stay_newVals {sz : Nat} (hsz : sz < 4294967296) {f : Ptr → O → O} (hf : ∀ p o, dat (f p o) = p) {rest : M (St V O) Unit}
    (h : Stay (Held dat) rest) (s : St V O) :
    (∀ s', (do let d ← St.heap (Heap.newVals sz); St.modObj (f d); rest : M (St V O) Unit) s = .ok () s' → Held dat s') ∧
    ∀ e s', (do let d ← St.heap (Heap.newVals sz); St.modObj (f d); rest : M (St V O) Unit) s = .err e s' → e = .badAlloc := by
  cases hm : s.h.mem s.h.next sz with
  | true =>
    rw [M.bind_ok (St.heap_ok (s := s) (Heap.newVals_ok hm))]
    have hh : Held dat (⟨s.h.push (.vals sz fun _ => none), f (.at s.h.next 0) s.o⟩ : St V O) :=
      ⟨s.h.next, sz, fun _ => none, hf _ _, by simp, hsz, by simp⟩
    exact ⟨fun s' e => h.ok _ _ _ hh e, fun e s' he => h.err _ _ _ hh he⟩
  | false =>
    rw [M.bind_err (St.heap_err (s := s) (Heap.newVals_fail hm))]
    exact ⟨fun s' e => (nomatch e), fun e s' he => by cases he; rfl⟩
end

/-! ## the three classes -/

theorem u32_lt_max (x : Nat) : u32 x < 4294967296 := Nat.mod_lt _ (by decide)

theorem D1.allocMem_all (chk : Bool) (N : Nat) (s : D1.SizeT) (w0 : Nat) (t : St V D1.PD) :
    (∀ t', D1.PD.allocMem chk N s w0 t = .ok () t' → Held D1.PD.data t') ∧
    ∀ e t', D1.PD.allocMem chk N s w0 t = .err e t' → e = .badAlloc := by
  unfold D1.PD.allocMem
  refine stay_newVals (dat := D1.PD.data) (f := fun d o => { o with data := d }) (u32_lt_max _) (fun _ _ => rfl) ?_ t
  refine (Stay.modObj (by intro _; rfl)).bind fun _ => .forU (fun m => ?_) _ _
  unfold D1.PD.allocComp
  refine Stay.obj.bind fun o => (Stay.padd _ _).bind fun q => (Stay.lift ?_).bind fun n0 => (Stay.padd _ _).bind fun q => ?_
  · unfold D1.SizeT.n; rw [check_d_1_0]; exact fun e h => nomatch h
  · unfold D1.PD.setPt0; exact .ite (.modObj (by intro _; rfl)) (.undef _)

section
variable {I : St V D2.PD → Prop}
theorem D2.stay_pt0 (N : Nat) (o : D2.PD) (n : Nat) : Stay I (D2.PD.pt0At N o n : M (St V D2.PD) Ptr) := by
  unfold D2.PD.pt0At; exact .ite (.pure _) (.undef _)

theorem D2.stay_set (N n : Nat) (q : Ptr) : Stay (Held D2.PD.data) (D2.PD.setPt0 N n q : M (St V D2.PD) Unit) := by
  unfold D2.PD.setPt0; exact .ite (.modObj (by intro _; rfl)) (.undef _)

theorem D2.allocMem_all (chk : Bool) (N : Nat) (s : D2.SizeT) (w0 w1 : Nat) (t : St V D2.PD) :
    (∀ t', D2.PD.allocMem chk N s w0 w1 t = .ok () t' → Held D2.PD.data t') ∧
    ∀ e t', D2.PD.allocMem chk N s w0 w1 t = .err e t' → e = .badAlloc := by
  unfold D2.PD.allocMem
  refine stay_newVals (dat := D2.PD.data) (f := fun d o => { o with data := d }) (u32_lt_max _) (fun _ _ => rfl) ?_ t
  have n0 : ∀ e, s.n chk 0 ≠ .err e := by unfold D2.SizeT.n; rw [check_d_2_0]; exact fun e h => nomatch h
  have n1 : ∀ e, s.n chk 1 ≠ .err e := by unfold D2.SizeT.n; rw [check_d_2_1]; exact fun e h => nomatch h
  refine (Stay.modObj (by intro _; rfl)).bind fun _ => (Stay.newPtrs _).bind fun q => (Stay.modObj (by intro _; rfl)).bind fun _ =>
    .forU (fun m => ?_) _ _
  unfold D2.PD.allocComp
  refine Stay.obj.bind fun o => (Stay.padd _ _).bind fun q => (D2.stay_set _ _ _).bind fun _ => (Stay.forU (fun ii => ?_) _ _).bind fun _ =>
    Stay.obj.bind fun o => (D2.stay_pt0 _ _ _).bind fun p0 => (Stay.lift n0).bind fun _ => (Stay.padd _ _).bind fun q => D2.stay_set _ _ _
  unfold D2.PD.allocRow
  exact Stay.obj.bind fun o => (D2.stay_pt0 _ _ _).bind fun p0 => (Stay.idx _ _).bind fun c => (Stay.padd _ _).bind fun q =>
    (Stay.padd _ _).bind fun q => (Stay.storeP _ _).bind fun _ => (Stay.idx _ _).bind fun c => (Stay.loadP _).bind fun q =>
    (Stay.lift n1).bind fun _ => (Stay.padd _ _).bind fun q => Stay.storeP _ _
end

section
variable {I : St V D3.PD → Prop}
theorem D3.stay_pt0 (N : Nat) (o : D3.PD) (n : Nat) : Stay I (D3.PD.pt0At N o n : M (St V D3.PD) Ptr) := by
  unfold D3.PD.pt0At; exact .ite (.pure _) (.undef _)

theorem D3.stay_set (N n : Nat) (q : Ptr) : Stay (Held D3.PD.data) (D3.PD.setPt0 N n q : M (St V D3.PD) Unit) := by
  unfold D3.PD.setPt0; exact .ite (.modObj (by intro _; rfl)) (.undef _)

theorem D3.allocMem_all (chk : Bool) (N : Nat) (s : D3.SizeT) (w0 w1 w2 : Nat) (t : St V D3.PD) :
    (∀ t', D3.PD.allocMem chk N s w0 w1 w2 t = .ok () t' → Held D3.PD.data t') ∧
    ∀ e t', D3.PD.allocMem chk N s w0 w1 w2 t = .err e t' → e = .badAlloc := by
  unfold D3.PD.allocMem
  refine stay_newVals (dat := D3.PD.data) (f := fun d o => { o with data := d }) (u32_lt_max _) (fun _ _ => rfl) ?_ t
  have n0 : ∀ e, s.n chk 0 ≠ .err e := by unfold D3.SizeT.n; rw [check_d_3_0]; exact fun e h => nomatch h
  have n1 : ∀ e, s.n chk 1 ≠ .err e := by unfold D3.SizeT.n; rw [check_d_3_1]; exact fun e h => nomatch h
  have n2 : ∀ e, s.n chk 2 ≠ .err e := by unfold D3.SizeT.n; rw [check_d_3_2]; exact fun e h => nomatch h
  refine (Stay.modObj (by intro _; rfl)).bind fun _ => (Stay.newPtrs _).bind fun q => (Stay.modObj (by intro _; rfl)).bind fun _ =>
    (Stay.newPtrs _).bind fun q => (Stay.modObj (by intro _; rfl)).bind fun _ => .forU (fun m => ?_) _ _
  unfold D3.PD.allocComp
  refine Stay.obj.bind fun o => (Stay.padd _ _).bind fun q => (D3.stay_set _ _ _).bind fun _ => (Stay.forU (fun ii => ?_) _ _).bind fun _ =>
    Stay.obj.bind fun o => (D3.stay_pt0 _ _ _).bind fun p0 => (Stay.lift n0).bind fun _ => (Stay.padd _ _).bind fun q => D3.stay_set _ _ _
  unfold D3.PD.allocRow
  refine Stay.obj.bind fun o => (D3.stay_pt0 _ _ _).bind fun p0 => (Stay.idx _ _).bind fun c => (Stay.padd _ _).bind fun q =>
    (Stay.padd _ _).bind fun q => (Stay.storeP _ _).bind fun _ => (Stay.forU (fun jj => ?_) _ _).bind fun _ =>
    (Stay.idx _ _).bind fun c => (Stay.loadP _).bind fun q =>
    (Stay.lift n1).bind fun _ => (Stay.padd _ _).bind fun q => Stay.storeP _ _
  unfold D3.PD.allocCell
  exact Stay.obj.bind fun o => (D3.stay_pt0 _ _ _).bind fun p0 => (Stay.idx _ _).bind fun c => (Stay.loadP _).bind fun row =>
    (Stay.idx _ _).bind fun c => (Stay.padd _ _).bind fun q => (Stay.padd _ _).bind fun q => (Stay.padd _ _).bind fun q =>
    (Stay.storeP _ _).bind fun _ => (Stay.idx _ _).bind fun c => (Stay.loadP _).bind fun row => (Stay.idx _ _).bind fun c =>
    (Stay.loadP _).bind fun q => (Stay.lift n2).bind fun _ => (Stay.padd _ _).bind fun q => Stay.storeP _ _
end

end Verif
