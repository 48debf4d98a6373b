import Verif.Spec.ReadPlt
import Verif.Proof.CopyFrame
import Verif.Proof.TecW2
/-!
# `read_plt`: what it does when it fails
-/
set_option linter.unusedSimpArgs false
namespace Verif
open Spec Tec
variable {V : Type}

/-- the statement does not throw and leaves the buffers alone -/
def Tame {α : Type} (m : M (RSt V) α) : Prop :=
  ∀ s, (∀ a s', m s = .ok a s' → s'.b = s.b) ∧ ∀ e s', m s ≠ .err e s'

section
variable {α β : Type}

theorem Tame.pure (a : α) : Tame (pure a : M (RSt V) α) := fun _ => ⟨fun _ _ h => by cases h; rfl, fun _ _ h => nomatch h⟩
theorem Tame.undef (u : UB) : Tame (M.undef u : M (RSt V) α) := fun _ => ⟨fun _ _ h => (nomatch h), fun _ _ h => nomatch h⟩

theorem Tame.bind {m : M (RSt V) α} {f : α → M (RSt V) β} (h : Tame m) (h' : ∀ a, Tame (f a)) : Tame (m >>= f) := by
  intro s
  obtain ⟨h1, h2⟩ := h s
  rw [M.bind_run]
  cases hm : m s with
  | ok a t =>
    have := h1 a t hm
    obtain ⟨k1, k2⟩ := h' a t
    exact ⟨fun b s' e => (k1 b s' e).trans this, k2⟩
  | err e t => exact (h2 e t hm).elim
  | ub u => exact ⟨fun _ _ h => (nomatch h), fun _ _ h => nomatch h⟩

theorem Tame.ite {c : Prop} [Decidable c] {m m' : M (RSt V) α} (h : Tame m) (h' : Tame m') : Tame (if c then m else m') := by
  split <;> assumption

theorem Tame.loopU {body : Nat → M (RSt V) Unit} (h : ∀ i, Tame (body i)) (k i : Nat) : Tame (loopU body k i) := by
  induction k generalizing i with
  | zero => exact .pure ()
  | succ k ih => exact (h i).bind fun _ => ih _

theorem Tame.forU {body : Nat → M (RSt V) Unit} (h : ∀ i, Tame (body i)) (b e : Nat) : Tame (forU b e body) := .loopU h _ _
end

/-- the statement does not throw -/
def NoErr {σ α : Type} (m : M σ α) : Prop := ∀ s e s', m s ≠ .err e s'

section
variable {σ α β : Type}
theorem NoErr.pure (a : α) : NoErr (pure a : M σ α) := fun _ _ _ h => nomatch h
theorem NoErr.undef (u : UB) : NoErr (M.undef u : M σ α) := fun _ _ _ h => nomatch h
theorem NoErr.bind {m : M σ α} {f : α → M σ β} (h : NoErr m) (h' : ∀ a, NoErr (f a)) : NoErr (m >>= f) := by
  intro s e s'
  rw [M.bind_run]
  cases hm : m s with
  | ok a t => exact h' a t e s'
  | err e t => exact (h s e t hm).elim
  | ub u => exact fun h => nomatch h
theorem NoErr.ite {c : Prop} [Decidable c] {m m' : M σ α} (h : NoErr m) (h' : NoErr m') : NoErr (if c then m else m') := by
  split <;> assumption
end

theorem Heap.padd_noErr (p : Ptr) (k : Int) : NoErr (Heap.padd p k : M (Heap V) Ptr) := by
  intro s e s' h
  unfold Heap.padd at h
  repeat' split at h
  all_goals cases h
theorem Heap.lval_noErr (p : Ptr) : NoErr (Heap.lval p : M (Heap V) Ptr) := by
  intro s e s' h
  unfold Heap.lval at h
  repeat' split at h
  all_goals cases h
theorem Heap.loadV_noErr (p : Ptr) : NoErr (Heap.loadV p : M (Heap V) (Option V)) := by
  intro s e s' h
  unfold Heap.loadV at h
  repeat' split at h
  all_goals cases h
theorem Heap.loadP_noErr (p : Ptr) : NoErr (Heap.loadP p : M (Heap V) Ptr) := by
  intro s e s' h
  unfold Heap.loadP at h
  repeat' split at h
  all_goals cases h
theorem Heap.storeV_noErr (p : Ptr) (v : Option V) : NoErr (Heap.storeV p v : M (Heap V) Unit) := by
  intro s e s' h
  unfold Heap.storeV at h
  repeat' split at h
  all_goals cases h
theorem Heap.idx_noErr (p : Ptr) (k : Int) : NoErr (Heap.idx p k : M (Heap V) Ptr) :=
  (Heap.padd_noErr p k).bind fun _ => Heap.lval_noErr _

theorem loadBytes_noErr (k : Nat) (p : Ptr) : NoErr (loadBytes k p) := by
  induction k generalizing p with
  | zero => exact .pure _
  | succ k ih =>
    unfold loadBytes
    refine (Heap.lval_noErr _).bind fun _ => (Heap.loadV_noErr _).bind fun x => ?_
    cases x with
    | none => exact .undef _
    | some c => exact (Heap.padd_noErr _ _).bind fun _ => (ih _).bind fun _ => .pure _

theorem loadElem_noErr (t : TecType) (p : Ptr) (i : Nat) : NoErr (loadElem t p i) :=
  (Heap.padd_noErr _ _).bind fun _ => (loadBytes_noErr _ _).bind fun _ => .pure _

theorem RSt.arr_tame {α : Type} {m : M (Heap V) α} (h : NoErr m) : Tame (RSt.arr m) := by
  intro s
  unfold RSt.arr
  cases hm : m s.h with
  | ok a t => exact ⟨fun a s' e => by cases e; rfl, fun _ _ h => nomatch h⟩
  | err e t => exact (h s.h e t hm).elim
  | ub u => exact ⟨fun _ _ h => (nomatch h), fun _ _ h => nomatch h⟩

theorem RSt.bytes_tame {α : Type} {m : M (Heap Byte) α} (h : NoErr m) (h' : Reads m) : Tame (RSt.bytes m : M (RSt V) α) := by
  intro s
  unfold RSt.bytes
  cases hm : m s.b with
  | ok a t => exact ⟨fun a s' e => by cases e; exact (h' s.b).1 _ _ hm, fun _ _ h => nomatch h⟩
  | err e t => exact (h s.b e t hm).elim
  | ub u => exact ⟨fun _ _ h => (nomatch h), fun _ _ h => nomatch h⟩

theorem Num.use_tame (x : Option V) : Tame (liftM (Num.use x) : M (RSt V) V) := by
  cases x with
  | none => intro s; exact ⟨fun _ _ h => (nomatch h), fun _ _ h => nomatch h⟩
  | some v => exact fun s => ⟨fun _ _ h => by cases h; rfl, fun _ _ h => nomatch h⟩

theorem tempVal_tame (C : Num V) (dbl : Bool) (buf : Ptr) (i : Nat) : Tame (tempVal C dbl buf i) := by
  unfold tempVal
  refine .ite ?_ ?_
  · exact (RSt.bytes_tame (loadElem_noErr _ _ _) (loadElem_reads _ _ _)).bind fun _ => Num.use_tame _
  · exact (RSt.bytes_tame (loadElem_noErr _ _ _) (loadElem_reads _ _ _)).bind fun _ => Num.use_tame _

theorem D1.PD.readPt_tame (N : Nat) (C : Num V) (nn : Nat) (o : D1.PD) (buf : Ptr) (dbl : Bool) (ii : Nat) :
    Tame (readPt N C nn o buf dbl ii) := by
  refine (tempVal_tame _ _ _ _).bind fun v => (RSt.arr_tame ?_).bind fun p => RSt.arr_tame (Heap.storeV_noErr _ _)
  exact (NoErr.ite (.pure _) (.undef _)).bind fun _ => Heap.idx_noErr _ _

theorem D2.PD.readPt_tame (N : Nat) (C : Num V) (nn : Nat) (o : D2.PD) (buf : Ptr) (dbl : Bool) (N1 ii jj : Nat) :
    Tame (readPt N C nn o buf dbl N1 ii jj) := by
  refine (tempVal_tame _ _ _ _).bind fun v => (RSt.arr_tame ?_).bind fun p => RSt.arr_tame (Heap.storeV_noErr _ _)
  exact (NoErr.ite (.pure _) (.undef _)).bind fun _ => (Heap.idx_noErr _ _).bind fun _ => (Heap.loadP_noErr _).bind fun _ =>
    Heap.idx_noErr _ _

theorem D3.PD.readPt_tame (N : Nat) (C : Num V) (nn : Nat) (o : D3.PD) (buf : Ptr) (dbl : Bool) (N1 N2 ii jj kk : Nat) :
    Tame (readPt N C nn o buf dbl N1 N2 ii jj kk) := by
  refine (tempVal_tame _ _ _ _).bind fun v => (RSt.arr_tame ?_).bind fun p => RSt.arr_tame (Heap.storeV_noErr _ _)
  exact (NoErr.ite (.pure _) (.undef _)).bind fun _ => (Heap.idx_noErr _ _).bind fun _ => (Heap.loadP_noErr _).bind fun _ =>
    (Heap.idx_noErr _ _).bind fun _ => (Heap.loadP_noErr _).bind fun _ => Heap.idx_noErr _ _

/-- a heap that differs in the number of past allocations only, which has not become smaller -/
def SameBlocks (h h' : Heap Byte) : Prop := h'.blk = h.blk ∧ h'.mem = h.mem ∧ h.next ≤ h'.next

/-- the heap while the buffer exists -/
def bufHeap (b : Heap Byte) (n : Nat) (rest : Str) : Heap Byte :=
  { b with blk := fun c => if c = b.next then some (.vals n fun k => rest[k]?) else b.blk c, next := b.next + 1 }

theorem Heap.del_fresh {b : Heap Byte} (fr : Fresh b) (x : Block Byte) :
    (Heap.upd { b with blk := fun c => if c = b.next then some x else b.blk c, next := b.next + 1 } b.next none).blk = b.blk := by
  funext c
  unfold Heap.upd
  simp only
  split
  · rename_i h; rw [h, fr _ (Nat.le_refl _)]
  · rfl

/-- the buffer: created and filled, or an exception with nothing left behind -/
theorem readBuf_run (A : ReadArgs) (d : DataLog) (cnt : Nat) (rest : Str) {b : Heap Byte} (fr : Fresh b) :
    (u64 (cnt * d.size) < 9223372036854775808 ∧ b.mem b.next (u64 (cnt * d.size)) = true ∧ u64 (cnt * d.size) ≤ rest.length ∧
      A.readBuf d cnt rest b = .ok (.at b.next 0) (bufHeap b (u64 (cnt * d.size)) (rest.take (u64 (cnt * d.size))))) ∨
    (∃ b', SameBlocks b b' ∧
      ((¬ (u64 (cnt * d.size) < 9223372036854775808 ∧ b.mem b.next (u64 (cnt * d.size)) = true) ∧
        A.readBuf d cnt rest b = .err .noMemory b') ∨
      ((u64 (cnt * d.size) < 9223372036854775808 ∧ b.mem b.next (u64 (cnt * d.size)) = true) ∧ rest.length < u64 (cnt * d.size) ∧
        A.readBuf d cnt rest b = .err (.text (lit "error when reading file " ++ A.path)) b'))) := by
  unfold ReadArgs.readBuf
  generalize u64 (cnt * d.size) = n
  by_cases hn : n < 9223372036854775808
  · by_cases hm : b.mem b.next n = true
    · have h1 : tryAlloc (ReadArgs.newChars n) b = .ok (.at b.next 0) { b with
          blk := fun c => if c = b.next then some (.vals n (fun _ => none)) else b.blk c, next := b.next + 1 } := by
        simp [tryAlloc, M.catchAs, ReadArgs.newChars, hn, Heap.newVals, hm]
      rw [M.bind_ok h1]
      by_cases hr : n ≤ rest.length
      · left
        refine ⟨hn, hm, hr, ?_⟩
        have h2 : ReadArgs.readInto (.at b.next 0) n rest { b with
            blk := fun c => if c = b.next then some (.vals n (fun _ => none)) else b.blk c, next := b.next + 1 } =
            .ok true (bufHeap b n (rest.take n)) := by
          unfold ReadArgs.readInto
          simp only [if_true, Nat.zero_add, Nat.le_refl, hr, decide_true, Res.ok.injEq, true_and, bufHeap, Heap.upd, Heap.mk.injEq,
            and_true, if_true]
          funext c
          split
          · congr 2
            funext k
            rw [List.getElem?_take]
            by_cases hk : k < n
            · simp [hk, Nat.lt_of_lt_of_le hk hr]
            · simp [hk]
          · rfl
        rw [M.bind_ok h2]
        rfl
      · right
        refine ⟨{ b with next := b.next + 1 }, ⟨rfl, rfl, Nat.le_succ _⟩, .inr ⟨⟨hn, hm⟩, by omega, ?_⟩⟩
        rw [M.bind_run]
        unfold ReadArgs.readInto
        simp only [if_true, Nat.zero_add, Nat.le_refl, hr, decide_false]
        rw [if_neg (by simp), M.bind_run]
        simp only [Heap.delArr, Heap.upd, if_true, Option.isSome_some, true_and, M.throw, Res.err.injEq, Heap.mk.injEq, and_true]
        funext c
        split
        · rename_i h; rw [h, fr _ (Nat.le_refl _)]
        · rfl
    · right
      exact ⟨{ b with next := b.next + 1 }, ⟨rfl, rfl, Nat.le_succ _⟩, .inl ⟨fun h => hm h.2, by
        rw [M.bind_run]; simp [tryAlloc, M.catchAs, ReadArgs.newChars, hn, Heap.newVals, hm]⟩⟩
  · right
    exact ⟨b, ⟨rfl, rfl, Nat.le_refl _⟩, .inl ⟨fun h => hn h.1, by
      rw [M.bind_run]; simp [tryAlloc, M.catchAs, ReadArgs.newChars, hn]⟩⟩

theorem bufHeap_del {b : Heap Byte} (fr : Fresh b) (n : Nat) (rest : Str) :
    ∃ b', Heap.delArr (.at b.next 0) (bufHeap b n rest) = .ok () b' ∧ SameBlocks b b' := by
  refine ⟨_, ?_, Heap.del_fresh fr (.vals n fun k => rest[k]?), rfl, Nat.le_succ _⟩
  unfold Heap.delArr
  simp only
  rw [if_pos ⟨trivial, by simp [bufHeap]⟩]
  rfl

/-- whatever happens, nothing is left behind, and only a return leaves changes -/
theorem load_frame {A : ReadArgs} {z : ZoneLog} {cnt : Nat} {loop : Ptr → Bool → M (RSt V) Unit} (hl : ∀ p d, Tame (loop p d))
    {s : RSt V} (fr : Fresh s.b) :
    (∀ a s', A.load z cnt loop s = .ok a s' → SameBlocks s.b s'.b) ∧
    (∀ e s', A.load z cnt loop s = .err e s' → SameBlocks s.b s'.b ∧ s'.h = s.h) := by
  have E : ∀ (e : Err), (∀ a s', (Res.err e s : Res (RSt V) Unit) = .ok a s' → SameBlocks s.b s'.b) ∧
      (∀ e' s', (Res.err e s : Res (RSt V) Unit) = .err e' s' → SameBlocks s.b s'.b ∧ s'.h = s.h) :=
    fun e => ⟨fun _ _ h => (nomatch h), fun _ _ h => by cases h; exact ⟨⟨rfl, rfl, Nat.le_refl _⟩, rfl⟩⟩
  have U : ∀ (u : UB), (∀ a s', (Res.ub u : Res (RSt V) Unit) = .ok a s' → SameBlocks s.b s'.b) ∧
      (∀ e' s', (Res.ub u : Res (RSt V) Unit) = .err e' s' → SameBlocks s.b s'.b ∧ s'.h = s.h) :=
    fun e => ⟨fun _ _ h => (nomatch h), fun _ _ h => nomatch h⟩
  unfold ReadArgs.load
  simp only [M.monadLift_eq, M.liftM_eq]
  cases A.findVar with
  | err e => exact E e
  | ub u => exact U u
  | ok vv =>
    simp only [M.lift_ok, pure_bind]
    cases ReadArgs.dataLog z vv with
    | err e => exact E e
    | ub u => exact U u
    | ok d =>
      simp only [M.lift_ok, pure_bind]
      cases A.openAt d with
      | err e => exact E e
      | ub u => exact U u
      | ok rest =>
        simp only [M.lift_ok, pure_bind]
        rcases readBuf_run A d cnt rest fr with ⟨-, -, -, h⟩ | ⟨b', hs, ⟨-, h⟩ | ⟨-, -, h⟩⟩
        · have h' : RSt.bytes (A.readBuf d cnt rest) s = .ok (.at s.b.next 0)
              { s with b := bufHeap s.b (u64 (cnt * d.size)) (rest.take (u64 (cnt * d.size))) } := by
            unfold RSt.bytes; rw [h]
          rw [M.bind_ok h']
          obtain ⟨b', d1, d2⟩ := bufHeap_del fr (u64 (cnt * d.size)) (rest.take (u64 (cnt * d.size)))
          have L : ∀ x, (∀ a s', ((loop (.at s.b.next 0) x) >>= fun _ => RSt.bytes (Heap.delArr (.at s.b.next 0)))
              { s with b := bufHeap s.b (u64 (cnt * d.size)) (rest.take (u64 (cnt * d.size))) } = .ok a s' → SameBlocks s.b s'.b) ∧
              (∀ e s', ((loop (.at s.b.next 0) x) >>= fun _ => RSt.bytes (Heap.delArr (.at s.b.next 0)))
              { s with b := bufHeap s.b (u64 (cnt * d.size)) (rest.take (u64 (cnt * d.size))) } = .err e s' →
                SameBlocks s.b s'.b ∧ s'.h = s.h) := by
            intro x
            obtain ⟨t1, t2⟩ := hl (.at s.b.next 0) x
              { s with b := bufHeap s.b (u64 (cnt * d.size)) (rest.take (u64 (cnt * d.size))) }
            rw [M.bind_run]
            cases hx : loop (.at s.b.next 0) x { s with b := bufHeap s.b (u64 (cnt * d.size)) (rest.take (u64 (cnt * d.size))) } with
            | err e t => exact (t2 e t hx).elim
            | ub u => exact U u
            | ok a t =>
              have := t1 a t hx
              simp only at this ⊢
              unfold RSt.bytes
              rw [this, d1]
              exact ⟨fun _ _ h => by cases h; exact d2, fun _ _ h => nomatch h⟩
          unfold byType
          split
          · exact L false
          · split
            · exact L true
            · rw [M.bind_run]
              unfold RSt.bytes
              simp only [d1]
              exact ⟨fun _ _ h => (nomatch h), fun _ _ h => by cases h; exact ⟨d2, rfl⟩⟩
        · have h' : RSt.bytes (A.readBuf d cnt rest) s = .err .noMemory { s with b := b' } := by
            unfold RSt.bytes; rw [h]
          rw [M.bind_err h']
          exact ⟨fun _ _ h => (nomatch h), fun _ _ h => by cases h; exact ⟨hs, rfl⟩⟩
        · have h' : RSt.bytes (A.readBuf d cnt rest) s = .err (.text (lit "error when reading file " ++ A.path)) { s with b := b' } := by
            unfold RSt.bytes; rw [h]
          rw [M.bind_err h']
          exact ⟨fun _ _ h => (nomatch h), fun _ _ h => by cases h; exact ⟨hs, rfl⟩⟩

/-- a statement that leaves no buffer behind, and leaves the arrays alone if it throws -/
def Clean {α : Type} (m : M (RSt V) α) : Prop := ∀ s, Fresh s.b →
  (∀ a s', m s = .ok a s' → SameBlocks s.b s'.b) ∧ (∀ e s', m s = .err e s' → SameBlocks s.b s'.b ∧ s'.h = s.h)

theorem Clean.lift_bind {α β : Type} (x : Out α) {f : α → M (RSt V) β} (h : ∀ a, Clean (f a)) :
    Clean ((liftM x : M (RSt V) α) >>= f) := by
  intro s fr
  cases x with
  | ok a => exact h a s fr
  | err e => exact ⟨fun _ _ h => (nomatch h), fun _ _ h => by cases h; exact ⟨⟨rfl, rfl, Nat.le_refl _⟩, rfl⟩⟩
  | ub u => exact ⟨fun _ _ h => (nomatch h), fun _ _ h => nomatch h⟩

theorem Clean.ite {α : Type} {c : Prop} [Decidable c] {m m' : M (RSt V) α} (h : Clean m) (h' : Clean m') : Clean (if c then m else m') := by
  split <;> assumption

theorem Clean.throw {α : Type} (e : Err) : Clean (M.throw e : M (RSt V) α) := by
  intro s _
  exact ⟨fun _ _ h => (nomatch h), fun _ _ h => by cases h; exact ⟨⟨rfl, rfl, Nat.le_refl _⟩, rfl⟩⟩

theorem Obj.read_clean (chk : Bool) (k : Kind) (C : Num V) (A : ReadArgs) (nn : Nat) (o : Obj) : Clean (o.read_plt chk k C A nn) := by
  cases o with
  | d1 o =>
    exact .lift_bind _ fun _ => .lift_bind _ fun z => .lift_bind _ fun _ => .ite (.throw _) fun s fr =>
      load_frame (fun p d => .forU (fun _ => D1.PD.readPt_tame _ _ _ _ _ _ _) _ _) fr
  | d2 o =>
    exact .lift_bind _ fun _ => .lift_bind _ fun z => .lift_bind _ fun _ => .lift_bind _ fun _ => .ite (.throw _) fun s fr =>
      load_frame (fun p d => .forU (fun _ => .forU (fun _ => D2.PD.readPt_tame _ _ _ _ _ _ _ _ _) _ _) _ _) fr
  | d3 o =>
    exact .lift_bind _ fun _ => .lift_bind _ fun z => .lift_bind _ fun _ => .lift_bind _ fun _ => .lift_bind _ fun _ =>
      .ite (.throw _) fun s fr =>
        load_frame (fun p d => .forU (fun _ => .forU (fun _ => .forU (fun _ => D3.PD.readPt_tame _ _ _ _ _ _ _ _ _ _ _) _ _) _ _) _ _) fr

theorem World.read_clean (chk : Bool) (C : Num V) (A : ReadArgs) (x nn : Nat) (s : World V × Heap Byte) (fr : Fresh s.2) :
    (∀ a s', World.read_plt chk C A x nn s = .ok a s' → SameBlocks s.2 s'.2) ∧
    (∀ e s', World.read_plt chk C A x nn s = .err e s' → SameBlocks s.2 s'.2 ∧ s'.1 = s.1) := by
  unfold World.read_plt
  cases s.1.objs x with
  | none => exact ⟨fun _ _ h => (nomatch h), fun _ _ h => nomatch h⟩
  | some ko =>
    obtain ⟨k, o⟩ := ko
    have := Obj.read_clean chk k C A nn o ⟨s.1.h, s.2⟩ fr
    simp only at this ⊢
    cases hr : o.read_plt chk k C A nn ⟨s.1.h, s.2⟩ with
    | ok a t => exact ⟨fun _ _ h => by cases h; exact this.1 a t hr, fun _ _ h => nomatch h⟩
    | err e t =>
      refine ⟨fun _ _ h => (nomatch h), fun _ _ h => ?_⟩
      obtain ⟨h1, h2⟩ := this.2 e t hr
      cases h
      exact ⟨h1, by simp only [h2]⟩
    | ub u => exact ⟨fun _ _ h => (nomatch h), fun _ _ h => nomatch h⟩

end Verif
