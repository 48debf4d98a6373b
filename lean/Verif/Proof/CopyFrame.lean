import Verif.Proof.World
/-!
# What `copy_from` cannot change, whatever its arguments
-/
namespace Verif
open Spec
variable {V : Type}

/-- if the statement returns or throws, `I` still holds -/
def Keeps {σ α : Type} (I : σ → Prop) (m : M σ α) : Prop :=
  ∀ s, I s → (∀ a s', m s = .ok a s' → I s') ∧ ∀ e s', m s = .err e s' → I s'

/-- the statement only reads -/
def Reads {σ α : Type} (m : M σ α) : Prop := ∀ s, (∀ a s', m s = .ok a s' → s' = s) ∧ ∀ e s', m s = .err e s' → s' = s

section
variable {σ α β : Type} {I : σ → Prop}

theorem Reads.keeps {m : M σ α} (h : Reads m) : Keeps I m := fun s hs =>
  ⟨fun a s' e => by rw [(h s).1 a s' e]; exact hs, fun x s' e => by rw [(h s).2 x s' e]; exact hs⟩

theorem Keeps.bind {m : M σ α} {f : α → M σ β} (h : Keeps I m) (h' : ∀ a, Keeps I (f a)) : Keeps I (m >>= f) := by
  intro s hs
  obtain ⟨h1, h2⟩ := h s hs
  rw [M.bind_run]
  cases hm : m s with
  | ok a t => exact h' a t (h1 a t hm)
  | err e t => exact ⟨by simp, fun e' s' h => by cases h; exact h2 e t hm⟩
  | ub u => exact ⟨by simp, by simp⟩

theorem Reads.bind {m : M σ α} {f : α → M σ β} (h : Reads m) (h' : ∀ a, Reads (f a)) : Reads (m >>= f) := by
  intro s
  obtain ⟨h1, h2⟩ := h s
  rw [M.bind_run]
  cases hm : m s with
  | ok a t => rw [h1 a t hm]; exact h' a s
  | err e t => exact ⟨by simp, fun e' s' h => by cases h; exact h2 e t hm⟩
  | ub u => exact ⟨by simp, by simp⟩

theorem Reads.lift (x : Out α) : Reads (liftM x : M σ α) := by
  intro s
  cases x with
  | ok a => exact ⟨fun a s' h => by cases h; rfl, fun e s' h => by cases h⟩
  | err e => exact ⟨fun a s' h => (by cases h), fun e s' h => by cases h; rfl⟩
  | ub u => exact ⟨fun a s' h => (by cases h), fun e s' h => by cases h⟩

theorem Reads.pure (a : α) : Reads (pure a : M σ α) := fun _ => ⟨fun _ _ h => by cases h; rfl, fun _ _ h => by cases h⟩
theorem Reads.throw (e : Err) : Reads (M.throw e : M σ α) := fun _ => ⟨fun _ _ h => (nomatch h), fun _ _ h => by cases h; rfl⟩
theorem Reads.undef (u : UB) : Reads (M.undef u : M σ α) := fun _ => ⟨fun _ _ h => (nomatch h), fun _ _ h => (nomatch h)⟩

theorem Keeps.ite {c : Prop} [Decidable c] {m m' : M σ α} (h : Keeps I m) (h' : Keeps I m') : Keeps I (if c then m else m') := by
  split <;> assumption

theorem Reads.ite {c : Prop} [Decidable c] {m m' : M σ α} (h : Reads m) (h' : Reads m') : Reads (if c then m else m') := by
  split <;> assumption

theorem Keeps.loopI {body : Int → M σ Unit} (h : ∀ i, Keeps I (body i)) (k : Nat) (i : Int) : Keeps I (loopI body k i) := by
  induction k generalizing i with
  | zero => exact (Reads.pure ()).keeps
  | succ k ih => exact (h i).bind fun _ => ih _

theorem Keeps.forI {body : Int → M σ Unit} (h : ∀ i, Keeps I (body i)) (b e : Int) : Keeps I (forI b e body) := by
  unfold Verif.forI
  exact .ite (.loopI h _ _) ((Keeps.loopI h _ _).bind fun _ => (Reads.undef _).keeps)

theorem Keeps.loopU {body : Nat → M σ Unit} (h : ∀ i, Keeps I (body i)) (k : Nat) (i : Nat) : Keeps I (loopU body k i) := by
  induction k generalizing i with
  | zero => exact (Reads.pure ()).keeps
  | succ k ih => exact (h i).bind fun _ => ih _

theorem Keeps.forU {body : Nat → M σ Unit} (h : ∀ i, Keeps I (body i)) (b e : Nat) : Keeps I (forU b e body) := .loopU h _ _
end

/-! ## reading through pointers -/

theorem Heap.padd_reads (p : Ptr) (k : Int) : Reads (Heap.padd p k : M (Heap V) Ptr) := by
  intro h
  unfold Heap.padd
  constructor
  · intro a s' e
    repeat' split at e
    all_goals cases e
    all_goals rfl
  · intro a s' e
    repeat' split at e
    all_goals cases e

theorem Heap.lval_reads (p : Ptr) : Reads (Heap.lval p : M (Heap V) Ptr) := by
  intro h
  unfold Heap.lval
  constructor
  · intro a s' e
    repeat' split at e
    all_goals cases e
    all_goals rfl
  · intro a s' e
    repeat' split at e
    all_goals cases e

theorem Heap.loadV_reads (p : Ptr) : Reads (Heap.loadV p : M (Heap V) (Option V)) := by
  intro h
  unfold Heap.loadV
  constructor
  · intro a s' e
    repeat' split at e
    all_goals cases e
    all_goals rfl
  · intro a s' e
    repeat' split at e
    all_goals cases e

theorem Heap.loadP_reads (p : Ptr) : Reads (Heap.loadP p : M (Heap V) Ptr) := by
  intro h
  unfold Heap.loadP
  constructor
  · intro a s' e
    repeat' split at e
    all_goals cases e
    all_goals rfl
  · intro a s' e
    repeat' split at e
    all_goals cases e

theorem Heap.idx_reads (p : Ptr) (k : Int) : Reads (Heap.idx p k : M (Heap V) Ptr) :=
  (Heap.padd_reads p k).bind fun _ => Heap.lval_reads _

theorem Obj.elem_reads (k : Kind) (o : Obj) (n : Nat) (ys : List Int) : Reads (Obj.elem k o n ys : M (Heap V) Ptr) := by
  unfold Obj.elem
  split
  · exact (Reads.ite (.pure _) (.undef _)).bind fun _ => Heap.idx_reads _ _
  · exact (Reads.ite (.pure _) (.undef _)).bind fun _ => (Heap.idx_reads _ _).bind fun _ => (Heap.loadP_reads _).bind fun _ => Heap.idx_reads _ _
  · exact (Reads.ite (.pure _) (.undef _)).bind fun _ => (Heap.idx_reads _ _).bind fun _ => (Heap.loadP_reads _).bind fun _ =>
      (Heap.idx_reads _ _).bind fun _ => (Heap.loadP_reads _).bind fun _ => Heap.idx_reads _ _
  · exact .undef _

/-! ## `copy_from` -/

/-- the sides of `copy_from` that only compute -/
macro "keeps" h:term : tactic => `(tactic| repeat' first
  | with_reducible exact (Reads.lift _).keeps
  | with_reducible exact (Reads.pure _).keeps
  | with_reducible exact (Reads.throw _).keeps
  | with_reducible refine Keeps.bind (Reads.keeps (Reads.lift _)) (fun _ => ?_)
  | with_reducible refine Keeps.bind ?_ (fun _ => ?_)
  | with_reducible refine Keeps.ite ?_ ?_
  | with_reducible refine Keeps.forI (fun _ => ?_) _ _
  | with_reducible refine Keeps.forU (fun _ => ?_) _ _
  | exact $h _ _ _)

theorem D1.PD.copy_keeps (chk : Bool) {N : Nat} {L0 : Loc} {o pd : D1.PD} (same : Bool) {I : Heap V → Prop}
    (hm : ∀ n ys zs, Keeps I (Obj.move ⟨N, [L0]⟩ (.d1 o) (.d1 pd) n ys zs)) (R r : D1.RangeT) (I0 i0 : Int) :
    Keeps I (D1.PD.copy_from chk N L0 o pd same R r I0 i0) := by
  have he : ∀ n x d, Keeps I (D1.PD.copyElem N o pd n x d) := fun n x d =>
    Keeps.bind (Reads.lift _).keeps fun z => hm n [x] [z]
  unfold D1.PD.copy_from
  dsimp only
  keeps he

theorem D2.PD.copy_keeps (chk : Bool) {N : Nat} {L0 L1 : Loc} {o pd : D2.PD} (same : Bool) {I : Heap V → Prop}
    (hm : ∀ n ys zs, Keeps I (Obj.move ⟨N, [L0, L1]⟩ (.d2 o) (.d2 pd) n ys zs)) (R r : D2.RangeT) (I0 I1 i0 i1 : Int) :
    Keeps I (D2.PD.copy_from chk N L0 L1 o pd same R r I0 I1 i0 i1) := by
  have he : ∀ n (x : Int × Int) (d : Int × Int), Keeps I (D2.PD.copyElem N o pd n x.1 x.2 d.1 d.2) := fun n x d =>
    Keeps.bind (Reads.lift _).keeps fun z => Keeps.bind (Reads.lift _).keeps fun z' => hm n [x.1, x.2] [z, z']
  unfold D2.PD.copy_from
  dsimp only
  keeps (fun n x y => he n x y)
  all_goals exact he _ (_, _) (_, _)

theorem D3.PD.copy_keeps (chk : Bool) {N : Nat} {L0 L1 L2 : Loc} {o pd : D3.PD} (same : Bool) {I : Heap V → Prop}
    (hm : ∀ n ys zs, Keeps I (Obj.move ⟨N, [L0, L1, L2]⟩ (.d3 o) (.d3 pd) n ys zs)) (R r : D3.RangeT) (I0 I1 I2 i0 i1 i2 : Int) :
    Keeps I (D3.PD.copy_from chk N L0 L1 L2 o pd same R r I0 I1 I2 i0 i1 i2) := by
  have he : ∀ n (x : Int × Int × Int) (d : Int × Int × Int), Keeps I (D3.PD.copyElem N o pd n x.1 x.2.1 x.2.2 d.1 d.2.1 d.2.2) :=
    fun n x d => Keeps.bind (Reads.lift _).keeps fun z => Keeps.bind (Reads.lift _).keeps fun z' =>
      Keeps.bind (Reads.lift _).keeps fun z'' => hm n [x.1, x.2.1, x.2.2] [z, z', z'']
  unfold D3.PD.copy_from
  dsimp only
  keeps (fun n x y => he n x y)
  all_goals exact he _ (_, _, _) (_, _, _)

/-- whatever the assignments of a copy preserve, the copy preserves -/
theorem Obj.copy_keeps (chk : Bool) {k : Kind} {o pd : Obj} (same : Bool) (args : Obj.CopyArgs) {I : Heap V → Prop}
    (hm : ∀ n ys zs, Keeps I (Obj.move k o pd n ys zs)) : Keeps I (Obj.copy chk k o pd same args) := by
  obtain ⟨N, locs⟩ := k
  cases args with
  | ranges R r a b =>
    unfold Obj.copy
    dsimp only
    split
    · exact D1.PD.copy_keeps chk same hm _ _ _ _
    · exact D2.PD.copy_keeps chk same hm _ _ _ _ _ _
    · exact D3.PD.copy_keeps chk same hm _ _ _ _ _ _ _ _
    · exact (Reads.undef _).keeps
  | tags R r a b =>
    unfold Obj.copy
    dsimp only
    split
    · unfold D1.PD.copy_from_tag
      exact .bind (Reads.lift _).keeps fun _ => .bind (Reads.lift _).keeps fun _ => D1.PD.copy_keeps chk same hm _ _ _ _
    · unfold D2.PD.copy_from_tag
      exact .bind (Reads.lift _).keeps fun _ => .bind (Reads.lift _).keeps fun _ => D2.PD.copy_keeps chk same hm _ _ _ _ _ _
    · unfold D3.PD.copy_from_tag
      exact .bind (Reads.lift _).keeps fun _ => .bind (Reads.lift _).keeps fun _ => D3.PD.copy_keeps chk same hm _ _ _ _ _ _ _ _
    · exact (Reads.undef _).keeps
  | rangesFl R r f =>
    unfold Obj.copy
    dsimp only
    split
    · unfold D1.PD.copy_from_fl
      exact .bind (Reads.lift _).keeps fun _ => .bind (Reads.lift _).keeps fun _ => D1.PD.copy_keeps chk same hm _ _ _ _
    · unfold D2.PD.copy_from_fl
      exact .bind (Reads.lift _).keeps fun _ => .bind (Reads.lift _).keeps fun _ => .bind (Reads.lift _).keeps fun _ =>
        .bind (Reads.lift _).keeps fun _ => D2.PD.copy_keeps chk same hm _ _ _ _ _ _
    · unfold D3.PD.copy_from_fl
      exact .bind (Reads.lift _).keeps fun _ => .bind (Reads.lift _).keeps fun _ => .bind (Reads.lift _).keeps fun _ =>
        .bind (Reads.lift _).keeps fun _ => .bind (Reads.lift _).keeps fun _ => .bind (Reads.lift _).keeps fun _ =>
        D3.PD.copy_keeps chk same hm _ _ _ _ _ _ _ _
    · exact (Reads.undef _).keeps
  | tagsFl R r f =>
    unfold Obj.copy
    dsimp only
    split
    · unfold D1.PD.copy_from_tag_fl
      exact .bind (Reads.lift _).keeps fun _ => .bind (Reads.lift _).keeps fun _ => .bind (Reads.lift _).keeps fun _ =>
        .bind (Reads.lift _).keeps fun _ => D1.PD.copy_keeps chk same hm _ _ _ _
    · unfold D2.PD.copy_from_tag_fl
      exact .bind (Reads.lift _).keeps fun _ => .bind (Reads.lift _).keeps fun _ => .bind (Reads.lift _).keeps fun _ =>
        .bind (Reads.lift _).keeps fun _ => .bind (Reads.lift _).keeps fun _ => .bind (Reads.lift _).keeps fun _ =>
        D2.PD.copy_keeps chk same hm _ _ _ _ _ _
    · unfold D3.PD.copy_from_tag_fl
      exact .bind (Reads.lift _).keeps fun _ => .bind (Reads.lift _).keeps fun _ => .bind (Reads.lift _).keeps fun _ =>
        .bind (Reads.lift _).keeps fun _ => .bind (Reads.lift _).keeps fun _ => .bind (Reads.lift _).keeps fun _ =>
        .bind (Reads.lift _).keeps fun _ => .bind (Reads.lift _).keeps fun _ =>
        D3.PD.copy_keeps chk same hm _ _ _ _ _ _ _ _
    · exact (Reads.undef _).keeps

/-! ## one assignment -/

/-- assignments to an allocated array -/
theorem Obj.move_ready {k : Kind} {es : List Ext} {o pd : Obj} {h0 : Heap V} {B : Nat} (n : Nat) (ys zs : List Int) :
    Keeps (fun h => (∃ c, ObjReady k es o h B c) ∧ h.next = h0.next ∧ h.mem = h0.mem ∧ ∀ b, b ≠ B → h.blk b = h0.blk b)
      (Obj.move k o pd n ys zs) := by
  unfold Obj.move
  refine .bind (Obj.elem_reads _ _ _ _).keeps fun src => .bind (Heap.loadV_reads _).keeps fun v => ?_
  rintro h ⟨⟨c, r⟩, h1, h2, h3⟩
  rcases Obj.elem_cases r n ys with ⟨a, ha, e⟩ | ⟨u, e⟩
  · rw [M.bind_ok e, Heap.storeV_at r.blk ha]
    refine ⟨?_, by simp⟩
    intro _ s' e
    cases e
    exact ⟨⟨_, r.write _⟩, h1, h2, fun b hb => by rw [Heap.upd_blk_ne _ _ hb]; exact h3 b hb⟩
  · rw [M.bind_ub e]; exact ⟨by simp, by simp⟩

/-- no element of an array without data can be addressed -/
theorem Obj.elem_loose {k : Kind} {o : Obj} {h : Heap V} (hp : ∀ b, o.Points k b → h.blk b = none) (n : Nat) (ys : List Int) :
    ∃ u, Obj.elem k o n ys h = .ub u := by
  have key : ∀ (p : Ptr) (i : Int), (p = .null ∨ ∃ b off, p = .at b off ∧ h.blk b = none) → ∃ u, Heap.idx p i h = .ub u := by
    rintro p i (rfl | ⟨b, off, rfl, hb⟩)
    · unfold Heap.idx
      by_cases c : i = 0
      · rw [M.bind_ok (a := .null) (s' := h) (by simp [Heap.padd, c])]; exact ⟨_, rfl⟩
      · rw [M.bind_ub (u := .null) (by simp [Heap.padd, c])]; exact ⟨_, rfl⟩
    · unfold Heap.idx
      rw [M.bind_ub (u := .dangling) (by simp [Heap.padd, hb])]; exact ⟨_, rfl⟩
  have row : n < k.N → (o.row n = .null ∨ ∃ b off, o.row n = .at b off ∧ h.blk b = none) := by
    intro hn
    cases hr : o.row n with
    | null => exact .inl rfl
    | «at» b off => exact .inr ⟨b, off, rfl, hp b ⟨n, hn, off, hr⟩⟩
  unfold Obj.elem
  split
  · by_cases hn : n < k.N
    · obtain ⟨u, hu⟩ := key _ _ (row hn)
      refine ⟨u, ?_⟩
      unfold D1.PD.elem D1.PD.pt0At
      rw [if_pos hn]; simp only [pure_bind]; exact hu
    · refine ⟨.oob, ?_⟩
      unfold D1.PD.elem D1.PD.pt0At
      rw [if_neg hn]; rfl
  · by_cases hn : n < k.N
    · rename_i x _
      obtain ⟨u, hu⟩ := key _ x (row hn)
      refine ⟨u, ?_⟩
      unfold D2.PD.elem D2.PD.pt0At
      rw [if_pos hn]; simp only [pure_bind]; exact M.bind_ub hu
    · refine ⟨.oob, ?_⟩
      unfold D2.PD.elem D2.PD.pt0At
      rw [if_neg hn]; rfl
  · by_cases hn : n < k.N
    · rename_i x _ _
      obtain ⟨u, hu⟩ := key _ x (row hn)
      refine ⟨u, ?_⟩
      unfold D3.PD.elem D3.PD.pt0At
      rw [if_pos hn]; simp only [pure_bind]; exact M.bind_ub hu
    · refine ⟨.oob, ?_⟩
      unfold D3.PD.elem D3.PD.pt0At
      rw [if_neg hn]; rfl
  · exact ⟨_, rfl⟩

/-- assignments to an array without data -/
theorem Obj.move_loose {k : Kind} {o pd : Obj} {h0 : Heap V} (hp : ∀ b, o.Points k b → h0.blk b = none) (n : Nat) (ys zs : List Int) :
    Keeps (fun h => h = h0) (Obj.move k o pd n ys zs) := by
  unfold Obj.move
  refine .bind (Obj.elem_reads _ _ _ _).keeps fun src => .bind (Heap.loadV_reads _).keeps fun v => ?_
  rintro h rfl
  obtain ⟨u, e⟩ := Obj.elem_loose hp n ys
  rw [M.bind_ub e]; exact ⟨by simp, by simp⟩

/-! ## the call -/

/-- a `copy_from` that returns or throws changes at most the free store -/
theorem copy_inv {w : World V} {chk : Bool} {x y : Nat} {args : Obj.CopyArgs} {w' : World V}
    (hr : (∃ a, exec chk (.copy x y args) w = .ok a w') ∨ ∃ e, exec chk (.copy x y args) w = .err e w') :
    ∃ k o pd h', w.objs x = some (k, o) ∧ w.objs y = some (k, pd) ∧
      ((∃ a, Obj.copy chk k o pd (decide (x = y)) args w.h = .ok a h') ∨ ∃ e, Obj.copy chk k o pd (decide (x = y)) args w.h = .err e h') ∧
      w' = { w with h := h' } := by
  have hc : (∃ a, World.copy chk x y args w = .ok a w') ∨ ∃ e, World.copy chk x y args w = .err e w' := by
    have e : exec chk (.copy x y args) w = (World.copy chk x y args >>= fun _ => pure (Ret.unit : Ret V)) w := rfl
    rw [e, M.bind_run] at hr
    cases hm : World.copy chk x y args w with
    | ok a s => rw [hm] at hr; rcases hr with ⟨a, h⟩ | ⟨a, h⟩ <;> cases h; exact .inl ⟨_, rfl⟩
    | err a s => rw [hm] at hr; rcases hr with ⟨a, h⟩ | ⟨a, h⟩ <;> cases h; exact .inr ⟨_, rfl⟩
    | ub u => rw [hm] at hr; rcases hr with ⟨a, h⟩ | ⟨a, h⟩ <;> cases h
  unfold World.copy at hc
  split at hc
  · rename_i k o k' pd hx hy
    by_cases hk : k' = k
    · subst hk
      rw [if_pos rfl] at hc
      cases hm : Obj.copy chk k' o pd (decide (x = y)) args w.h with
      | ok a s =>
        rw [hm] at hc
        rcases hc with ⟨a, h⟩ | ⟨a, h⟩ <;> cases h
        exact ⟨_, _, _, s, hx, hy, .inl ⟨_, hm⟩, rfl⟩
      | err a s =>
        rw [hm] at hc
        rcases hc with ⟨a, h⟩ | ⟨a, h⟩ <;> cases h
        exact ⟨_, _, _, s, hx, hy, .inr ⟨_, hm⟩, rfl⟩
      | ub u => rw [hm] at hc; rcases hc with ⟨a, h⟩ | ⟨a, h⟩ <;> cases h
    · rw [if_neg hk] at hc; rcases hc with ⟨a, h⟩ | ⟨a, h⟩ <;> cases h
  · rcases hc with ⟨a, h⟩ | ⟨a, h⟩ <;> cases h

/-- what a `copy_from` that returns or throws can have changed: elements of `x` only -/
theorem Rel.copy_frame {mem : Nat → Nat → Bool} {w : World V} {aw : AWorld V} {L : List Nat} (R : Rel mem w aw L) (chk : Bool)
    {x y : Nat} {args : Obj.CopyArgs} {w' : World V} (hr : (∃ a, exec chk (.copy x y args) w = .ok a w') ∨ ∃ e, exec chk (.copy x y args) w = .err e w') :
    ∃ b, Rel mem w' (aw.set x b) L ∧ (b = aw.arr x ∨ ∃ k es val val', aw.arr x = some (k, .ready es val) ∧ b = some (k, .ready es val')) := by
  obtain ⟨k, o, pd, h', hx, hy, hc, rfl⟩ := copy_inv hr
  have keep : ∀ I : Heap V → Prop, I w.h → (∀ n ys zs, Keeps I (Obj.move k o pd n ys zs)) → I h' := by
    intro I hi hm
    obtain ⟨k1, k2⟩ := Obj.copy_keeps chk (decide (x = y)) args hm w.h hi
    rcases hc with ⟨a, h⟩ | ⟨a, h⟩
    · exact k1 _ _ h
    · exact k2 _ _ h
  have br := R.bind x
  rw [hx] at br
  have loose : (∀ es val, aw.arr x ≠ some (k, .ready es val)) → h' = w.h := by
    intro hn
    refine keep (fun h => h = w.h) rfl (Obj.move_loose ?_)
    intro b hb
    have ht : ¬ o.Tied := by
      cases hb' : aw.arr x with
      | none => rw [hb'] at br; cases br
      | some ka =>
        rw [hb'] at br
        cases br with
        | some hk h0 r =>
          cases r with
          | empty e => exact e.loose
          | ready r => exact (hn _ _ hb').elim
          | broken r => exact r.loose
    rcases R.stale x b (by rw [hx]; exact hb) with h1 | h1
    · rw [hx] at h1; exact (ht h1).elim
    · exact h1.1
  have same : ∀ h', ({ w with h := h' } : World V) = w.put x h' (some (k, o)) := by
    intro h'
    obtain ⟨h, ob⟩ := w
    simp only [World.put] at hx ⊢
    congr 1
    funext z
    by_cases e : z = x
    · rw [if_pos e, e, hx]
    · rw [if_neg e]
  cases ha : aw.arr x with
  | none => rw [ha] at br; cases br
  | some ka =>
    obtain ⟨k1, a⟩ := ka
    rw [ha] at br
    cases br with
    | some hk h0 r =>
      cases r with
      | empty e =>
        have := loose (by rw [ha]; simp)
        subst this
        exact ⟨_, by rw [set_same aw ha]; exact R, .inl rfl⟩
      | broken r f =>
        have := loose (by rw [ha]; simp)
        subst this
        exact ⟨_, by rw [set_same aw ha]; exact R, .inl rfl⟩
      | @ready es val B c r f p v =>
        obtain ⟨⟨c', q⟩, q1, q2, q3⟩ := keep (fun h => (∃ c, ObjReady k es o h B c) ∧ h.next = w.h.next ∧ h.mem = w.h.mem ∧ ∀ b, b ≠ B → h.blk b = w.h.blk b)
          ⟨⟨c, r⟩, rfl, rfl, fun _ _ => rfl⟩ Obj.move_ready
        -- the new values
        refine ⟨some (k, .ready es fun n xs => c' (n * points (mkShape es k.locs) + offset (mkShape es k.locs) xs)), ?_,
          .inr ⟨k, es, val, _, rfl, rfl⟩⟩
        rw [same]
        have := R.update' x (h' := h') (b' := some (k, o))
          (a' := some (k, .ready es fun n xs => c' (n * points (mkShape es k.locs) + offset (mkShape es k.locs) xs)))
          (by
            rw [hx]
            exact ⟨q2, by omega, fun b h4 _ => q3 b (by rintro rfl; exact h4 r.mem_own), fun b h4 h5 => (h5 h4).elim, fun b h4 => .inl h4⟩)
          (.some hk h0 (.ready q f p fun _ _ _ _ => rfl)) (q1.trans R.next) (by rw [hx]; exact .inl rfl)
        exact this

end Verif
