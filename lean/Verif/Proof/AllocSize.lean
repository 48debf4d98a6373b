import Verif.Proof.AllocAll2
/-!
# The sizes an `alloc` that returns leaves behind, for all `unsigned` arguments
-/
namespace Verif
open Spec
variable {V : Type}

/-- a statement that leaves `f` of the object as it is if it returns -/
structure Keep {O γ α : Type} (f : O → γ) (m : M (St V O) α) : Prop where
  ok : ∀ s a s', m s = .ok a s' → f s'.o = f s.o

section
variable {O γ α β : Type} {f : O → γ}

theorem Keep.bind {m : M (St V O) α} {g : α → M (St V O) β} (h : Keep f m) (h' : ∀ a, Keep f (g a)) : Keep f (m >>= g) := by
  refine ⟨fun s a s' e => ?_⟩
  rw [M.bind_run] at e
  cases hm : m s with
  | ok b t => rw [hm] at e; rw [(h' b).ok _ _ _ e, h.ok _ _ _ hm]
  | err x t => rw [hm] at e; cases e
  | ub u => rw [hm] at e; cases e

theorem Keep.pure (a : α) : Keep f (pure a : M (St V O) α) := ⟨fun _ _ _ e => by cases e; rfl⟩
theorem Keep.undef (u : UB) : Keep f (M.undef u : M (St V O) α) := ⟨fun _ _ _ e => (nomatch e)⟩
theorem Keep.lift (x : Out α) : Keep f (liftM x : M (St V O) α) := by
  cases x with
  | ok a => exact .pure a
  | err e => exact ⟨fun _ _ _ e => (nomatch e)⟩
  | ub u => exact .undef u
theorem Keep.ite {c : Prop} [Decidable c] {m m' : M (St V O) α} (h : Keep f m) (h' : Keep f m') : Keep f (if c then m else m') := by
  split <;> assumption
theorem Keep.loopU {body : Nat → M (St V O) Unit} (h : ∀ i, Keep f (body i)) (k : Nat) (i : Nat) : Keep f (loopU body k i) := by
  induction k generalizing i with
  | zero => exact Keep.pure ()
  | succ k ih => exact (h i).bind fun _ => ih _
theorem Keep.forU {body : Nat → M (St V O) Unit} (h : ∀ i, Keep f (body i)) (b e : Nat) : Keep f (forU b e body) := .loopU h _ _
theorem Keep.obj : Keep f (St.obj : M (St V O) O) := ⟨fun _ _ _ e => by cases e; rfl⟩
theorem Keep.modObj {g : O → O} (h : ∀ o, f (g o) = f o) : Keep f (St.modObj g : M (St V O) Unit) := ⟨fun _ _ _ e => by cases e; exact h _⟩
theorem Keep.heap (m : M (Heap V) α) : Keep f (St.heap m : M (St V O) α) := by
  refine ⟨fun s a s' e => ?_⟩
  unfold St.heap at e
  split at e
  · cases e; rfl
  · cases e
  · cases e

/-- the first part of `alloc`: memory, the data member, the size -/
theorem keep_size {sz : Nat} {g : Ptr → O → O} {k : O → O} {v : γ} (hk : ∀ o, f (k o) = v) {rest : M (St V O) Unit} (h : Keep f rest) {s s' : St V O}
    (e : (do let d ← St.heap (Heap.newVals sz); St.modObj (g d); St.modObj k; rest : M (St V O) Unit) s = .ok () s') : f s'.o = v := by
  rw [M.bind_run] at e
  split at e
  · rw [M.bind_ok (show St.modObj _ _ = .ok () _ from rfl), M.bind_ok (show St.modObj _ _ = .ok () _ from rfl)] at e
    rw [h.ok _ _ _ e, hk]
  · cases e
  · cases e

theorem tryAlloc_inv {m : M (St V O) Unit} {s t : St V O} (h : tryAlloc m s = .ok () t) : m s = .ok () t := by
  unfold tryAlloc M.catchAs at h
  cases hm : m s with
  | ok a t' => rw [hm] at h; exact h
  | err e t' => rw [hm] at h; simp only at h; split at h <;> cases h
  | ub u => rw [hm] at h; cases h
end

theorem D1.allocMem_size {chk : Bool} {N : Nat} {s : D1.SizeT} {w0 : Nat} {t t' : St V D1.PD} (h : D1.PD.allocMem chk N s w0 t = .ok () t') :
    t'.o.size = s := by
  unfold D1.PD.allocMem at h
  refine keep_size (f := D1.PD.size) (g := fun d o => { o with data := d }) (k := fun o => { o with size := s }) (fun _ => rfl) ?_ h
  refine (Keep.forU (fun m => ?_) _ _)
  unfold D1.PD.allocComp D1.PD.setPt0
  exact Keep.obj.bind fun o => (Keep.heap _).bind fun q => (Keep.lift _).bind fun n0 => (Keep.heap _).bind fun q =>
    .ite (.modObj (by intro _; rfl)) (.undef _)

theorem D2.allocMem_size {chk : Bool} {N : Nat} {s : D2.SizeT} {w0 w1 : Nat} {t t' : St V D2.PD} (h : D2.PD.allocMem chk N s w0 w1 t = .ok () t') :
    t'.o.size = s := by
  unfold D2.PD.allocMem at h
  have hs : ∀ n q, Keep D2.PD.size (D2.PD.setPt0 N n q : M (St V D2.PD) Unit) := fun n q => by
    unfold D2.PD.setPt0; exact .ite (.modObj (by intro _; rfl)) (.undef _)
  have hp : ∀ o n, Keep D2.PD.size (D2.PD.pt0At N o n : M (St V D2.PD) Ptr) := fun o n => by
    unfold D2.PD.pt0At; exact .ite (.pure _) (.undef _)
  refine keep_size (f := D2.PD.size) (g := fun d o => { o with data := d }) (k := fun o => { o with size := s }) (fun _ => rfl) ?_ h
  refine ((Keep.heap _).bind fun q => (Keep.modObj (by intro _; rfl)).bind fun _ => Keep.forU (fun m => ?_) _ _)
  unfold D2.PD.allocComp
  refine Keep.obj.bind fun o => (Keep.heap _).bind fun q => (hs _ _).bind fun _ => (Keep.forU (fun ii => ?_) _ _).bind fun _ =>
    Keep.obj.bind fun o => (hp _ _).bind fun p0 => (Keep.lift _).bind fun _ => (Keep.heap _).bind fun q => hs _ _
  unfold D2.PD.allocRow
  exact Keep.obj.bind fun o => (hp _ _).bind fun p0 => (Keep.heap _).bind fun c => (Keep.heap _).bind fun q =>
    (Keep.heap _).bind fun q => (Keep.heap _).bind fun _ => (Keep.heap _).bind fun c => (Keep.heap _).bind fun q =>
    (Keep.lift _).bind fun _ => (Keep.heap _).bind fun q => Keep.heap _

theorem D3.allocMem_size {chk : Bool} {N : Nat} {s : D3.SizeT} {w0 w1 w2 : Nat} {t t' : St V D3.PD} (h : D3.PD.allocMem chk N s w0 w1 w2 t = .ok () t') :
    t'.o.size = s := by
  unfold D3.PD.allocMem at h
  have hs : ∀ n q, Keep D3.PD.size (D3.PD.setPt0 N n q : M (St V D3.PD) Unit) := fun n q => by
    unfold D3.PD.setPt0; exact .ite (.modObj (by intro _; rfl)) (.undef _)
  have hp : ∀ o n, Keep D3.PD.size (D3.PD.pt0At N o n : M (St V D3.PD) Ptr) := fun o n => by
    unfold D3.PD.pt0At; exact .ite (.pure _) (.undef _)
  refine keep_size (f := D3.PD.size) (g := fun d o => { o with data := d }) (k := fun o => { o with size := s }) (fun _ => rfl) ?_ h
  refine ((Keep.heap _).bind fun q => (Keep.modObj (by intro _; rfl)).bind fun _ =>
    (Keep.heap _).bind fun q => (Keep.modObj (by intro _; rfl)).bind fun _ => Keep.forU (fun m => ?_) _ _)
  unfold D3.PD.allocComp
  refine Keep.obj.bind fun o => (Keep.heap _).bind fun q => (hs _ _).bind fun _ => (Keep.forU (fun ii => ?_) _ _).bind fun _ =>
    Keep.obj.bind fun o => (hp _ _).bind fun p0 => (Keep.lift _).bind fun _ => (Keep.heap _).bind fun q => hs _ _
  unfold D3.PD.allocRow
  refine Keep.obj.bind fun o => (hp _ _).bind fun p0 => (Keep.heap _).bind fun c => (Keep.heap _).bind fun q =>
    (Keep.heap _).bind fun q => (Keep.heap _).bind fun _ => (Keep.forU (fun jj => ?_) _ _).bind fun _ =>
    (Keep.heap _).bind fun c => (Keep.heap _).bind fun q => (Keep.lift _).bind fun _ => (Keep.heap _).bind fun q => Keep.heap _
  unfold D3.PD.allocCell
  exact Keep.obj.bind fun o => (hp _ _).bind fun p0 => (Keep.heap _).bind fun c => (Keep.heap _).bind fun row =>
    (Keep.heap _).bind fun c => (Keep.heap _).bind fun q => (Keep.heap _).bind fun q => (Keep.heap _).bind fun q =>
    (Keep.heap _).bind fun _ => (Keep.heap _).bind fun c => (Keep.heap _).bind fun row => (Keep.heap _).bind fun c =>
    (Keep.heap _).bind fun q => (Keep.lift _).bind fun _ => (Keep.heap _).bind fun q => Keep.heap _

/-! ## the computation of the sizes -/

/-- the numbers of a dimension as `int`, if they add up inside `int` -/
def AddUp (e : Ext) : Prop := asInt e.i + asInt e.p + asInt e.n ≤ 2147483647

theorem size_core {i p n : Int} {z : Nat} (h : (do let e ← i32 (i + p); let b ← i32 (-n); let w ← i32 (e - b); .ok (toU32 w) : Out Nat) = .ok z) :
    i + p + n ≤ 2147483647 := by
  unfold i32 at h
  by_cases h1 : InI32 (i + p)
  · rw [if_pos h1] at h
    by_cases h2 : InI32 (-n)
    · rw [if_pos h2] at h
      simp only [Out.ok_bind] at h
      by_cases h3 : InI32 (i + p - -n)
      · unfold InI32 at h3; omega
      · rw [if_neg h3] at h; cases h
    · rw [if_neg h2] at h; cases h
  · rw [if_neg h1] at h; cases h

theorem lift_inv {σ α β : Type} {x : Out α} {g : α → M σ β} {s s' : σ} {b : β} (h : (do let a ← (liftM x : M σ α); g a) s = .ok b s') :
    ∃ a, x = .ok a ∧ g a s = .ok b s' := by
  cases x with
  | ok a => exact ⟨a, rfl, h⟩
  | err e => cases h
  | ub u => cases h

/-- what an `alloc` that returned leaves: nothing changed or the new sizes; and the sizes add up -/
structure SizeLeft {O S : Type} (f : O → S) (v : S) (o o' : O) (es : List Ext) : Prop where
  size : o' = o ∨ f o' = v
  up : ∀ e ∈ es, AddUp e

theorem D1.alloc_size {chk : Bool} {N : Nat} {L0 : Loc} {a : Ext} (hu : Unsigned [a]) {s t : St V D1.PD}
    (h : D1.PD.alloc chk N L0 a.n a.i a.p s = .ok () t) : SizeLeft D1.PD.size (.new a.n a.i a.p) s.o t.o [a] := by
  unfold D1.PD.alloc at h
  rw [M.bind_ok (St.obj_run _)] at h; simp only at h
  split at h
  · cases h
  obtain ⟨_, -, h⟩ := lift_inv h
  obtain ⟨z0, h0, h⟩ := lift_inv h
  refine ⟨?_, ?_⟩
  · split at h
    · exact .inr (D1.allocMem_size (tryAlloc_inv h))
    · cases h; exact .inl rfl
  · have ha := hu a (by simp)
    intro e he
    simp only [List.mem_singleton] at he; subst he
    unfold D1.SizeT.size D1.SizeT.end_ D1.SizeT.begin_ at h0
    simp only [check_d_1_0, Out.ok_bind, D1.SizeT.new, toI32_asInt ha.1, toI32_asInt ha.2.1, toI32_asInt ha.2.2] at h0
    exact size_core h0

theorem D2.alloc_size {chk : Bool} {N : Nat} {L0 L1 : Loc} {a b : Ext} (hu : Unsigned [a, b]) {s t : St V D2.PD}
    (h : D2.PD.alloc chk N L0 L1 a.n a.i a.p b.n b.i b.p s = .ok () t) :
    SizeLeft D2.PD.size (.new a.n a.i a.p b.n b.i b.p) s.o t.o [a, b] := by
  unfold D2.PD.alloc at h
  rw [M.bind_ok (St.obj_run _)] at h; simp only at h
  split at h
  · cases h
  obtain ⟨_, -, h⟩ := lift_inv h
  obtain ⟨z0, h0, h⟩ := lift_inv h
  obtain ⟨z1, h1, h⟩ := lift_inv h
  refine ⟨?_, ?_⟩
  · split at h
    · exact .inr (D2.allocMem_size (tryAlloc_inv h))
    · cases h; exact .inl rfl
  · have ha := hu a (by simp)
    have hb := hu b (by simp)
    intro e he
    simp only [List.mem_cons, List.not_mem_nil, or_false] at he
    unfold D2.SizeT.size D2.SizeT.end_ D2.SizeT.begin_ at h0 h1
    simp only [check_d_2_0, check_d_2_1, Out.ok_bind, D2.sel, D2.SizeT.new, toI32_asInt ha.1, toI32_asInt ha.2.1, toI32_asInt ha.2.2,
      toI32_asInt hb.1, toI32_asInt hb.2.1, toI32_asInt hb.2.2] at h0 h1
    rcases he with rfl | rfl
    · exact size_core h0
    · exact size_core h1

theorem D3.alloc_size {chk : Bool} {N : Nat} {L0 L1 L2 : Loc} {a b c : Ext} (hu : Unsigned [a, b, c]) {s t : St V D3.PD}
    (h : D3.PD.alloc chk N L0 L1 L2 a.n a.i a.p b.n b.i b.p c.n c.i c.p s = .ok () t) :
    SizeLeft D3.PD.size (.new a.n a.i a.p b.n b.i b.p c.n c.i c.p) s.o t.o [a, b, c] := by
  unfold D3.PD.alloc at h
  rw [M.bind_ok (St.obj_run _)] at h; simp only at h
  split at h
  · cases h
  obtain ⟨_, -, h⟩ := lift_inv h
  obtain ⟨z0, h0, h⟩ := lift_inv h
  obtain ⟨z1, h1, h⟩ := lift_inv h
  obtain ⟨z2, h2, h⟩ := lift_inv h
  refine ⟨?_, ?_⟩
  · split at h
    · exact .inr (D3.allocMem_size (tryAlloc_inv h))
    · cases h; exact .inl rfl
  · have ha := hu a (by simp)
    have hb := hu b (by simp)
    have hc := hu c (by simp)
    intro e he
    simp only [List.mem_cons, List.not_mem_nil, or_false] at he
    unfold D3.SizeT.size D3.SizeT.end_ D3.SizeT.begin_ at h0 h1 h2
    simp only [check_d_3_0, check_d_3_1, check_d_3_2, Out.ok_bind, D3.sel, D3.SizeT.new, toI32_asInt ha.1, toI32_asInt ha.2.1, toI32_asInt ha.2.2,
      toI32_asInt hb.1, toI32_asInt hb.2.1, toI32_asInt hb.2.2, toI32_asInt hc.1, toI32_asInt hc.2.1, toI32_asInt hc.2.2] at h0 h1 h2
    rcases he with rfl | rfl | rfl
    · exact size_core h0
    · exact size_core h1
    · exact size_core h2

theorem wrap_inv {O : Type} {mk : O → Obj} {m : M (St V O) Unit} {h : Heap V} {o : O} {t : St V Obj} (e : St.wrap mk m h o = .ok () t) :
    ∃ s, m ⟨h, o⟩ = .ok () s ∧ t.o = mk s.o := by
  unfold St.wrap at e
  split at e
  · rename_i s hs; cases e; exact ⟨s, hs, rfl⟩
  · cases e
  · cases e

/-- the numbers of a request as they are reported -/
def askedInts (es : List Ext) : List (Int × Int × Int) := es.map fun e => (asInt e.n, asInt e.i, asInt e.p)

theorem Obj.alloc_size {chk : Bool} {k : Kind} {o : Obj} (e : ObjEmpty k o) {h : Heap V} {es : List Ext} (hl : es.length = k.locs.length)
    (hu : Unsigned es) {t : St V Obj} (ht : Obj.alloc chk k es ⟨h, o⟩ = .ok () t) :
    (t.o.sizes = es.map (fun _ => (0, 0, 0)) ∨ t.o.sizes = askedInts es) ∧ ∀ e ∈ es, AddUp e := by
  cases e with
  | @d1 N L0 o e =>
    match es, hl with
    | [a], _ =>
      obtain ⟨s, hs, ho⟩ := wrap_inv ht
      obtain ⟨h1, h2⟩ := D1.alloc_size hu hs
      refine ⟨?_, h2⟩
      rw [ho]
      rcases h1 with h1 | h1
      · left; rw [h1]; simp [Obj.sizes, e.size]
      · right; have ha := hu a (by simp); simp [Obj.sizes, h1, askedInts, D1.SizeT.new, toI32_asInt ha.1, toI32_asInt ha.2.1, toI32_asInt ha.2.2]
  | @d2 N L0 L1 o e =>
    match es, hl with
    | [a, b], _ =>
      obtain ⟨s, hs, ho⟩ := wrap_inv ht
      obtain ⟨h1, h2⟩ := D2.alloc_size hu hs
      refine ⟨?_, h2⟩
      rw [ho]
      rcases h1 with h1 | h1
      · left; rw [h1]; simp [Obj.sizes, e.size]
      · right
        have ha := hu a (by simp)
        have hb := hu b (by simp)
        simp [Obj.sizes, h1, askedInts, D2.SizeT.new, toI32_asInt ha.1, toI32_asInt ha.2.1, toI32_asInt ha.2.2,
          toI32_asInt hb.1, toI32_asInt hb.2.1, toI32_asInt hb.2.2]
  | @d3 N L0 L1 L2 o e =>
    match es, hl with
    | [a, b, c], _ =>
      obtain ⟨s, hs, ho⟩ := wrap_inv ht
      obtain ⟨h1, h2⟩ := D3.alloc_size hu hs
      refine ⟨?_, h2⟩
      rw [ho]
      rcases h1 with h1 | h1
      · left; rw [h1]; simp [Obj.sizes, e.size]
      · right
        have ha := hu a (by simp)
        have hb := hu b (by simp)
        have hc := hu c (by simp)
        simp [Obj.sizes, h1, askedInts, D3.SizeT.new, toI32_asInt ha.1, toI32_asInt ha.2.1, toI32_asInt ha.2.2,
          toI32_asInt hb.1, toI32_asInt hb.2.1, toI32_asInt hb.2.2, toI32_asInt hc.1, toI32_asInt hc.2.1, toI32_asInt hc.2.2]

end Verif
