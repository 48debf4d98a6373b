import Verif.Proof.Valid
/-!
# Lifecycle calls: exact effects, reachable states, absence of the broken state
-/
namespace Verif
open Spec
variable {V : Type} {mem : Nat → Nat → Bool} {chk : Bool} {w : World V} {aw : AWorld V}

theorem Obj.alloc_bad (c : Bool) {k o} (h : Heap V) (e : ObjEmpty k o) {es : List Ext} (hl : es.length = k.locs.length) (hs : DimsFit es) {x : Err}
    (he : sizeErrs 0 es = some x) : Obj.alloc c k es ⟨h, o⟩ = .err x ⟨h, o⟩ := by
  cases e with
  | @d1 N L0 o e =>
    match es, hl with
    | [e0], _ => exact wrap_err (D1.PD.alloc_bad c e.data (Nat.lt_of_succ_lt (hs e0 (by simp))) he)
  | @d2 N L0 L1 o e =>
    match es, hl with
    | [e0, e1], _ =>
      exact wrap_err (D2.PD.alloc_bad c e.data (Nat.lt_of_succ_lt (hs e0 (by simp))) (Nat.lt_of_succ_lt (hs e1 (by simp))) he)
  | @d3 N L0 L1 L2 o e =>
    match es, hl with
    | [e0, e1, e2], _ =>
      exact wrap_err (D3.PD.alloc_bad c e.data (Nat.lt_of_succ_lt (hs e0 (by simp))) (Nat.lt_of_succ_lt (hs e1 (by simp)))
        (Nat.lt_of_succ_lt (hs e2 (by simp))) he)

theorem Obj.clear_empty {k o} (h : Heap V) (e : ObjEmpty k o) : Obj.clear k ⟨h, o⟩ = .err .isEmpty ⟨h, o⟩ := by
  cases e with
  | d1 e => exact wrap_err (D1.PD.clear_empty e.data)
  | d2 e => exact wrap_err (D2.PD.clear_empty e.data)
  | d3 e => exact wrap_err (D3.PD.clear_empty e.data)

/-- a call that throws without touching anything -/
theorem call_err_same {f : Kind → M (St V Obj) Unit} {x : Nat} {k : Kind} {o : Obj} {e : Err} (hb : w.objs x = some (k, o))
    (h : f k ⟨w.h, o⟩ = .err e ⟨w.h, o⟩) :
    (do World.call x f; pure .unit : M (World V) (Ret V)) w = .err e w := by
  have : World.call x f w = .err e w := by
    unfold World.call; rw [hb]; simp only; rw [h]; simp only; rw [put_same w hb]
  rw [M.bind_err this]

theorem call_ok_same {f : Kind → M (St V Obj) Unit} {x : Nat} {k : Kind} {o : Obj} (hb : w.objs x = some (k, o))
    (h : f k ⟨w.h, o⟩ = .ok () ⟨w.h, o⟩) :
    (do World.call x f; pure .unit : M (World V) (Ret V)) w = .ok .unit w := by
  have : World.call x f w = .ok () w := by
    unfold World.call; rw [hb]; simp only; rw [h]; simp only; rw [put_same w hb]
  rw [M.bind_ok this]; rfl

/-! ## reachable states -/

theorem arun_append (ops : List (Op V)) (op : Op V) {a a' a'' : AWorld V} {evs : List (Ev V)} {ev : Ev V}
    (h : arun mem chk ops a = some (evs, a')) (h' : astep mem chk a' op = some (ev, a'')) :
    arun mem chk (ops ++ [op]) a = some (evs ++ [ev], a'') := by
  induction ops generalizing a evs with
  | nil => cases h; simp [arun, h']
  | cons o ops ih =>
    simp only [arun, List.cons_append] at h ⊢
    split at h
    · cases h
    · rename_i e a1 h1
      simp only [Option.map_eq_some_iff] at h
      obtain ⟨⟨es, a2⟩, h4, h5⟩ := h
      cases h5
      simp [ih h4]

theorem run_append (ops : List (Op V)) (op : Op V) {a a' a'' : World V} {evs : List (Ev V)} {ev : Ev V}
    (h : run chk ops a = some (evs, a')) (h' : Obs (exec chk op a') ev a'') :
    run chk (ops ++ [op]) a = some (evs ++ [ev], a'') := by
  induction ops generalizing a evs with
  | nil =>
    cases h
    cases ev <;> (simp only [Obs] at h'; simp [run, h'])
  | cons o ops ih =>
    simp only [run, List.cons_append] at h ⊢
    split at h
    · rename_i r w' h1
      simp only [Option.map_eq_some_iff] at h
      obtain ⟨⟨es, a2⟩, h4, h5⟩ := h
      cases h5
      simp [ih h4]
    · rename_i r w' h1
      simp only [Option.map_eq_some_iff] at h
      obtain ⟨⟨es, a2⟩, h4, h5⟩ := h
      cases h5
      simp [ih h4]
    · cases h

/-- one more call inside the contract -/
theorem Spec.Reach.step (R : Reach mem chk w aw) {op : Op V} {ev : Ev V} {aw' : AWorld V} (hs : astep mem chk aw op = some (ev, aw')) :
    ∃ w', Obs (exec chk op w) ev w' ∧ Reach mem chk w' aw' := by
  obtain ⟨L, rel⟩ := R.rel
  obtain ⟨w', L', h1, -⟩ := step_sim chk rel op hs
  obtain ⟨ops, evs, h2, h3⟩ := R
  exact ⟨w', h1, ops ++ [op], evs ++ [ev], arun_append ops op h2 hs, run_append ops op h3 h1⟩

/-! ## the broken state -/

theorem granted_all {next : Nat} {rs : List Nat} (hm : ∀ k sz, mem k sz = true) : granted mem next rs = rs.length := by
  induction rs generalizing next with
  | nil => rfl
  | cons r rs ih => simp [granted, hm, ih]

theorem allocEmpty_unbroken {next : Nat} {k : Kind} {es : List Ext} (hl : es.length = k.locs.length)
    (h : (∀ k sz, mem k sz = true) ∨ k.locs.length = 1) (es' : List Ext) (g : Nat) :
    (allocEmpty mem next k es : LRes V).arr ≠ .broken es' g := by
  unfold allocEmpty
  split
  · intro h; cases h
  · dsimp only
    split
    · intro h; cases h
    · split
      · intro h; cases h
      · rename_i hg
        split
        · intro h; cases h
        · rename_i hg0
          exfalso
          rcases h with h | h
          · exact hg (granted_all h)
          · obtain ⟨N, locs⟩ := k
            match locs, h, es, hl with
            | [l], _, [e], _ =>
              simp only [mkShape, requests, tables, granted] at hg hg0
              split at hg <;> simp_all

theorem clearStep_unbroken (a : AArr V) (es : List Ext) (g : Nat) : (clearStep a).arr ≠ .broken es g := by
  cases a <;> simp [clearStep]

/-- invariant of safe histories -/
def SafeSt (mem : Nat → Nat → Bool) (aw : AWorld V) : Prop :=
  (∀ x k a, aw.arr x = some (k, a) → ((∀ k sz, mem k sz = true) ∨ k.locs.length = 1) ∧ ∀ es g, a ≠ .broken es g) ∧ aw.leaked = 0

theorem SafeSt.set {aw : AWorld V} (h : SafeSt mem aw) (x : Nat) (b : Option (Kind × AArr V)) (n : Nat)
    (hb : ∀ k a, b = some (k, a) → ((∀ k sz, mem k sz = true) ∨ k.locs.length = 1) ∧ ∀ es g, a ≠ .broken es g) :
    SafeSt mem { aw.set x b with next := n } := by
  refine ⟨fun y k a hy => ?_, h.2⟩
  simp only [AWorld.set] at hy
  split at hy
  · exact hb k a hy
  · exact h.1 y k a hy

theorem astep_safe {aw aw' : AWorld V} {op : Op V} {ev : Ev V} (h : SafeSt mem aw)
    (ho : (∀ k sz, mem k sz = true) ∨
      ∀ x k, (∀ j, op = .make x k j → k.locs.length = 1) ∧ ∀ j es, op = .makeSized x k j es → k.locs.length = 1)
    (hs : astep mem chk aw op = some (ev, aw')) : SafeSt mem aw' := by
  cases op with
  | make x k j =>
    simp only [astep] at hs
    split at hs
    · split at hs
      · cases hs; exact h
      · cases hs
        refine h.set x _ aw.next ?_
        intro k' a hk; cases hk
        exact ⟨ho.imp id (fun h => (h x k).1 j rfl), by simp⟩
    · cases hs
  | makeSized x k j es =>
    have hk1 : (∀ k sz, mem k sz = true) ∨ k.locs.length = 1 := ho.imp id (fun h => (h x k).2 j es rfl)
    simp only [astep] at hs
    split at hs
    · rename_i hc
      have hu : ∀ es' g, (allocEmpty mem aw.next k es : LRes V).arr ≠ .broken es' g := allocEmpty_unbroken hc.2.2.1 hk1
      split at hs
      · cases hs; exact h
      · split at hs
        · cases hs
          refine h.set x _ _ ?_
          intro k' a hk; cases hk
          exact ⟨hk1, hu⟩
        · cases hs
          refine ⟨h.1, ?_⟩
          show aw.leaked + heldBy (allocEmpty mem aw.next k es : LRes V).arr = 0
          rw [h.2]
          cases ha : (allocEmpty mem aw.next k es : LRes V).arr with
          | broken es' g => exact (hu _ _ ha).elim
          | _ => rfl
    · cases hs
  | alloc x es =>
    simp only [astep] at hs
    split at hs
    · cases hs
    · rename_i k a hx
      split at hs
      · rename_i hc; cases hs
        refine h.set x _ _ ?_
        intro k' a' hk; cases hk
        refine ⟨(h.1 x k a hx).1, ?_⟩
        cases a with
        | empty => exact allocEmpty_unbroken hc.1 (h.1 x k _ hx).1
        | ready => simp [allocStep]
        | broken es' g => exact ((h.1 x k _ hx).2 es' g rfl).elim
      · cases hs
  | realloc x es =>
    simp only [astep] at hs
    split at hs
    · cases hs
    · rename_i k a hx
      split at hs
      · rename_i hc; cases hs
        refine h.set x _ _ ?_
        intro k' a' hk; cases hk
        refine ⟨(h.1 x k a hx).1, ?_⟩
        unfold reallocStep
        cases sizeErrs 0 es with
        | some e => exact (h.1 x k a hx).2
        | none =>
          cases a with
          | empty => simp
          | ready => exact allocEmpty_unbroken hc.1 (h.1 x k _ hx).1
          | broken es' g => exact ((h.1 x k _ hx).2 es' g rfl).elim
      · cases hs
  | clear x =>
    simp only [astep] at hs
    split at hs
    · cases hs
    · rename_i k a hx
      cases hs
      refine h.set x _ aw.next ?_
      intro k' a' hk; cases hk
      exact ⟨(h.1 x k a hx).1, clearStep_unbroken a⟩
  | size x =>
    simp only [astep] at hs
    split at hs
    · cases hs
    · cases hs; exact h
  | read x n xs fs =>
    simp only [astep] at hs
    (repeat' split at hs) <;> first | cases hs; done | (cases hs; exact h)
  | copy x y args =>
    simp only [astep] at hs
    split at hs
    · rename_i k es val k' es' val' hx hy
      split at hs
      · split at hs
        · split at hs
          · split at hs
            · cases hs; exact h
            · cases hs
          · cases hs
            refine h.set x _ aw.next ?_
            intro k' a' hk; cases hk
            exact ⟨(h.1 x k _ hx).1, by simp⟩
        · split at hs
          · cases hs; exact h
          · cases hs
      · cases hs
    · cases hs
  | write x n xs fs v =>
    simp only [astep] at hs
    split at hs
    · cases hs
    · rename_i k a hx
      split at hs
      · split at hs
        · cases hs
        · split at hs
          · cases hs; exact h
          · cases hs
        · split at hs
          · cases hs
            refine h.set x _ aw.next ?_
            intro k' a' hk; cases hk
            exact ⟨(h.1 x k _ hx).1, by simp⟩
          · split at hs
            · cases hs; exact h
            · cases hs
      · cases hs
  | destroy x =>
    simp only [astep] at hs
    split at hs
    · cases hs
    · cases hs
      exact h.set x none aw.next (by simp)

theorem arun_safe {ops : List (Op V)} {aw aw' : AWorld V} {evs : List (Ev V)} (h : SafeSt mem aw) (ho : Safe mem ops)
    (hs : arun mem chk ops aw = some (evs, aw')) : SafeSt mem aw' := by
  induction ops generalizing aw evs with
  | nil => cases hs; exact h
  | cons op ops ih =>
    simp only [arun] at hs
    split at hs
    · cases hs
    · rename_i e aw1 h1
      simp only [Option.map_eq_some_iff] at hs
      obtain ⟨⟨es, aw2⟩, h4, h5⟩ := hs
      cases h5
      exact ih (astep_safe h (ho.imp id (fun h => h op (by simp))) h1) (ho.imp id (fun h o ho => h o (by simp [ho]))) h4

theorem allocEmpty_ready {next : Nat} {k : Kind} {es : List Ext} (he : sizeErrs 0 es = none) (hp : points (mkShape es k.locs) ≠ 0)
    (h : (allocEmpty mem next k es : LRes V).err = none) :
    ∃ val, (allocEmpty mem next k es : LRes V).arr = .ready es val := by
  revert h
  unfold allocEmpty
  rw [he]; simp only; rw [if_neg hp]
  split
  · intro _; exact ⟨_, rfl⟩
  · split <;> (intro h; cases h)

theorem Obj.alloc_none (c : Bool) {k o} (h : Heap V) (e : ObjEmpty k o) {es : List Ext} (hs : SizesOk k es)
    (he : sizeErrs 0 es = none) (hp : points (mkShape es k.locs) = 0) : Obj.alloc c k es ⟨h, o⟩ = .ok () ⟨h, o⟩ := by
  have hd := dimsFit_of hs
  obtain ⟨hl, -⟩ := hs
  cases e with
  | @d1 N L0 o e =>
    match es, hl with
    | [e0], _ => exact wrap_ok (D1.PD.alloc_none c e.data (hd e0 (by simp)) he hp)
  | @d2 N L0 L1 o e =>
    match es, hl with
    | [e0, e1], _ => exact wrap_ok (D2.PD.alloc_none c e.data (hd e0 (by simp)) (hd e1 (by simp)) he hp)
  | @d3 N L0 L1 L2 o e =>
    match es, hl with
    | [e0, e1, e2], _ =>
      refine wrap_ok (D3.PD.alloc_none c e.data (hd e0 (by simp)) (hd e1 (by simp)) (hd e2 (by simp)) ?_ he hp)
      simp only [mkShape, points, Nat.mul_one, Nat.mul_eq_zero] at hp
      rcases hp with hp | hp | hp
      · rw [hp]; simp
      · rw [hp]; simp
      · exact .inr hp

theorem astep_leaked {aw aw' : AWorld V} {op : Op V} {ev : Ev V} (hno : ∀ x k j es, op ≠ .makeSized x k j es)
    (hs : astep mem chk aw op = some (ev, aw')) : aw'.leaked = aw.leaked := by
  cases op with
  | makeSized x k j es => exact (hno x k j es rfl).elim
  | _ =>
    simp only [astep] at hs
    (repeat' split at hs) <;> first | (cases hs; done) | (cases hs; rfl)

theorem arun_leaked' {ops : List (Op V)} {aw aw' : AWorld V} {evs : List (Ev V)} (hs : arun mem chk ops aw = some (evs, aw'))
    (hno : ∀ x k j es, Op.makeSized x k j es ∉ ops) : aw'.leaked = aw.leaked := by
  induction ops generalizing aw evs with
  | nil => cases hs; rfl
  | cons op ops ih =>
    simp only [arun] at hs
    split at hs
    · cases hs
    · rename_i e aw1 h1
      simp only [Option.map_eq_some_iff] at hs
      obtain ⟨⟨es, aw2⟩, h4, h5⟩ := hs
      cases h5
      rw [ih h4 (fun x k j es h => hno x k j es (by simp [h]))]
      exact astep_leaked (fun x k j es h => hno x k j es (by simp [h])) h1

theorem arun_leaked {ops : List (Op V)} {aw' : AWorld V} {evs : List (Ev V)} (hs : arun mem chk ops AWorld.init = some (evs, aw'))
    (hno : ∀ x k j es, Op.makeSized x k j es ∉ ops) : aw'.leaked = 0 := arun_leaked' hs hno

end Verif
