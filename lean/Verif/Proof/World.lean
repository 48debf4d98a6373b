import Verif.Proof.Obj
import Verif.Proof.CopyObj
/-!
# Histories follow the abstract machine
-/
namespace Verif
open Spec
variable {V : Type}

/-- blocks of a binding -/
def ownOf : Option (Kind × Obj) → List Nat
  | none => []
  | some (_, o) => o.own

/-- blocks the row pointers of a binding point into -/
def pointsOf : Option (Kind × Obj) → Nat → Prop
  | none, _ => False
  | some (k, o), b => o.Points k b

/-- the binding is an object whose row pointers are set -/
def tiedOf : Option (Kind × Obj) → Prop
  | none => False
  | some (_, o) => o.Tied

/-- how the pointers of a binding may change -/
def MovedOf (next : Nat) (b b' : Option (Kind × Obj)) : Prop :=
  b' = b ∨ tiedOf b' ∨ (∀ c, pointsOf b' c → pointsOf b c) ∧ ∀ c ∈ ownOf b', next ≤ c

theorem Obj.Moved.of {k : Kind} {next : Nat} {o o' : Obj} (h : Obj.Moved k next o o') : MovedOf next (some (k, o)) (some (k, o')) := by
  rcases h with rfl | h | h
  · exact .inl rfl
  · exact .inr (.inl h)
  · exact .inr (.inr h)

theorem MovedOf.none (next : Nat) (b : Option (Kind × Obj)) : MovedOf next b none :=
  .inr (.inr ⟨fun _ h => h.elim, by simp [ownOf]⟩)

/-- a name is bound to an object representing the abstract array -/
inductive BRel (h : Heap V) : Option (Kind × Obj) → Option (Kind × AArr V) → Prop
  | none : BRel h none none
  | some {k o a} (hk : KindOk k) (h0 : k.N ≠ 0) (r : Reps k o h a) : BRel h (some (k, o)) (some (k, a))

/-- The state of a program and the state of the abstract machine correspond; `L` are
the leaked blocks. -/
structure Rel (mem : Nat → Nat → Bool) (w : World V) (aw : AWorld V) (L : List Nat) : Prop where
  mem : w.h.mem = mem
  next : w.h.next = aw.next
  bind : ∀ x, BRel w.h (w.objs x) (aw.arr x)
  disj : ∀ x y, x ≠ y → ∀ b ∈ ownOf (w.objs x), b ∉ ownOf (w.objs y)
  live : ∀ b, (w.h.blk b).isSome → b ∈ L ∨ ∃ x, b ∈ ownOf (w.objs x)
  lt : ∀ b, (w.h.blk b).isSome → b < w.h.next
  leaked : L.length = aw.leaked
  leakNodup : L.Nodup
  leakLive : ∀ b ∈ L, (w.h.blk b).isSome
  leakDisj : ∀ b ∈ L, ∀ x, b ∉ ownOf (w.objs x)
  stale : ∀ x b, pointsOf (w.objs x) b → tiedOf (w.objs x) ∨ (w.h.blk b = none ∧ b < w.h.next)

theorem BRel.congr {h h' : Heap V} {b : Option (Kind × Obj)} {a : Option (Kind × AArr V)} (r : BRel h b a)
    (hb : ∀ c ∈ ownOf b, h'.blk c = h.blk c) : BRel h' b a := by
  cases r with
  | none => exact .none
  | some hk h0 r => exact .some hk h0 (r.congr hb)

theorem BRel.live {h : Heap V} {b : Option (Kind × Obj)} {a : Option (Kind × AArr V)} (r : BRel h b a) :
    ∀ c ∈ ownOf b, (h.blk c).isSome := by
  cases r with
  | none => simp [ownOf]
  | some hk h0 r => exact r.live

theorem BRel.tied {h : Heap V} {b : Option (Kind × Obj)} {a : Option (Kind × AArr V)} (r : BRel h b a) (t : tiedOf b) {c : Nat}
    (p : pointsOf b c) : c ∈ ownOf b := by
  cases r with
  | none => exact t.elim
  | some hk h0 r =>
    cases r with
    | empty e => exact (e.loose t).elim
    | ready r => exact r.points p
    | broken r => exact (r.loose t).elim

theorem Rel.init (mem : Nat → Nat → Bool) : Rel mem (World.init mem : World V) AWorld.init [] :=
  ⟨rfl, rfl, fun _ => .none, by simp [World.init, ownOf], by simp [World.init], by simp [World.init], rfl, by simp, by simp, by simp,
    fun _ _ h => h.elim⟩

variable {mem : Nat → Nat → Bool} {w : World V} {aw : AWorld V} {L : List Nat}

theorem Rel.own_lt (R : Rel mem w aw L) {x b : Nat} (hb : b ∈ ownOf (w.objs x)) : b < w.h.next :=
  R.lt b ((R.bind x).live b hb)

/-- One object takes a step, ending in binding `b'`; blocks `E` are left without owner. -/
theorem Rel.update (R : Rel mem w aw L) (x : Nat) {h' : Heap V} {b' : Option (Kind × Obj)} {a' : Option (Kind × AArr V)} {E : List Nat}
    (st : Step w.h (ownOf (w.objs x)) h' (ownOf b' ++ E)) (br : BRel h' b' a')
    (hE : ∀ b ∈ E, b ∉ ownOf (w.objs x) ∧ b ∉ ownOf b' ∧ (h'.blk b).isSome) (hEd : E.Nodup)
    (hm : MovedOf w.h.next (w.objs x) b') :
    Rel mem (w.put x h' b') { aw.set x a' with next := h'.next, leaked := aw.leaked + E.length } (E ++ L) := by
  have fr : ∀ y, y ≠ x → ∀ b ∈ ownOf (w.objs y), b ∉ ownOf b' ++ E ∧ h'.blk b = w.h.blk b := by
    intro y hy b hb
    have h1 := R.disj y x hy b hb
    have h2 : b ∉ ownOf b' ++ E := by
      intro h3
      rcases st.fresh b h3 with h4 | h4
      · exact h1 h4
      · have := R.own_lt hb; omega
    exact ⟨h2, st.frame b h1 h2⟩
  have frL : ∀ b ∈ L, b ∉ ownOf b' ++ E ∧ h'.blk b = w.h.blk b := by
    intro b hb
    have h1 := R.leakDisj b hb x
    have h2 : b ∉ ownOf b' ++ E := by
      intro h3
      rcases st.fresh b h3 with h4 | h4
      · exact h1 h4
      · have := R.lt b (R.leakLive b hb); omega
    exact ⟨h2, st.frame b h1 h2⟩
  have own' : ∀ y, ownOf ((w.put x h' b').objs y) = if y = x then ownOf b' else ownOf (w.objs y) := by
    intro y; simp only [World.put]; split <;> rfl
  refine ⟨by simp [World.put, st.mem, R.mem], rfl, ?_, ?_, ?_, ?_, by simp [R.leaked, Nat.add_comm], ?_, ?_, ?_, ?_⟩
  · intro y
    by_cases hy : y = x
    · subst hy; simpa [World.put, AWorld.set] using br
    · simp only [World.put, AWorld.set, if_neg hy]
      exact (R.bind y).congr (fun c hc => (fr y hy c hc).2)
  · intro y z hyz b hb
    rw [own'] at hb ⊢
    by_cases hy : y = x
    · subst hy
      rw [if_pos rfl] at hb
      rw [if_neg hyz.symm]
      intro h3
      exact (fr z hyz.symm b h3).1 (by simp [hb])
    · rw [if_neg hy] at hb
      by_cases hz : z = x
      · subst hz; rw [if_pos rfl]
        intro h3; exact (fr y hy b hb).1 (by simp [h3])
      · rw [if_neg hz]; exact R.disj y z hyz b hb
  · intro b hb
    simp only [World.put] at hb
    by_cases h1 : b ∈ ownOf b'
    · exact .inr ⟨x, by rw [own', if_pos rfl]; exact h1⟩
    · by_cases h2 : b ∈ E
      · exact .inl (by simp [h2])
      · have h12 : b ∉ ownOf b' ++ E := by simp [h1, h2]
        by_cases h3 : b ∈ ownOf (w.objs x)
        · rw [st.freed b h3 h12] at hb; simp at hb
        · rw [st.frame b h3 h12] at hb
          rcases R.live b hb with h4 | ⟨y, h4⟩
          · exact .inl (by simp [h4])
          · refine .inr ⟨y, ?_⟩
            have : y ≠ x := by rintro rfl; exact h3 h4
            rw [own', if_neg this]; exact h4
  · intro b hb
    simp only [World.put] at hb ⊢
    by_cases h12 : b ∈ ownOf b' ++ E
    · rcases st.fresh b h12 with h4 | h4
      · have := R.own_lt h4; have := st.next; omega
      · exact h4.2
    · by_cases h3 : b ∈ ownOf (w.objs x)
      · rw [st.freed b h3 h12] at hb; simp at hb
      · rw [st.frame b h3 h12] at hb
        have := R.lt b hb; have := st.next; omega
  · rw [List.nodup_append]
    exact ⟨hEd, R.leakNodup, fun a ha b hb hab => (frL b hb).1 (by simp [← hab, ha])⟩
  · intro b hb
    simp only [World.put]
    rcases List.mem_append.1 hb with hb | hb
    · exact (hE b hb).2.2
    · rw [(frL b hb).2]; exact R.leakLive b hb
  · intro b hb y
    rw [own']
    rcases List.mem_append.1 hb with hb | hb
    · by_cases hy : y = x
      · subst hy; rw [if_pos rfl]; exact (hE b hb).2.1
      · rw [if_neg hy]; intro h3; exact (fr y hy b h3).1 (by simp [hb])
    · by_cases hy : y = x
      · subst hy; rw [if_pos rfl]; intro h3; exact (frL b hb).1 (by simp [h3])
      · rw [if_neg hy]; exact R.leakDisj b hb y
  · have dead : ∀ b, w.h.blk b = none → b < w.h.next → h'.blk b = none ∧ b < h'.next := by
      intro b h1 h2
      have h3 : b ∉ ownOf (w.objs x) := fun h3 => by have := (R.bind x).live b h3; rw [h1] at this; simp at this
      have h4 : b ∉ ownOf b' ++ E := by
        intro h4
        rcases st.fresh b h4 with h5 | h5
        · exact h3 h5
        · omega
      exact ⟨by rw [st.frame b h3 h4, h1], Nat.lt_of_lt_of_le h2 st.next⟩
    intro y b hb
    simp only [World.put] at hb ⊢
    by_cases hy : y = x
    · subst hy
      rw [if_pos rfl] at hb ⊢
      rcases hm with rfl | h1 | ⟨h1, h1'⟩
      · exact (R.stale y b hb).imp_right fun h => dead b h.1 h.2
      · exact .inl h1
      · rcases R.stale y b (h1 b hb) with h2 | h2
        · have h3 := (R.bind y).tied h2 (h1 b hb)
          have h4 := R.own_lt h3
          have h5 : b ∉ ownOf b' ++ E := by
            intro h5
            rcases List.mem_append.1 h5 with h5 | h5
            · have := h1' b h5; omega
            · exact (hE b h5).1 h3
          exact .inr ⟨st.freed b h3 h5, Nat.lt_of_lt_of_le h4 st.next⟩
        · exact .inr (dead b h2.1 h2.2)
    · rw [if_neg hy] at hb ⊢
      exact (R.stale y b hb).imp_right fun h => dead b h.1 h.2

theorem null_points {k : Kind} {o : Obj} (h : ∀ n < k.N, o.row n = .null) {b : Nat} (p : pointsOf (some (k, o)) b) : False := by
  obtain ⟨n, hn, off, e⟩ := p
  rw [h n hn] at e; cases e

/-- the usual case: nothing is left behind -/
theorem Rel.update' (R : Rel mem w aw L) (x : Nat) {h' : Heap V} {b' : Option (Kind × Obj)} {a' : Option (Kind × AArr V)} {n' : Nat}
    (st : Step w.h (ownOf (w.objs x)) h' (ownOf b')) (br : BRel h' b' a') (hn : h'.next = n')
    (hm : MovedOf w.h.next (w.objs x) b') :
    Rel mem (w.put x h' b') { aw.set x a' with next := n' } L := by
  have := R.update x (E := []) (by simpa using st) br (by simp) (by simp) hm
  subst hn
  exact this

/-- the outcome of a call as an observation -/
def Obs (r : Res (World V) (Ret V)) (ev : Ev V) (w' : World V) : Prop :=
  match ev with
  | .ret v => r = .ok v w'
  | .exn e => r = .err e w'

theorem call_does {f : Kind → M (St V Obj) Unit} {x : Nat} {k : Kind} {o : Obj} (hb : w.objs x = some (k, o)) {r : LRes V}
    (hd : Does (f k) k w.h o r) (R : Rel mem w aw L) (hk : KindOk k) (h0 : k.N ≠ 0) :
    ∃ w', Obs ((do World.call x f; pure .unit : M (World V) (Ret V)) w) (evOf r.err) w' ∧
      Rel mem w' { aw.set x (some (k, r.arr)) with next := aw.next + r.used } L := by
  obtain ⟨h', o', h1, h2, h3, h4, h5⟩ := hd
  refine ⟨w.put x h' (some (k, o')), ?_,
    R.update' x (by rw [hb]; exact h3) (.some hk h0 h2) (by rw [h4, R.next]) (by rw [hb]; exact h5.of)⟩
  have : World.call x f w = Res.ofErr r.err (w.put x h' (some (k, o'))) := by
    unfold World.call; rw [hb]; simp only; rw [h1]; cases r.err <;> rfl
  cases he : r.err with
  | none => rw [he] at this; simp only [evOf, Obs]; rw [M.bind_ok this]; rfl
  | some e => rw [he] at this; simp only [evOf, Obs]; rw [M.bind_err this]

theorem set_next_self (aw : AWorld V) (x : Nat) (b : Option (Kind × AArr V)) :
    { aw.set x b with next := aw.next } = aw.set x b := rfl

theorem set_same (aw : AWorld V) {x : Nat} {b : Option (Kind × AArr V)} (h : aw.arr x = b) : aw.set x b = aw := by
  obtain ⟨arr, n, l⟩ := aw
  simp only [AWorld.set, AWorld.mk.injEq, and_true]
  funext y; split
  · rename_i hy; subst hy; exact h.symm
  · rfl

theorem put_same (w : World V) {x : Nat} {b : Option (Kind × Obj)} (h : w.objs x = b) : w.put x w.h b = w := by
  obtain ⟨hp, objs⟩ := w
  simp only [World.put, World.mk.injEq, true_and]
  funext y; split
  · rename_i hy; subst hy; exact h.symm
  · rfl

theorem Rel.arr_some (R : Rel mem w aw L) {x : Nat} {k : Kind} {a : AArr V} (h : aw.arr x = some (k, a)) :
    ∃ o, w.objs x = some (k, o) ∧ KindOk k ∧ k.N ≠ 0 ∧ Reps k o w.h a := by
  have hb := R.bind x
  generalize hw : w.objs x = b at hb
  rw [h] at hb
  cases hb with
  | some hk h0 r => exact ⟨_, rfl, hk, h0, r⟩

theorem Rel.arr_none (R : Rel mem w aw L) {x : Nat} (h : aw.arr x = none) : w.objs x = none := by
  have hb := R.bind x
  generalize hw : w.objs x = b at hb
  rw [h] at hb
  cases hb with
  | none => rfl

theorem construct_ok {f : Kind → M (St V Obj) Unit} {x : Nat} {k : Kind} {junk : Nat → Ptr} (hx : w.objs x = none) {h' : Heap V} {o' : Obj}
    (h1 : f k ⟨w.h, Obj.raw k junk⟩ = .ok () ⟨h', o'⟩) :
    (do World.construct x k junk f; pure .unit : M (World V) (Ret V)) w = .ok .unit (w.put x h' (some (k, o'))) := by
  have : World.construct x k junk f w = .ok () (w.put x h' (some (k, o'))) := by
    unfold World.construct; rw [hx]; simp only; rw [h1]
  rw [M.bind_ok this]; rfl

theorem construct_err {f : Kind → M (St V Obj) Unit} {x : Nat} {k : Kind} {junk : Nat → Ptr} (hx : w.objs x = none) {h' : Heap V} {o' : Obj} {e : Err}
    (h1 : f k ⟨w.h, Obj.raw k junk⟩ = .err e ⟨h', o'⟩) :
    (do World.construct x k junk f; pure .unit : M (World V) (Ret V)) w = .err e (w.put x h' none) := by
  have : World.construct x k junk f w = .err e (w.put x h' none) := by
    unfold World.construct; rw [hx]; simp only; rw [h1]
  rw [M.bind_err this]

/-- reading an element -/
theorem access_read (chk : Bool) {x : Nat} {k : Kind} {o : Obj} (hb : w.objs x = some (k, o)) {es : List Ext} {val : Nat → List Int → Option V}
    (r : Reps k o w.h (.ready es val)) {n : Nat} {xs : List Int} {fs : List FL}
    (hx : xs.length = k.locs.length) (hf : fs.length = k.locs.length)
    (ha : accessErr k.N (mkShape es k.locs) n xs fs = none) :
    exec chk (.read x n xs fs) w = .ok (.val (val n (point xs fs))) w := by
  cases r with
  | @ready _ _ B cell r fits pos vals =>
    obtain ⟨h1, h2, h3⟩ := Obj.at_ok chk r fits hx hf ha
    have h4 : (do let p ← o.at_ chk k n xs fs; Heap.loadV p : M (Heap V) (Option V)) w.h = .ok (val n (point xs fs)) w.h := by
      rw [M.bind_ok h1, Heap.loadV_at r.blk (addr_lt h2 h3), vals n h2 _ h3]
    have : World.access x (fun k o => do let p ← o.at_ chk k n xs fs; Heap.loadV p) w = .ok (val n (point xs fs)) w := by
      unfold World.access; rw [hb]; simp only; rw [h4]
    show ((World.access x _ >>= _) w) = _
    rw [M.bind_ok this]; rfl

/-- an access refused by the checks -/
theorem access_err {α : Type} (g : Ptr → M (Heap V) α) (q : α → Ret V) {x : Nat} {k : Kind} {o : Obj} (hb : w.objs x = some (k, o)) {n : Nat} {xs : List Int} {fs : List FL} {e : Err} {chk : Bool}
    (h1 : o.at_ chk k n xs fs w.h = .err e w.h) :
    (do let v ← World.access x (fun k o => do let p ← o.at_ chk k n xs fs; g p); pure (q v) : M (World V) (Ret V)) w = .err e w := by
  have : World.access x (fun k o => do let p ← o.at_ chk k n xs fs; g p) w = .err e w := by
    unfold World.access; rw [hb]; simp only; rw [M.bind_err h1]
  rw [M.bind_err this]

/-- the write of one element as a change of the representation -/
theorem Reps.write {k : Kind} {o : Obj} {h : Heap V} {es : List Ext} {val : Nat → List Int → Option V} (chk : Bool)
    (r : Reps k o h (.ready es val)) {n : Nat} {xs : List Int} {fs : List FL}
    (hx : xs.length = k.locs.length) (hf : fs.length = k.locs.length)
    (ha : accessErr k.N (mkShape es k.locs) n xs fs = none) (v : V) :
    ∃ h', (do let p ← o.at_ chk k n xs fs; Heap.storeV p (some v) : M (Heap V) Unit) h = .ok () h' ∧
      Reps k o h' (.ready es fun m ys => if m = n ∧ ys = point xs fs then some v else val m ys) ∧
      Step h o.own h' o.own ∧ h'.next = h.next := by
  cases r with
  | @ready _ _ B cell r fits pos vals =>
    obtain ⟨h1, h2, h3⟩ := Obj.at_ok chk r fits hx hf ha
    refine ⟨_, by rw [M.bind_ok h1, Heap.storeV_at r.blk (addr_lt h2 h3)], .ready (r.write _) fits pos ?_, ?_, rfl⟩
    · intro m hm ys hys
      by_cases h4 : m = n ∧ ys = point xs fs
      · obtain ⟨rfl, rfl⟩ := h4; simp
      · rw [if_neg h4, if_neg, vals m hm ys hys]
        intro h5
        exact h4 (addr_inj hys h3 h5)
    · refine ⟨rfl, Nat.le_refl _, ?_, fun b h4 h5 => (h5 h4).elim, fun b h4 => .inl h4⟩
      intro b h4 _
      exact Heap.upd_blk_ne _ _ (by rintro rfl; exact h4 r.mem_own)

theorem access_write (chk : Bool) {x : Nat} {k : Kind} {o : Obj} (hb : w.objs x = some (k, o)) {n : Nat} {xs : List Int} {fs : List FL} {v : V} {h' : Heap V}
    (h1 : (do let p ← o.at_ chk k n xs fs; Heap.storeV p (some v) : M (Heap V) Unit) w.h = .ok () h') :
    exec chk (.write x n xs fs v) w = .ok .unit (w.put x h' (some (k, o))) := by
  have e : w.put x h' (some (k, o)) = { w with h := h' } := by
    simp only [World.put, World.mk.injEq, true_and]
    funext y; split
    · rename_i hy; subst hy; exact hb.symm
    · rfl
  have : World.access x (fun k o => do let p ← o.at_ chk k n xs fs; Heap.storeV p (some v)) w = .ok () { w with h := h' } := by
    unfold World.access; rw [hb]; simp only; rw [h1]
  show ((World.access x _ >>= _) w) = _
  rw [M.bind_ok this, e]; rfl

theorem allocEmpty_err {next : Nat} {k : Kind} {es : List Ext} {e : Err}
    (he : (allocEmpty mem next k es : LRes V).err = some e) (es' : List Ext) (val : Nat → List Int → Option V) :
    (allocEmpty mem next k es : LRes V).arr ≠ .ready es' val := by
  revert he
  unfold allocEmpty
  split
  · intro _ h; cases h
  · dsimp only
    split
    · intro _ h; cases h
    · split
      · intro h; cases h
      · split
        · intro _ h; cases h
        · intro _ h; cases h

theorem copy_run (chk : Bool) {x y : Nat} {k : Kind} {o pd : Obj} (hx : w.objs x = some (k, o)) (hy : w.objs y = some (k, pd))
    {args : Obj.CopyArgs} {ev : Ev V} {h' : Heap V}
    (h1 : match ev with
      | .ret .unit => Obj.copy chk k o pd (decide (x = y)) args w.h = .ok () h'
      | .exn e => Obj.copy chk k o pd (decide (x = y)) args w.h = .err e h'
      | _ => False) :
    Obs (exec chk (.copy x y args) w) ev (w.put x h' (some (k, o))) := by
  have e : w.put x h' (some (k, o)) = { w with h := h' } := by
    simp only [World.put, World.mk.injEq, true_and]
    funext z; split
    · rename_i hz; subst hz; exact hx.symm
    · rfl
  rw [e]
  match ev, h1 with
  | .ret .unit, h1 =>
    have : World.copy chk x y args w = .ok () { w with h := h' } := by
      unfold World.copy; rw [hx, hy]; simp only [if_true]; rw [h1]
    show (World.copy chk x y args >>= _) w = _
    rw [M.bind_ok this]; rfl
  | .exn er, h1 =>
    have : World.copy chk x y args w = .err er { w with h := h' } := by
      unfold World.copy; rw [hx, hy]; simp only [if_true]; rw [h1]
    show (World.copy chk x y args >>= _) w = _
    rw [M.bind_err this]

/-- every call follows the abstract machine -/
theorem step_sim (chk : Bool) (R : Rel mem w aw L) (op : Op V) {ev : Ev V} {aw' : AWorld V} (hs : astep mem chk aw op = some (ev, aw')) :
    ∃ w' L', Obs (exec chk op w) ev w' ∧ Rel mem w' aw' L' := by
  cases op with
  | make x k junk =>
    simp only [astep] at hs
    split at hs
    · rename_i hc
      have hx := R.arr_none (Option.isNone_iff_eq_none.1 hc.1)
      have t := Typed.raw hc.2 junk
      split at hs
      · rename_i h0; cases hs
        refine ⟨w, L, ?_, R⟩
        have := construct_err (f := Obj.ctor0) hx (Obj.ctor0_zero t w.h h0)
        rw [put_same w hx] at this
        exact this
      · rename_i h0; cases hs
        obtain ⟨o', h1, h2, h3p⟩ := Obj.ctor0_eq t w.h hc.2.2 h0
        refine ⟨_, L, construct_ok (f := Obj.ctor0) hx h1, ?_⟩
        refine R.update' x ?_ (.some hc.2 h0 (.empty h2)) R.next (.inr (.inr ⟨fun b hb => (null_points h3p hb).elim, by simp [ownOf, h2.own]⟩))
        rw [hx]; simp only [ownOf, h2.own]; exact Step.refl _ _
    · cases hs
  | makeSized x k junk es =>
    simp only [astep] at hs
    split at hs
    · rename_i hc
      obtain ⟨hc1, hc2, hc3⟩ := hc
      have hx := R.arr_none (Option.isNone_iff_eq_none.1 hc1)
      have t := Typed.raw hc2 junk
      split at hs
      · rename_i h0; cases hs
        refine ⟨w, L, ?_, R⟩
        have e : Obj.ctor chk k es ⟨w.h, Obj.raw k junk⟩ = .err .nZero ⟨w.h, Obj.raw k junk⟩ := by
          rw [Obj.ctor_eq chk t w.h hc3.1, M.bind_err (Obj.ctor0_zero t w.h h0)]
        have := construct_err (f := fun k => Obj.ctor chk k es) hx e
        rw [put_same w hx] at this
        exact this
      · rename_i h0
        obtain ⟨o', h1, h2, h3p⟩ := Obj.ctor0_eq t w.h hc2.2 h0
        obtain ⟨h'', o'', d1, d2, d3, d4, d5⟩ := Obj.alloc_empty chk w.h h2 hc2.2 h0 hc3
        rw [R.mem, R.next] at d1 d2 d4
        rw [h2.own] at d3
        have e : Obj.ctor chk k es ⟨w.h, Obj.raw k junk⟩ = Obj.alloc chk k es ⟨w.h, o'⟩ := by
          rw [Obj.ctor_eq chk t w.h hc3.1, M.bind_ok h1]
        generalize hr : (allocEmpty mem aw.next k es : LRes V) = r at *
        cases he : r.err with
        | none =>
          rw [he] at hs d1; simp only [Option.some.injEq, Prod.mk.injEq] at hs
          obtain ⟨rfl, rfl⟩ := hs
          refine ⟨_, L, construct_ok (f := fun k => Obj.ctor chk k es) hx (e.trans d1), ?_⟩
          refine R.update' x ?_ (.some hc2 h0 d2) d4 ?_
          on_goal 2 =>
            rcases d5 with rfl | h | ⟨h, h'⟩
            · exact .inr (.inr ⟨fun b hb => (null_points h3p hb).elim, by simp [ownOf, h2.own]⟩)
            · exact .inr (.inl h)
            · exact .inr (.inr ⟨fun b hb => (null_points h3p (h b hb)).elim, h'⟩)
          rw [hx]; exact d3
        | some er =>
          rw [he] at hs d1; simp only [Option.some.injEq, Prod.mk.injEq] at hs
          obtain ⟨rfl, rfl⟩ := hs
          refine ⟨_, o''.own ++ L, construct_err (f := fun k => Obj.ctor chk k es) hx (e.trans d1), ?_⟩
          have hlen : o''.own.Nodup ∧ o''.own.length = heldBy r.arr := by
            have hnr : ∀ es' val, r.arr ≠ .ready es' val := by
              rw [← hr] at he ⊢; exact allocEmpty_err he
            generalize r.arr = ra at *
            cases d2 with
            | empty e => simp [e.own, heldBy]
            | ready => exact (hnr _ _ rfl).elim
            | broken r => simpa [heldBy] using r.nodup
          have := R.update x (h' := h'') (b' := none) (a' := none) (E := o''.own)
            (by rw [hx]; simpa [ownOf] using d3) .none (by rw [hx]; intro b hb; exact ⟨by simp [ownOf], by simp [ownOf], d2.live b hb⟩) hlen.1
            (.none _ _)
          rw [hlen.2, set_same aw (Option.isNone_iff_eq_none.1 hc1), d4] at this
          exact this
    · cases hs
  | alloc x es =>
    simp only [astep] at hs
    split at hs
    · cases hs
    · rename_i k a hx
      obtain ⟨o, hb, hk, h0, r⟩ := R.arr_some hx
      split at hs
      · rename_i hz; cases hs
        have hd := Obj.alloc_does chk r hk.2 h0 hz
        rw [R.mem, R.next] at hd
        obtain ⟨w', h1, h2⟩ := call_does (f := fun k => Obj.alloc chk k es) hb hd R hk h0
        exact ⟨w', L, h1, h2⟩
      · cases hs
  | realloc x es =>
    simp only [astep] at hs
    split at hs
    · cases hs
    · rename_i k a hx
      obtain ⟨o, hb, hk, h0, r⟩ := R.arr_some hx
      split at hs
      · rename_i hz; cases hs
        have hd := Obj.realloc_does chk r hk.2 h0 hz
        rw [R.mem, R.next] at hd
        obtain ⟨w', h1, h2⟩ := call_does (f := fun k => Obj.realloc chk k es) hb hd R hk h0
        exact ⟨w', L, h1, h2⟩
      · cases hs
  | clear x =>
    simp only [astep] at hs
    split at hs
    · cases hs
    · rename_i k a hx
      obtain ⟨o, hb, hk, h0, r⟩ := R.arr_some hx
      cases hs
      have hd := Obj.clear_does r hk.2
      obtain ⟨w', h1, h2⟩ := call_does (f := Obj.clear) hb hd R hk h0
      refine ⟨w', L, h1, ?_⟩
      have : (clearStep a).used = 0 := by cases a <;> rfl
      rw [this] at h2; exact h2
  | size x =>
    simp only [astep] at hs
    split at hs
    · cases hs
    · rename_i k a hx
      obtain ⟨o, hb, hk, h0, r⟩ := R.arr_some hx
      cases hs
      refine ⟨w, L, ?_, R⟩
      have : World.access x (fun _ o => (pure o.sizes : M (Heap V) _)) w = .ok o.sizes w := by
        unfold World.access; rw [hb]; rfl
      simp only [Obs, exec]
      rw [M.bind_ok this, r.sizes]; rfl
  | read x n xs fs =>
    simp only [astep] at hs
    split at hs
    · cases hs
    · rename_i k a hx
      obtain ⟨o, hb, hk, h0, r⟩ := R.arr_some hx
      split at hs
      · rename_i hl
        split at hs
        · cases hs
        · split at hs
          · rename_i hchk; cases hs; subst hchk
            refine ⟨w, L, ?_, R⟩
            cases r with
            | empty e => exact access_err _ _ hb (Obj.at_empty e w.h hl.1 hl.2)
          · cases hs
        · rename_i es val
          split at hs
          · rename_i ha; cases hs
            exact ⟨w, L, access_read chk hb r hl.1 hl.2 ha, R⟩
          · rename_i e ha
            split at hs
            · rename_i hchk; cases hs; subst hchk
              refine ⟨w, L, ?_, R⟩
              cases r with
              | ready r f p v => exact access_err _ _ hb (Obj.at_reject r f hl.1 hl.2 ha)
            · cases hs
      · cases hs
  | write x n xs fs v =>
    simp only [astep] at hs
    split at hs
    · cases hs
    · rename_i k a hx
      obtain ⟨o, hb, hk, h0, r⟩ := R.arr_some hx
      split at hs
      · rename_i hl
        split at hs
        · cases hs
        · split at hs
          · rename_i hchk; cases hs; subst hchk
            refine ⟨w, L, ?_, R⟩
            cases r with
            | empty e => exact access_err _ (fun _ => .unit) hb (Obj.at_empty e w.h hl.1 hl.2)
          · cases hs
        · rename_i es val
          split at hs
          · rename_i ha; cases hs
            obtain ⟨h', h1, h2, h3, h4⟩ := r.write chk hl.1 hl.2 ha v
            refine ⟨_, L, access_write chk hb h1, ?_⟩
            refine R.update' x (by rw [hb]; exact h3) (.some hk h0 h2) (by rw [h4, R.next]) (by rw [hb]; exact .inl rfl)
          · rename_i e ha
            split at hs
            · rename_i hchk; cases hs; subst hchk
              refine ⟨w, L, ?_, R⟩
              cases r with
              | ready r f p v => exact access_err _ (fun _ => .unit) hb (Obj.at_reject r f hl.1 hl.2 ha)
            · cases hs
      · cases hs
  | copy x y args =>
    simp only [astep] at hs
    split at hs
    swap
    · cases hs
    rename_i k es val k' es' val' hx hy
    split at hs
    swap
    · cases hs
    rename_i hc
    obtain ⟨rfl, ok⟩ := hc
    obtain ⟨o, hbx, hk, h0, r⟩ := R.arr_some hx
    obtain ⟨pd, hby, -, -, r'⟩ := R.arr_some hy
    cases r with | @ready _ _ B c r fits pos vals =>
    cases r' with | @ready _ _ B' c' r' fits' pos' vals' =>
    have ap : if decide (x = y) = true then o = pd ∧ es = es' else B ∉ pd.own := by
      by_cases e : x = y
      · subst e
        rw [hbx] at hby; rw [hx] at hy
        cases hby; cases hy
        simp
      · simp only [e, decide_false, Bool.false_eq_true, if_false]
        have := R.disj x y e B (by rw [hbx]; exact r.mem_own)
        rwa [hby] at this
    obtain ⟨c1, c2, c3⟩ := Obj.copy_ok chk r r' ap fits fits' hk.2 ok
    have same : w.put x w.h (some (k', o)) = w := put_same w hbx
    split at hs
    · rename_i ho
      split at hs
      · rename_i hcl
        split at hs
        · rename_i hchk; cases hs
          refine ⟨w, L, ?_, R⟩
          have := copy_run chk hbx hby (ev := .exn .copyOverlap) (c2 ho (by simpa using hcl.1) hcl.2 hchk)
          rwa [same] at this
        · cases hs
      · rename_i hcl; cases hs
        obtain ⟨h', c4, g1, g2, g3, g4, g5, g6⟩ := c3 ho (fun e h => hcl ⟨by simpa using e, h⟩)
        refine ⟨_, L, copy_run chk hbx hby (ev := .ret .unit) g1, ?_⟩
        refine R.update' x (h' := h') ?_ (.some hk h0 (.ready g2 fits pos ?_)) (by rw [g3, R.next])
          (by rw [hbx]; exact .inl rfl)
        · rw [hbx]
          refine ⟨g4, by omega, fun b h4 _ => g5 b (by rintro rfl; exact h4 r.mem_own), fun b h4 h5 => (h5 h4).elim, fun b h4 => .inl h4⟩
        · intro n hn ys hys
          rw [g6 n hn ys hys]
          split
          · rename_i hw
            obtain ⟨l1, l2, l3, l4⟩ := copyPlan_len r.len r'.len ok.1
            exact vals' n hn _ (writes_from r'.len l1 l3 l4 ok.2.2.1 hw)
          · exact vals n hn ys hys
    · rename_i ho
      split at hs
      · rename_i hchk; cases hs
        refine ⟨w, L, ?_, R⟩
        have := copy_run chk hbx hby (ev := .exn .overlapNotFound) (c1 ho hchk)
        rwa [same] at this
      · cases hs
  | destroy x =>
    simp only [astep] at hs
    split at hs
    · cases hs
    · rename_i ka hx
      obtain ⟨k, a⟩ := ka
      obtain ⟨o, hb, hk, h0, r⟩ := R.arr_some hx
      cases hs
      obtain ⟨h', o', h1, h2, h3, h4, h5⟩ := Obj.dtor_does r hk.2
      refine ⟨w.put x h' none, L, ?_, ?_⟩
      · have : World.remove x w = .ok () (w.put x h' none) := by
          unfold World.remove; rw [hb]; simp only; rw [h1]; rfl
        simp only [Obs, exec]
        rw [M.bind_ok this]; rfl
      · rw [h2.own_empty] at h3
        exact R.update' x (by rw [hb]; exact h3) .none (by rw [h4, R.next]; rfl) (.none _ _)

/-- whole histories follow the abstract machine -/
theorem run_sim (chk : Bool) (ops : List (Op V)) {w : World V} {aw : AWorld V} {L : List Nat} (R : Rel mem w aw L) {evs : List (Ev V)} {aw' : AWorld V}
    (hs : arun mem chk ops aw = some (evs, aw')) :
    ∃ w' L', run chk ops w = some (evs, w') ∧ Rel mem w' aw' L' := by
  induction ops generalizing w aw L evs with
  | nil => cases hs; exact ⟨w, L, rfl, R⟩
  | cons op ops ih =>
    unfold arun at hs
    split at hs
    · cases hs
    · rename_i e aw1 h1
      obtain ⟨w1, L1, h2, h3⟩ := step_sim chk R op h1
      simp only [Option.map_eq_some_iff] at hs
      obtain ⟨⟨es, aw2⟩, h4, h5⟩ := hs
      cases h5
      obtain ⟨w2, L2, h6, h7⟩ := ih h3 h4
      refine ⟨w2, L2, ?_, h7⟩
      unfold run
      cases e with
      | ret r => simp only [Obs] at h2; rw [h2]; simp [h6]
      | exn r => simp only [Obs] at h2; rw [h2]; simp [h6]

end Verif
