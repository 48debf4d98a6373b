import Verif.Proof.World
/-!
# Valid accesses, reachable states
-/
namespace Verif
open Spec
variable {V : Type} {mem : Nat → Nat → Bool} {chk : Bool} {w : World V} {aw : AWorld V}

theorem flagErrs_none {es : List Ext} {locs : List Loc} {fs : List FL} (he : es.length = locs.length)
    (hf : fs.length = locs.length) (d : Nat) :
    flagErrs d (mkShape es locs) fs = none ↔ FlagsFit locs fs := by
  induction locs generalizing es fs d with
  | nil =>
    match es, fs, he, hf with
    | [], [], _, _ => simp [mkShape, flagErrs, FlagsFit]
  | cons l locs ih =>
    match es, fs, he, hf with
    | e :: es, f :: fs, he, hf =>
      simp only [mkShape, flagErrs, FlagsFit]
      rw [← ih (es := es) (by simpa using he) (by simpa using hf) (d + 1)]
      split <;> simp_all

theorem rangeErrs_none {es : List Ext} {locs : List Loc} {xs : List Int} {fs : List FL} (he : es.length = locs.length)
    (hx : xs.length = locs.length) (hf : fs.length = locs.length) (d : Nat) :
    rangeErrs d (mkShape es locs) xs fs = none ↔ HasPt (mkShape es locs) (point xs fs) := by
  induction locs generalizing es xs fs d with
  | nil =>
    match es, xs, fs, he, hx, hf with
    | [], [], [], _, _, _ => simp [mkShape, rangeErrs, HasPt, point]
  | cons l locs ih =>
    match es, xs, fs, he, hx, hf with
    | e :: es, x :: xs, f :: fs, he, hx, hf =>
      simp only [mkShape, rangeErrs, HasPt, point]
      rw [← ih (es := es) (xs := xs) (fs := fs) (by simpa using he) (by simpa using hx) (by simpa using hf) (d + 1)]
      split <;> simp_all

/-- the access checks accept exactly the valid accesses -/
theorem accessErr_none {k : Kind} {es : List Ext} {n : Nat} {xs : List Int} {fs : List FL} (he : es.length = k.locs.length)
    (hx : xs.length = k.locs.length) (hf : fs.length = k.locs.length) :
    accessErr k.N (mkShape es k.locs) n xs fs = none ↔ Valid k es n xs fs := by
  have h1 := flagErrs_none he hf 0
  have h2 := rangeErrs_none he hx hf 0
  unfold accessErr
  constructor
  · intro h
    split at h
    · cases h
    · rename_i hn
      split at h
      · cases h
      · rename_i h3
        exact ⟨hx, by omega, h1.1 h3, h2.1 h⟩
  · intro v
    rw [if_neg (by have := v.comp; omega), h1.2 v.flags]
    exact h2.2 v.pt

theorem FlagsFit.len {ls : List Loc} {fs : List FL} (h : FlagsFit ls fs) : fs.length = ls.length := by
  induction ls generalizing fs with
  | nil => cases fs <;> simp_all [FlagsFit]
  | cons l ls ih =>
    cases fs with
    | nil => exact h.elim
    | cons f fs => simpa using ih h.2

theorem Spec.Valid.lenf {k : Kind} {es : List Ext} {n : Nat} {xs : List Int} {fs : List FL} (v : Valid k es n xs fs) :
    fs.length = k.locs.length := FlagsFit.len v.flags

theorem Spec.Valid.err {k : Kind} {es : List Ext} {n : Nat} {xs : List Int} {fs : List FL} (v : Valid k es n xs fs) 
    (he : es.length = k.locs.length) : accessErr k.N (mkShape es k.locs) n xs fs = none :=
  (accessErr_none he v.lenx v.lenf).2 v

theorem Spec.Reach.rel (R : Reach mem chk w aw) : ∃ L, Rel mem w aw L := by
  obtain ⟨ops, evs, h1, h2⟩ := R
  obtain ⟨w', L, h3, h4⟩ := run_sim chk ops (Rel.init mem) h1
  rw [h2] at h3; cases h3
  exact ⟨L, h4⟩

theorem Reps.len {k : Kind} {o : Obj} {h : Heap V} {es : List Ext} {val : Nat → List Int → Option V}
    (r : Reps k o h (.ready es val)) : es.length = k.locs.length := by
  cases r with
  | ready r => exact r.len

/-- reading after a valid access -/
theorem Rel.read {L : List Nat} (R : Rel mem w aw L) (c : Bool) {x : Nat} {k : Kind} {es : List Ext} {val : Nat → List Int → Option V}
    (hx : aw.arr x = some (k, .ready es val)) {n : Nat} {xs : List Int} {fs : List FL} (v : Valid k es n xs fs) :
    exec c (.read x n xs fs) w = .ok (.val (val n (point xs fs))) w := by
  obtain ⟨o, hb, hk, h0, r⟩ := R.arr_some hx
  exact access_read c hb r v.lenx v.lenf (v.err r.len)

/-- writing -/
theorem Rel.write {L : List Nat} (R : Rel mem w aw L) (c : Bool) {x : Nat} {k : Kind} {es : List Ext} {val : Nat → List Int → Option V}
    (hx : aw.arr x = some (k, .ready es val)) {n : Nat} {xs : List Int} {fs : List FL} (v : Valid k es n xs fs) (a : V) :
    ∃ w', exec c (.write x n xs fs a) w = .ok .unit w' ∧
      Rel mem w' (aw.set x (some (k, .ready es fun m ys => if m = n ∧ ys = point xs fs then some a else val m ys))) L := by
  obtain ⟨o, hb, hk, h0, r⟩ := R.arr_some hx
  obtain ⟨h', h1, h2, h3, h4⟩ := r.write c v.lenx v.lenf (v.err r.len) a
  refine ⟨_, access_write c hb h1, ?_⟩
  exact R.update' x (by rw [hb]; exact h3) (.some hk h0 h2) (by rw [h4, R.next]) (by rw [hb]; exact .inl rfl)

theorem Rel.size {L : List Nat} (R : Rel mem w aw L) (c : Bool) {x : Nat} {k : Kind} {a : AArr V} (hx : aw.arr x = some (k, a)) :
    exec c (.size x) w = .ok (.sizes (sizesOf k a)) w := by
  obtain ⟨w', L', h1, -⟩ := step_sim c R (.size x) (by simp only [astep, hx]; rfl)
  obtain ⟨o, hb, hk, h0, r⟩ := R.arr_some hx
  have : World.access x (fun _ o => (pure o.sizes : M (Heap V) _)) w = .ok o.sizes w := by
    unfold World.access; rw [hb]; rfl
  show ((World.access x _ >>= _) w) = _
  rw [M.bind_ok this, r.sizes]; rfl

/-- where a valid access leads: into the array's own block -/
theorem Rel.addr {L : List Nat} (R : Rel mem w aw L) {x : Nat} {k : Kind} {es : List Ext} {val : Nat → List Int → Option V}
    (hx : aw.arr x = some (k, .ready es val)) :
    ∃ o B cell, w.objs x = some (k, o) ∧ B ∈ o.own ∧
      w.h.blk B = some (.vals (k.N * points (mkShape es k.locs)) cell) ∧
      (∀ n < k.N, ∀ c, Obj.data_pt c k o n w.h = .ok (.at B (n * points (mkShape es k.locs))) w.h) ∧
      (∀ n xs fs, Valid k es n xs fs → ∀ c, Obj.at_ c k o n xs fs w.h
        = .ok (.at B (n * points (mkShape es k.locs) + offset (mkShape es k.locs) (point xs fs))) w.h) := by
  obtain ⟨o, hb, hk, h0, r⟩ := R.arr_some hx
  cases r with
  | @ready _ _ B cell r fits pos vals =>
    exact ⟨o, B, cell, hb, r.mem_own, r.blk, fun n hn c => Obj.data_pt_eq c r fits pos hn,
      fun n xs fs v c => (Obj.at_ok c r fits v.lenx v.lenf (v.err r.len)).1⟩

theorem point_set_P {xs : List Int} {fs : List FL} {d : Nat} {i : Int} (hi : xs[d]? = some i) :
    point xs (fs.set d .P) = point (xs.set d (i + 1)) (fs.set d .N) := by
  induction xs generalizing fs d with
  | nil => simp at hi
  | cons x xs ih =>
    cases fs with
    | nil => simp [point]
    | cons f fs =>
      cases d with
      | zero => simp at hi; subst hi; simp [point, FL.offset]
      | succ d => simp only [List.set_cons_succ, point]; rw [ih (by simpa using hi)]

theorem flagsFit_set {ls : List Loc} {fs : List FL} {d : Nat} {g g' : FL} (hd : ls[d]? = some .half)
    (hg' : flagFits .half g' = true) :
    FlagsFit ls (fs.set d g) → FlagsFit ls (fs.set d g') := by
  induction ls generalizing fs d with
  | nil => simp at hd
  | cons l ls ih =>
    cases fs with
    | nil => simp [FlagsFit]
    | cons f fs =>
      cases d with
      | zero => simp at hd; subst hd; simp only [List.set_cons_zero, FlagsFit]; exact fun h => ⟨hg', h.2⟩
      | succ d => simp only [List.set_cons_succ, FlagsFit]; exact fun h => ⟨h.1, ih (by simpa using hd) h.2⟩

/-- changing one coordinate of a stored point -/
theorem hasPt_set {es : List Ext} {ls : List Loc} {ys : List Int} {d : Nat} {e : Ext} {l : Loc} (he : es[d]? = some e) (hl : ls[d]? = some l)
    (h : HasPt (mkShape es ls) ys) (y : Int) : HasPt (mkShape es ls) (ys.set d y) ↔ (⟨e, l⟩ : Dim).Has y := by
  induction ls generalizing es ys d with
  | nil => simp at hl
  | cons l' ls ih =>
    cases es with
    | nil => simp at he
    | cons e' es =>
      cases ys with
      | nil => exact h.elim
      | cons z ys =>
        cases d with
        | zero =>
          simp at he hl; subst he; subst hl
          simp only [mkShape, List.set_cons_zero, HasPt]
          exact ⟨fun h => h.1, fun h' => ⟨h', h.2⟩⟩
        | succ d =>
          simp only [mkShape, List.set_cons_succ, HasPt]
          rw [ih (by simpa using he) (by simpa using hl) h.2]
          exact ⟨fun h => h.2, fun h' => ⟨h.1, h'⟩⟩

theorem point_set {xs : List Int} {fs : List FL} {d : Nat} (x : Int) (f : FL) (h : xs.length = fs.length) :
    point (xs.set d x) (fs.set d f) = (point xs fs).set d (x + f.offset) := by
  induction xs generalizing fs d with
  | nil => simp [point]
  | cons y xs ih =>
    cases fs with
    | nil => simp at h
    | cons g fs =>
      cases d with
      | zero => simp [point]
      | succ d => simp only [List.set_cons_succ, point]; rw [ih (by simpa using h)]

theorem point_length {xs : List Int} {fs : List FL} (h : xs.length = fs.length) : (point xs fs).length = xs.length := by
  induction xs generalizing fs with
  | nil => simp [point]
  | cons a as ih =>
    cases fs with
    | nil => simp at h
    | cons b bs => simp [point, ih (fs := bs) (by simpa using h)]

theorem flagsFit_center {ls : List Loc} {fs : List FL} {d : Nat} (hd : ls[d]? = some .center) (h : FlagsFit ls fs) :
    fs[d]? = some .C := by
  induction ls generalizing fs d with
  | nil => simp at hd
  | cons l ls ih =>
    cases fs with
    | nil => exact h.elim
    | cons f fs =>
      cases d with
      | zero => simp at hd; subst hd; have := h.1; cases f <;> simp_all [flagFits]
      | succ d => simp; exact ih (by simpa using hd) h.2

/-- every position is the position of a stored point -/
theorem offset_surj {sh : Shape} {i : Nat} (hi : i < points sh) : ∃ ys, HasPt sh ys ∧ offset sh ys = i := by
  induction sh generalizing i with
  | nil => exact ⟨[], trivial, by simp [points] at hi; simp [offset, hi]⟩
  | cons d sh ih =>
    simp only [points] at hi
    have hp : 0 < points sh := by
      rcases Nat.eq_zero_or_pos (points sh) with h | h
      · rw [h] at hi; simp at hi
      · exact h
    obtain ⟨ys, h1, h2⟩ := ih (Nat.mod_lt i hp)
    have hq : i / points sh < d.width := Nat.div_lt_of_lt_mul (by rw [Nat.mul_comm]; exact hi)
    refine ⟨(((i / points sh : Nat) : Int) - d.ext.n) :: ys, ⟨?_, h1⟩, ?_⟩
    · generalize i / points sh = q at hq ⊢
      unfold Dim.Has; unfold Dim.width at hq; omega
    · simp only [offset]
      rw [h2, Int.sub_add_cancel, Int.toNat_natCast, Nat.mul_comm]
      exact Nat.div_add_mod i (points sh)

/-- a history inside the contract runs -/
theorem reach_of_arun {ops : List (Op V)} {evs : List (Ev V)} (h : arun mem chk ops AWorld.init = some (evs, aw)) :
    ∃ w, Reach mem chk w aw := by
  obtain ⟨w, L, h3, -⟩ := run_sim chk ops (Rel.init mem) h
  exact ⟨w, ops, evs, h, h3⟩

end Verif
