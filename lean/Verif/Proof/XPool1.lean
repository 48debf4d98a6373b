import Verif.Spec.Pool
import Mathlib.Tactic.SplitIfs
import Mathlib.Tactic.NormNum
/-! # `DynArray` is a list: the operations -/
namespace Verif.Proof
open Verif.Xml.Dyn Verif.Spec.Grow

variable {V : Type}

theorem da_make (N : Nat) (h : (N : Int) ≤ INT_MAX) : Is N (make N : DA V) [] where
  pool := by simp [make]
  size := rfl
  room := ⟨List.replicate N none, rfl, by simp [make]⟩
  int := h
  few := Int.le_refl _
  here := fun b hb => absurd rfl hb
  old := fun b hb => by simp [make] at hb

variable {N : Nat} {s : DA V} {l : List (Option V)}

theorem da_load (h : Is N s l) {i : Nat} {v : V} (hv : l[i]? = some (some v)) : load (i : Int) s = .ok v s := by
  obtain ⟨r, hc, -⟩ := h.room
  have hi := (List.getElem?_eq_some_iff.1 hv).1
  unfold load
  rw [hc]
  dsimp only
  rw [if_pos ⟨Int.natCast_nonneg i, by rw [List.length_append]; omega⟩, Int.toNat_natCast, List.getElem?_append_left hi, hv]

/-- the state after a store into a cell of the array -/
theorem da_store {r : List (Option V)} (hc : s.cells = some r) {i : Nat} (hi : i < r.length) (v : V) :
    ∃ s', store (i : Int) v s = .ok () s' ∧ s'.cells = some (r.set i (some v)) ∧ s'.pool.length = s.pool.length ∧ s'.size = s.size ∧
      s'.allocated = s.allocated ∧ s'.mem = s.mem ∧ s'.asked = s.asked ∧ ∀ b, s'.heap b ≠ none → s.heap b ≠ none := by
  unfold store
  rw [hc]
  dsimp only
  rw [if_pos ⟨Int.natCast_nonneg i, by omega⟩, Int.toNat_natCast]
  unfold DA.cells at hc
  cases hm : s.mem with
  | none =>
    rw [hm] at hc
    cases hc
    exact ⟨_, rfl, by simp [DA.cells], by simp, rfl, rfl, rfl, rfl, fun _ h => h⟩
  | some b =>
    rw [hm] at hc
    refine ⟨_, rfl, by simp [DA.cells], rfl, rfl, rfl, rfl, rfl, fun q hq => ?_⟩
    dsimp only at hq
    by_cases he : q = b
    · subst he; dsimp only at hc; rw [hc]; simp
    · rwa [if_neg he] at hq

theorem da_set (h : Is N s l) {i : Nat} (hi : i < l.length) (v : V) : ∃ s', store (i : Int) v s = .ok () s' ∧ Is N s' (l.set i (some v)) ∧
    s'.allocated = s.allocated ∧ s'.asked = s.asked := by
  obtain ⟨r, hc, ha⟩ := h.room
  obtain ⟨s', e, h1, h2, h3, h4, h5, h6, h7⟩ := da_store hc (i := i) (by rw [List.length_append]; omega) v
  rw [List.set_append_left _ _ hi] at h1
  exact ⟨s', e, ⟨h2.trans h.pool, by rw [h3, h.size]; simp, ⟨r, h1, by rw [h4, ha]; simp⟩, by rw [h4]; exact h.int, by rw [h4]; exact h.few,
    fun b hb => h5.trans (h.here b (h7 b hb)), fun b hb => by rw [h6]; exact h.old b (h5 ▸ hb)⟩, h4, h6⟩

theorem da_bound (h : Is N s l) : l.length ≤ s.allocated := by
  obtain ⟨r, -, ha⟩ := h.room
  rw [ha, List.length_append]; omega

/-- a shorter list in the same array -/
theorem da_shrink (h : Is N s l) {l₁ r₁ : List (Option V)} (hl : l = l₁ ++ r₁) : Is N { s with size := (l₁.length : Int) } l₁ := by
  obtain ⟨r, hc, ha⟩ := h.room
  subst hl
  exact ⟨h.pool, rfl, ⟨r₁ ++ r, by rw [← List.append_assoc]; exact hc, by rw [← List.append_assoc]; exact ha⟩, h.int, h.few, h.here, h.old⟩

/-- memory that suffices, with the capacity afterwards -/
theorem da_ensure (h : Is N s l) (room : Nat → Bool) (c : Nat) (hc : s.allocated < c → (c : Int) * 2 ≤ INT_MAX ∧ room s.asked = true) :
    ∃ s', EnsureCapacity room (c : Int) s = .ok () s' ∧ Is N s' l ∧ s'.allocated = (if (c : Int) ≤ s.allocated then s.allocated else c * 2) ∧
      s'.asked = (if (c : Int) ≤ s.allocated then s.asked else s.asked + 1) ∧ s'.size = s.size := by
  unfold EnsureCapacity
  rw [M.get_bind_run]
  by_cases hlt : s.allocated < c
  · obtain ⟨hm, hr⟩ := hc hlt
    have hb := da_bound h
    obtain ⟨r, hcells, ha⟩ := h.room
    have hi : InI32 ((c : Int) * 2) := ⟨by show (-2147483648 : Int) ≤ _; omega, hm⟩
    rw [if_pos hlt, if_neg (by omega), if_neg (by omega), i32_ok hi, M.bind_ok (show (liftM (Out.ok ((c : Int) * 2)) : M (DA V) Int) s = .ok _ s from rfl)]
    have hnew : newArr room ((c : Int) * 2) s = .ok s.asked { s with heap := (fun q => if q = s.asked then some (List.replicate (c * 2) none) else s.heap q), asked := s.asked + 1 } := by
      unfold newArr
      rw [if_neg (by rw [hr]; simp)]
      have : ((c : Int) * 2).toNat = c * 2 := by omega
      rw [this]
    rw [M.bind_ok hnew]
    have hne : s.mem ≠ some s.asked := fun e => absurd (h.old _ e) (by omega)
    have hcells' : (({ s with heap := (fun q => if q = s.asked then some (List.replicate (c * 2) none) else s.heap q), asked := s.asked + 1 } : DA V)).cells = some (l ++ r) := by
      unfold DA.cells at hcells ⊢
      dsimp only
      cases hmem : s.mem with
      | none => rw [hmem] at hcells; exact hcells
      | some b =>
        rw [hmem] at hcells
        dsimp only at hcells ⊢
        rw [if_neg (fun e => hne (by rw [hmem, e])), hcells]
    have hcopy : copyTo s.asked { s with heap := (fun q => if q = s.asked then some (List.replicate (c * 2) none) else s.heap q), asked := s.asked + 1 } =
        .ok () { s with heap := (fun q => if q = s.asked then some (l ++ List.replicate (c * 2 - l.length) none) else s.heap q), asked := s.asked + 1 } := by
      unfold copyTo
      rw [hcells']
      have hsz := h.size
      have hx : ((List.take s.size.toNat (l ++ r)) ++ (List.replicate (c * 2) none).drop s.size.toNat : List (Option V)) = l ++ List.replicate (c * 2 - l.length) none := by
        rw [hsz, Int.toNat_natCast, List.take_left, List.drop_replicate]
      simp only [ite_true]
      rw [if_pos (by simp only [List.length_append, List.length_replicate]; omega), hx]
      congr 2
      funext q
      by_cases hq : q = s.asked <;> simp [hq]
    rw [M.bind_ok hcopy]
    obtain ⟨hp, hd, hk⟩ : ∃ hp : Nat → Option (List (Option V)),
        drop { s with heap := (fun q => if q = s.asked then some (l ++ List.replicate (c * 2 - l.length) none) else s.heap q), asked := s.asked + 1 } =
          .ok () { s with heap := hp, asked := s.asked + 1 } ∧ hp s.asked = some (l ++ List.replicate (c * 2 - l.length) none) ∧ ∀ b, b ≠ s.asked → hp b = none := by
      unfold drop
      dsimp only
      cases hmem : s.mem with
      | none =>
        refine ⟨_, rfl, if_pos rfl, fun b hb => ?_⟩
        rw [if_neg hb]
        by_contra hx
        exact absurd (h.here b hx) (by rw [hmem]; simp)
      | some b =>
        have hbne : b ≠ s.asked := fun e => hne (by rw [hmem, e])
        have : s.heap b = some (l ++ r) := by unfold DA.cells at hcells; rwa [hmem] at hcells
        dsimp only
        rw [if_neg hbne, this]
        refine ⟨_, rfl, ?_, fun q hq => ?_⟩
        · skip
          rw [if_neg (Ne.symm hbne), if_pos rfl]
        · skip
          by_cases hqb : q = b
          · rw [if_pos hqb]
          · rw [if_neg hqb, if_neg hq]
            by_contra hx
            have := h.here q hx
            rw [hmem] at this
            exact hqb (Option.some.inj this).symm
    rw [M.bind_ok hd]
    refine ⟨_, rfl, ⟨h.pool, h.size, ⟨List.replicate (c * 2 - l.length) none, by simp [DA.cells, hk.1], ?_⟩, hm, ?_, ?_, ?_⟩, rfl, rfl, rfl⟩
    · simp only [List.length_append, List.length_replicate]; omega
    · have := h.few; dsimp only; omega
    · intro b hb
      by_contra hx
      exact hb (hk.2 b fun e => hx (by rw [e]))
    · intro b hb
      cases hb
      exact Nat.lt_succ_self _
  · rw [if_neg hlt, if_pos (by omega), if_pos (by omega)]
    exact ⟨s, rfl, h, rfl, rfl, rfl⟩

/-- more than `INT_MAX` -/
theorem da_ensure_ub (room : Nat → Bool) (c : Nat) (hc : s.allocated < c) (hm : INT_MAX < (c : Int) * 2) : EnsureCapacity room (c : Int) s = .ub .overflow := by
  unfold EnsureCapacity
  rw [M.get_bind_run, if_pos hc]
  have : i32 ((c : Int) * 2) = .ub .overflow := if_neg fun hi => absurd hi.2 (by show ¬ _ ≤ INT_MAX; omega)
  rw [this]
  rfl

/-- no memory -/
theorem da_ensure_err (h : Is N s l) (room : Nat → Bool) (c : Nat) (hc : s.allocated < c) (hm : (c : Int) * 2 ≤ INT_MAX) (hr : room s.asked = false) :
    EnsureCapacity room (c : Int) s = .err .badAlloc { s with asked := s.asked + 1 } ∧ Is N { s with asked := s.asked + 1 } l := by
  constructor
  · unfold EnsureCapacity
    have hi : InI32 ((c : Int) * 2) := ⟨by show (-2147483648 : Int) ≤ _; omega, hm⟩
    rw [M.get_bind_run, if_pos hc, i32_ok hi, M.bind_ok (show (liftM (Out.ok ((c : Int) * 2)) : M (DA V) Int) s = .ok _ s from rfl), M.bind_err (e := .badAlloc) (s' := { s with asked := s.asked + 1 })]
    unfold newArr
    rw [if_pos (Or.inr hr)]
  · exact ⟨h.pool, h.size, h.room, h.int, h.few, h.here, fun b hb => Nat.lt_succ_of_lt (h.old b hb)⟩

theorem da_i32 {x : Int} (h : -2147483648 ≤ x) (h' : x ≤ INT_MAX) {β : Type} (f : Int → M (DA V) β) : ((liftM (i32 x) : M (DA V) Int) >>= f) s = f x s := by
  rw [i32_ok ⟨h, h'⟩]; rfl

theorem da_push (h : Is N s l) (room : Nat → Bool) (v : V) (hc : s.allocated < (l.length + 1 : Nat) → ((l.length + 1 : Nat) : Int) * 2 ≤ INT_MAX ∧ room s.asked = true) :
    ∃ s', Push room v s = .ok () s' ∧ Is N s' (l ++ [some v]) ∧
      s'.allocated = (if ((l.length + 1 : Nat) : Int) ≤ s.allocated then s.allocated else ((l.length + 1 : Nat) : Int) * 2) ∧
      s'.asked = (if ((l.length + 1 : Nat) : Int) ≤ s.allocated then s.asked else s.asked + 1) := by
  have hb := da_bound h
  have hint := h.int
  have hle : ((l.length + 1 : Nat) : Int) ≤ INT_MAX := by
    by_cases hx : s.allocated < (l.length + 1 : Nat)
    · have := (hc hx).1; omega
    · omega
  have hcast : s.size + 1 = ((l.length + 1 : Nat) : Int) := by rw [h.size]; push_cast; rfl
  unfold Push
  obtain ⟨s₁, e₁, h₁, ha₁, hq₁, hs₁⟩ := da_ensure h room (l.length + 1) hc
  rw [M.get_bind_run, hcast, da_i32 (by omega) hle, M.bind_ok e₁, M.get_bind_run, h₁.size]
  have hlt : ((l.length + 1 : Nat) : Int) ≤ s₁.allocated := by rw [ha₁]; split_ifs <;> omega
  obtain ⟨r, hcells, hal⟩ := h₁.room
  have hr : r ≠ [] := by
    rintro rfl
    rw [hal] at hlt
    simp at hlt
  obtain ⟨y, r', rfl⟩ := List.exists_cons_of_ne_nil hr
  obtain ⟨s₂, e₂, g1, g2, g3, g4, g5, g6, g7⟩ := da_store hcells (i := l.length) (by simp) v
  have hset : (l ++ y :: r').set l.length (some v) = (l ++ [some v]) ++ r' := by
    rw [List.set_append_right _ _ (Nat.le_refl _)]; simp
  rw [hset] at g1
  rw [M.bind_ok e₂, show ((l.length : Int) + 1) = ((l.length + 1 : Nat) : Int) by push_cast; rfl, da_i32 (by omega) hle, M.modify_run]
  refine ⟨_, rfl, ⟨g2.trans h₁.pool, ?_, ⟨r', g1, ?_⟩, by dsimp only; rw [g4]; exact h₁.int, by dsimp only; rw [g4]; exact h₁.few,
    fun b hb => g5.trans (h₁.here b (g7 b hb)), fun b hb => by dsimp only; rw [g6]; exact h₁.old b (g5 ▸ hb)⟩, g4.trans ha₁, g6.trans hq₁⟩
  · simp
  · dsimp only; rw [g4, hal]; simp

theorem da_pushArr (h : Is N s l) (room : Nat → Bool) (n : Nat) (hc : s.allocated < (l.length + n : Nat) → ((l.length + n : Nat) : Int) * 2 ≤ INT_MAX ∧ room s.asked = true) :
    ∃ s' w, PushArr room n s = .ok (l.length : Int) s' ∧ w.length = n ∧ Is N s' (l ++ w) ∧
      s'.allocated = (if ((l.length + n : Nat) : Int) ≤ s.allocated then s.allocated else ((l.length + n : Nat) : Int) * 2) ∧
      s'.asked = (if ((l.length + n : Nat) : Int) ≤ s.allocated then s.asked else s.asked + 1) := by
  have hb := da_bound h
  have hint := h.int
  have hle : ((l.length + n : Nat) : Int) ≤ INT_MAX := by
    by_cases hx : s.allocated < (l.length + n : Nat)
    · have := (hc hx).1; omega
    · omega
  have hcast : s.size + (n : Int) = ((l.length + n : Nat) : Int) := by rw [h.size]; push_cast; rfl
  unfold PushArr
  obtain ⟨s₁, e₁, h₁, ha₁, hq₁, hs₁⟩ := da_ensure h room (l.length + n) hc
  rw [M.get_bind_run, hcast, da_i32 (by omega) hle, M.bind_ok e₁, M.get_bind_run, h₁.size,
    show ((l.length : Int) + (n : Int)) = ((l.length + n : Nat) : Int) by push_cast; rfl, da_i32 (by omega) hle, M.modify_bind_run]
  have hlt : ((l.length + n : Nat) : Int) ≤ s₁.allocated := by rw [ha₁]; split_ifs <;> omega
  obtain ⟨r, hcells, hal⟩ := h₁.room
  have hnr : n ≤ r.length := by rw [hal, List.length_append] at hlt; omega
  have hr : r.take n ++ r.drop n = r := List.take_append_drop n r
  refine ⟨_, r.take n, rfl, by simp; omega, ⟨h₁.pool, by simp; omega, ⟨r.drop n, ?_, ?_⟩, h₁.int, h₁.few, h₁.here, h₁.old⟩, ha₁, hq₁⟩
  · rw [List.append_assoc, hr]; exact hcells
  · rw [List.append_assoc, hr]; exact hal

theorem da_last {v : V} (hv : l.getLast? = some (some v)) : l = l.dropLast ++ [some v] ∧ l.length = l.dropLast.length + 1 ∧ l[l.dropLast.length]? = some (some v) := by
  have hne : l ≠ [] := by rintro rfl; simp at hv
  have h1 := List.dropLast_concat_getLast hne
  rw [List.getLast?_eq_some_getLast hne] at hv
  rw [Option.some.inj hv] at h1
  have h3 : l.length = l.dropLast.length + 1 := by
    have := congrArg List.length h1
    simp only [List.length_append, List.length_singleton] at this
    omega
  refine ⟨h1.symm, h3, ?_⟩
  conv_lhs => rw [← h1]
  rw [List.getElem?_append_right (by simp)]
  simp

theorem da_max (h : Is N s l) : (l.length : Int) ≤ INT_MAX := by have := da_bound h; have := h.int; omega

theorem da_size1 (h : Is N s l) {v : V} (hv : l.getLast? = some (some v)) : s.size - 1 = (l.dropLast.length : Int) := by
  have := (da_last hv).2.1
  rw [h.size]; omega

theorem da_pop (h : Is N s l) {v : V} (hv : l.getLast? = some (some v)) : ∃ s', Pop s = .ok v s' ∧ Is N s' l.dropLast ∧ s'.allocated = s.allocated ∧ s'.asked = s.asked := by
  obtain ⟨h1, h2, h3⟩ := da_last hv
  have hm := da_max h
  unfold Pop
  rw [M.get_bind_run, da_size1 h hv, da_i32 (by omega) (by omega), M.modify_bind_run]
  refine ⟨_, ?_, da_shrink h h1, rfl, rfl⟩
  obtain ⟨r, hc, -⟩ := h.room
  unfold load
  have : ({ s with size := (l.dropLast.length : Int) } : DA V).cells = some (l ++ r) := hc
  rw [this]
  dsimp only
  rw [if_pos ⟨Int.natCast_nonneg _, by rw [List.length_append]; omega⟩, Int.toNat_natCast, List.getElem?_append_left (by omega), h3]

theorem da_popArr (h : Is N s l) (n : Nat) (hn : n ≤ l.length) : ∃ s', PopArr n s = .ok () s' ∧ Is N s' (l.take (l.length - n)) ∧ s'.allocated = s.allocated ∧ s'.asked = s.asked := by
  have hm := da_max h
  unfold PopArr
  have : s.size - (n : Int) = ((l.take (l.length - n)).length : Int) := by rw [h.size, List.length_take]; omega
  rw [M.get_bind_run, this, da_i32 (by omega) (by rw [List.length_take]; omega), M.modify_run]
  exact ⟨_, rfl, da_shrink h (List.take_append_drop (l.length - n) l).symm, rfl, rfl⟩

theorem da_top (h : Is N s l) {v : V} (hv : l.getLast? = some (some v)) : PeekTop s = .ok v s := by
  have hm := da_max h
  obtain ⟨h1, h2, h3⟩ := da_last hv
  unfold PeekTop
  rw [M.get_bind_run, da_size1 h hv, da_i32 (by omega) (by omega), da_load h h3]

theorem da_swapRemove (h : Is N s l) {i : Nat} (hi : i < l.length) {v : V} (hv : l.getLast? = some (some v)) :
    ∃ s', SwapRemove i s = .ok () s' ∧ Is N s' (l.set i (some v)).dropLast ∧ s'.allocated = s.allocated ∧ s'.asked = s.asked := by
  have hm := da_max h
  obtain ⟨h1, h2, h3⟩ := da_last hv
  unfold SwapRemove
  obtain ⟨s₁, e₁, g, ga, gq⟩ := da_set h hi v
  rw [M.get_bind_run, da_size1 h hv, da_i32 (by omega) (by omega), M.bind_ok (da_load h h3), M.bind_ok e₁, M.get_bind_run]
  have hs : s₁.size - 1 = ((l.set i (some v)).dropLast.length : Int) := by rw [g.size]; simp; omega
  rw [hs, da_i32 (by omega) (by simp; omega), M.modify_run]
  have hne : l.set i (some v) ≠ [] := by intro e; have := congrArg List.length e; simp at this; subst this; simp at hi
  exact ⟨_, rfl, da_shrink g (List.dropLast_concat_getLast hne).symm, ga, gq⟩

theorem da_clear (h : Is N s l) : ∃ s', Clear s = .ok () s' ∧ Is N s' [] ∧ s'.allocated = s.allocated ∧ s'.asked = s.asked :=
  ⟨_, rfl, da_shrink h (l₁ := []) (r₁ := l) rfl, rfl, rfl⟩

theorem da_empty (h : Is N s l) : Xml.Dyn.Empty s = .ok l.isEmpty s := by
  unfold Xml.Dyn.Empty
  rw [h.size]
  cases l with
  | nil => rfl
  | cons a t => simp only [List.length_cons, List.isEmpty_cons]; congr 1

/-- the destructor -/
theorem da_destroy (h : Is N s l) : ∃ s', destroy s = .ok () s' ∧ ∀ b, s'.heap b = none := by
  unfold destroy drop
  cases hm : s.mem with
  | none =>
    refine ⟨_, rfl, fun b => ?_⟩
    by_contra hx
    exact absurd (h.here b hx) (by rw [hm]; simp)
  | some b =>
    obtain ⟨r, hc, -⟩ := h.room
    have : s.heap b = some (l ++ r) := by unfold DA.cells at hc; rwa [hm] at hc
    dsimp only
    rw [this]
    refine ⟨_, rfl, fun q => ?_⟩
    dsimp only
    by_cases hq : q = b
    · rw [if_pos hq]
    · rw [if_neg hq]
      by_contra hx
      have := h.here q hx
      rw [hm] at this
      exact hq (Option.some.inj this).symm

end Verif.Proof
