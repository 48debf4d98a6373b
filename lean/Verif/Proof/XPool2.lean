import Verif.Proof.XPool1
/-! # `DynArray` is a list: all operations, in any order -/
namespace Verif.Proof
open Verif.Xml.Dyn Verif.Spec.Grow

variable {V : Type} {N : Nat} {s : DA V} {l : List (Option V)}

/-- the capacity after an operation that needs `c` cells -/
abbrev capAfter (a : Int) (c : Nat) : Int := if (c : Int) ≤ a then a else c * 2

theorem da_step (h : Is N s l) (room : Nat → Bool) (o : Op V) (hm : may l o) (hc : s.allocated < need l o → (need l o : Int) * 2 ≤ INT_MAX ∧ room s.asked = true) :
    ∃ a s' l', exec room o s = .ok a s' ∧ Step l o a l' ∧ Is N s' l' ∧ s'.allocated = capAfter s.allocated (need l o) ∧
      s'.asked = (if (need l o : Int) ≤ s.allocated then s.asked else s.asked + 1) := by
  have h0 : ((0 : Nat) : Int) ≤ s.allocated := by have := h.few; omega
  have key : ∀ s' : DA V, s'.allocated = s.allocated ∧ s'.asked = s.asked → s'.allocated = capAfter s.allocated 0 ∧
      s'.asked = (if ((0 : Nat) : Int) ≤ s.allocated then s.asked else s.asked + 1) := fun s' hs => by
    rw [capAfter, if_pos h0, if_pos h0]; exact hs
  cases o with
  | push v =>
    obtain ⟨s', e, hi, ha⟩ := da_push h room v hc
    exact ⟨.unit, s', _, M.bind_ok e, .push v, hi, ha⟩
  | pushArr n =>
    obtain ⟨s', w, e, hw, hi, ha⟩ := da_pushArr h room n hc
    subst hw
    exact ⟨.int _, s', _, M.bind_ok e, .pushArr w, hi, ha⟩
  | pop =>
    obtain ⟨v, hv⟩ := hm
    obtain ⟨s', e, hi, ha⟩ := da_pop h hv
    exact ⟨.val v, s', _, M.bind_ok e, .pop hv, hi, key s' ha⟩
  | popArr n =>
    obtain ⟨s', e, hi, ha⟩ := da_popArr h n hm
    exact ⟨.unit, s', _, M.bind_ok e, .popArr n hm, hi, key s' ha⟩
  | get i =>
    obtain ⟨v, hv⟩ := hm
    exact ⟨.val v, s, _, M.bind_ok (da_load h hv), .get hv, h, key s ⟨rfl, rfl⟩⟩
  | set i v =>
    obtain ⟨s', e, hi, ha⟩ := da_set h hm v
    exact ⟨.unit, s', _, M.bind_ok e, .set i v, hi, key s' ha⟩
  | top =>
    obtain ⟨v, hv⟩ := hm
    exact ⟨.val v, s, _, M.bind_ok (da_top h hv), .top hv, h, key s ⟨rfl, rfl⟩⟩
  | swapRemove i =>
    obtain ⟨hi, v, hv⟩ := hm
    obtain ⟨s', e, hs, ha⟩ := da_swapRemove h hi hv
    exact ⟨.unit, s', _, M.bind_ok e, .swapRemove i hv, hs, key s' ha⟩
  | clear =>
    obtain ⟨s', e, hs, ha⟩ := da_clear h
    exact ⟨.unit, s', _, M.bind_ok e, .clear, hs, key s' ha⟩
  | size =>
    refine ⟨.int l.length, s, _, ?_, .size, h, key s ⟨rfl, rfl⟩⟩
    rw [← h.size]; rfl
  | empty => exact ⟨.bool l.isEmpty, s, _, M.bind_ok (da_empty h), .empty, h, key s ⟨rfl, rfl⟩⟩

theorem da_step_ub (h : Is N s l) (room : Nat → Bool) (o : Op V) (hc : s.allocated < need l o) (hm : INT_MAX < (need l o : Int) * 2) :
    exec room o s = .ub .overflow := by
  have hx := da_max h
  cases o with
  | push v =>
    have e := da_ensure_ub (s := s) room (l.length + 1) hc hm
    refine M.bind_ub ?_
    unfold Push
    rw [M.get_bind_run, h.size]
    by_cases hi : (l.length : Int) + 1 ≤ INT_MAX
    · rw [da_i32 (by omega) hi]
      exact M.bind_ub e
    · rw [show i32 ((l.length : Int) + 1) = .ub .overflow from if_neg fun hi' => hi hi'.2]
      rfl
  | pushArr n =>
    have e := da_ensure_ub (s := s) room (l.length + n) hc hm
    refine M.bind_ub ?_
    unfold PushArr
    rw [M.get_bind_run, h.size]
    by_cases hi : (l.length : Int) + n ≤ INT_MAX
    · rw [da_i32 (by omega) hi]
      exact M.bind_ub (by rw [← Nat.cast_add]; exact e)
    · rw [show i32 ((l.length : Int) + n) = .ub .overflow from if_neg fun hi' => hi hi'.2]
      rfl
  | _ => exact absurd hc (by have := h.few; simp [need]; omega)

theorem da_step_err (h : Is N s l) (room : Nat → Bool) (o : Op V) (hc : s.allocated < need l o) (hm : (need l o : Int) * 2 ≤ INT_MAX) (hr : room s.asked = false) :
    ∃ s', exec room o s = .err .badAlloc s' ∧ Is N s' l := by
  cases o with
  | push v =>
    obtain ⟨e, hi⟩ := da_ensure_err h room (l.length + 1) hc hm hr
    refine ⟨_, M.bind_err ?_, hi⟩
    unfold Push
    rw [M.get_bind_run, show s.size + 1 = ((l.length + 1 : Nat) : Int) by rw [h.size]; rfl, da_i32 (by omega) (by simp only [need] at hm; omega)]
    exact M.bind_err e
  | pushArr n =>
    obtain ⟨e, hi⟩ := da_ensure_err h room (l.length + n) hc hm hr
    refine ⟨_, M.bind_err ?_, hi⟩
    unfold PushArr
    rw [M.get_bind_run, show s.size + (n : Int) = ((l.length + n : Nat) : Int) by rw [h.size]; rfl, da_i32 (by omega) (by simp only [need] at hm; omega)]
    exact M.bind_err e
  | _ => exact absurd hc (by have := h.few; simp [need]; omega)

theorem da_steps (room : Nat → Bool) (hr : ∀ n, room n = true) (limit : Nat) (hl : (limit : Int) * 2 ≤ INT_MAX) (os : List (Op V)) :
    ∀ {s : DA V} {l : List (Option V)}, Is N s l → safe limit os l → ∃ as s' l', execAll room os s = .ok as s' ∧ Steps l os as l' ∧ Is N s' l' := by
  induction os with
  | nil => intro s l h _; exact ⟨[], s, l, rfl, .nil l, h⟩
  | cons o os ih =>
    intro s l h ⟨hm, hn, hx⟩
    obtain ⟨a, s₁, l₁, e, hs, h₁, -⟩ := da_step h room o hm fun _ => ⟨by omega, hr _⟩
    obtain ⟨as, s₂, l₂, e₂, hs₂, h₂⟩ := ih h₁ (hx a l₁ hs)
    exact ⟨a :: as, s₂, l₂, (M.bind_ok e).trans (M.bind_ok e₂), .cons hs hs₂, h₂⟩

/-- the capacity of an array with room for `N` at first: `(N + 2) · 2ᵏ - 2` -/
theorem da_pushes (room : Nat → Bool) (hr : ∀ n, room n = true) (K : Nat) (hK : ((N : Int) + 2) * 2 ^ K ≤ INT_MAX + 2) (vs : List V) :
    ∀ {s : DA V} {l : List (Option V)} {k : Nat}, Is N s l → s.allocated + 2 = ((N : Int) + 2) * 2 ^ k → k ≤ K →
      ((l.length + vs.length : Nat) : Int) + 2 ≤ ((N : Int) + 2) * 2 ^ K →
      ∃ as s' k', execAll room (vs.map .push) s = .ok as s' ∧ Is N s' (l ++ vs.map some) ∧ s'.allocated + 2 = ((N : Int) + 2) * 2 ^ k' ∧ k' ≤ K := by
  induction vs with
  | nil => intro s l k h ha hk _; exact ⟨[], s, k, rfl, by simpa using h, ha, hk⟩
  | cons v vs ih =>
    intro s l k h ha hk hle
    simp only [List.length_cons] at hle
    have hb := da_bound h
    have hdouble : s.allocated < (l.length + 1 : Nat) → k + 1 ≤ K ∧ ((l.length + 1 : Nat) : Int) * 2 + 2 = ((N : Int) + 2) * 2 ^ (k + 1) := by
      intro hlt
      refine ⟨?_, by rw [Int.pow_succ, ← Int.mul_assoc, ← ha]; push_cast; omega⟩
      by_contra hx
      have : k = K := by omega
      subst this
      omega
    have hfit : s.allocated < (l.length + 1 : Nat) → ((l.length + 1 : Nat) : Int) * 2 ≤ INT_MAX := by
      intro hlt
      obtain ⟨h1, h2⟩ := hdouble hlt
      have : (2 : Int) ^ (k + 1) ≤ 2 ^ K := pow_le_pow_right₀ (by omega) h1
      have := Int.mul_le_mul_of_nonneg_left this (show (0 : Int) ≤ (N : Int) + 2 by omega)
      omega
    obtain ⟨s₁, e, h₁, ha₁, -⟩ := da_push h room v fun hlt => ⟨hfit hlt, hr _⟩
    have hk₁ : ∃ k₁, s₁.allocated + 2 = ((N : Int) + 2) * 2 ^ k₁ ∧ k₁ ≤ K := by
      rw [ha₁]
      split_ifs with hx
      · exact ⟨k, ha, hk⟩
      · obtain ⟨h1, h2⟩ := hdouble (by omega)
        exact ⟨k + 1, h2, h1⟩
    obtain ⟨k₁, hk1, hk2⟩ := hk₁
    obtain ⟨as, s₂, k₂, e₂, h₂, ha₂, hk₂⟩ := ih h₁ hk1 hk2 (by simp only [List.length_append, List.length_singleton]; push_cast at hle ⊢; omega)
    refine ⟨.unit :: as, s₂, k₂, ?_, by simpa using h₂, ha₂, hk₂⟩
    have e' : exec room (.push v) s = .ok .unit s₁ := M.bind_ok e
    exact (M.bind_ok e').trans (M.bind_ok e₂)

theorem da_execAll_append (room : Nat → Bool) (o : Op V) (os : List (Op V)) : ∀ s : DA V, ∀ as s', execAll room os s = .ok as s' → exec room o s' = .ub .overflow →
    execAll room (os ++ [o]) s = .ub .overflow := by
  induction os with
  | nil => intro s as s' h h'; cases h; exact M.bind_ub h'
  | cons q os ih =>
    intro s as s' h h'
    show (exec room q >>= fun a => execAll room (os ++ [o]) >>= fun as => pure (a :: as)) s = _
    have h : (exec room q >>= fun a => execAll room os >>= fun as => pure (a :: as)) s = _ := h
    rw [M.bind_run] at h
    cases e : exec room q s with
    | err x y => rw [e] at h; cases h
    | ub x => rw [e] at h; cases h
    | ok a s₁ =>
      rw [e] at h
      dsimp only at h
      rw [M.bind_run] at h
      cases e₁ : execAll room os s₁ with
      | err x y => rw [e₁] at h; cases h
      | ub x => rw [e₁] at h; cases h
      | ok as₁ s₂ =>
        rw [e₁] at h
        cases h
        rw [M.bind_ok e]
        exact M.bind_ub (ih s₁ as₁ _ e₁ h')

end Verif.Proof
