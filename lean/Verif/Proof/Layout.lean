import Verif.Spec.Array
import Mathlib.Tactic.Ring
/-!
# Row-major offsets
-/
namespace Verif.Spec

theorem Dim.width_pos_of_has {d : Dim} {x : Int} (h : d.Has x) : (x + d.ext.n).toNat < d.width := by
  unfold Dim.Has at h; unfold Dim.width; omega

theorem offset_lt {sh : Shape} {xs : List Int} (h : HasPt sh xs) : offset sh xs < points sh := by
  induction sh generalizing xs with
  | nil => simp [offset, points]
  | cons d sh ih =>
    cases xs with
    | nil => exact h.elim
    | cons x xs =>
      obtain ⟨h1, h2⟩ := h
      have h3 := Dim.width_pos_of_has h1
      have h4 := ih h2
      simp only [offset, points]
      calc (x + d.ext.n).toNat * points sh + offset sh xs
          < (x + d.ext.n).toNat * points sh + points sh := by omega
        _ = ((x + d.ext.n).toNat + 1) * points sh := by ring
        _ ≤ d.width * points sh := Nat.mul_le_mul_right _ h3

theorem offset_inj {sh : Shape} {xs ys : List Int} (h : HasPt sh xs) (h' : HasPt sh ys)
    (e : offset sh xs = offset sh ys) : xs = ys := by
  induction sh generalizing xs ys with
  | nil =>
    cases xs <;> cases ys <;> first | rfl | exact h.elim | exact h'.elim
  | cons d sh ih =>
    cases xs with
    | nil => exact h.elim
    | cons x xs =>
      cases ys with
      | nil => exact h'.elim
      | cons y ys =>
        obtain ⟨h1, h2⟩ := h
        obtain ⟨h1', h2'⟩ := h'
        have l1 := offset_lt h2
        have l2 := offset_lt h2'
        simp only [offset] at e
        have e1 : (x + d.ext.n).toNat = (y + d.ext.n).toNat := by
          rcases Nat.lt_trichotomy (x + d.ext.n).toNat (y + d.ext.n).toNat with hl | hl | hl
          · have := Nat.mul_le_mul_right (points sh) (Nat.succ_le_of_lt hl)
            rw [Nat.succ_mul] at this; omega
          · exact hl
          · have := Nat.mul_le_mul_right (points sh) (Nat.succ_le_of_lt hl)
            rw [Nat.succ_mul] at this; omega
        have e2 : offset sh xs = offset sh ys := by rw [e1] at e; omega
        have e3 : x = y := by unfold Dim.Has at h1 h1'; omega
        rw [e3, ih h2 h2' e2]

/-- component number and offset determine the address, and conversely -/
theorem addr_inj {sh : Shape} {n m : Nat} {xs ys : List Int} (h : HasPt sh xs) (h' : HasPt sh ys)
    (e : n * points sh + offset sh xs = m * points sh + offset sh ys) : n = m ∧ xs = ys := by
  have l1 := offset_lt h
  have l2 := offset_lt h'
  have e1 : n = m := by
    rcases Nat.lt_trichotomy n m with hl | hl | hl
    · have := Nat.mul_le_mul_right (points sh) (Nat.succ_le_of_lt hl)
      rw [Nat.succ_mul] at this; omega
    · exact hl
    · have := Nat.mul_le_mul_right (points sh) (Nat.succ_le_of_lt hl)
      rw [Nat.succ_mul] at this; omega
  subst e1
  exact ⟨rfl, offset_inj h h' (by omega)⟩

theorem addr_lt {sh : Shape} {n N : Nat} {xs : List Int} (hn : n < N) (h : HasPt sh xs) :
    n * points sh + offset sh xs < N * points sh := by
  have l1 := offset_lt h
  have := Nat.mul_le_mul_right (points sh) (Nat.succ_le_of_lt hn)
  rw [Nat.succ_mul] at this; omega

end Verif.Spec
