import Verif.Spec.Array
import Verif.Proof.Tags
import Verif.Proof.HeapLemmas
import Verif.Proof.Layout
/-!
# The access checks in closed form
-/
namespace Verif
open Spec

theorem FL.offset_cases (f : FL) : f.offset = 0 ∨ f.offset = 1 := by cases f <;> simp [FL.offset]

theorem check_range_core_eq (d : Nat) (m : Dim) (x : Int) (f : FL)
    (hm : m.ext.n + m.ext.i + m.ext.p + 1 < 2147483648) :
    check_range_core d m.loc x f.offset (-(m.ext.n : Int)) ((m.ext.i : Int) + m.ext.p) =
      if m.Has (x + f.offset) then .ok () else .err (rangeErr d x f.offset m) := by
  obtain ⟨⟨n, i, p⟩, loc⟩ := m
  have hf := f.offset_cases
  have hfail : check_range_core.fail d loc x f.offset (-(n : Int)) ((i : Int) + p)
      = .err (rangeErr d x f.offset ⟨⟨n, i, p⟩, loc⟩) := by
    unfold check_range_core.fail rangeErr
    simp only at hm
    rw [i32_ok (by unfold InI32; omega), Out.ok_bind]
    cases loc
    · rfl
    · simp only
      rw [if_pos hf, i32_ok (by unfold InI32; omega), Out.ok_bind]
  unfold check_range_core
  simp only at hm ⊢
  rw [i32_ok (by unfold InI32; omega), Out.ok_bind]
  have hl : loc.toNat = 0 ∨ loc.toNat = 1 := by cases loc <;> simp [Loc.toNat]
  by_cases h1 : x < -(n : Int) - f.offset
  · rw [if_pos h1, if_neg (by simp only [Dim.Has]; omega), hfail]
  · rw [if_neg h1, i32_ok (by unfold InI32; omega), Out.ok_bind, i32_ok (by unfold InI32; omega), Out.ok_bind]
    by_cases h2 : (i : Int) + p + loc.toNat - f.offset ≤ x
    · rw [if_pos h2, if_neg (by simp only [Dim.Has]; omega), hfail]
    · rw [if_neg h2, if_pos (by simp only [Dim.Has]; omega)]

/-- the flag check of one dimension -/
theorem D1.PD.check_flag_eq (chk : Bool) (L : Loc) (f : FL) :
    D1.PD.check_flag chk L f = if chk = true ∧ flagFits L f = false then .err (flagErr 0 L) else .ok () := by
  cases chk <;> cases L <;> cases f <;> rfl
theorem D2.PD.checkFlagDim_eq (chk : Bool) (d : Nat) (L : Loc) (f : FL) :
    D2.PD.checkFlagDim chk d L f = if chk = true ∧ flagFits L f = false then .err (flagErr d L) else .ok () := by
  cases chk <;> cases L <;> cases f <;> rfl
theorem D3.PD.checkFlagDim_eq (chk : Bool) (d : Nat) (L : Loc) (f : FL) :
    D3.PD.checkFlagDim chk d L f = if chk = true ∧ flagFits L f = false then .err (flagErr d L) else .ok () := by
  cases chk <;> cases L <;> cases f <;> rfl

theorem mul_add_lt {n N k W : Nat} (h : n < N) (hk : k < W) : n * W + k < N * W := by
  have := Nat.mul_le_mul_right W (Nat.succ_le_of_lt h)
  rw [Nat.succ_mul] at this; omega

theorem mul_add_le {n N k W : Nat} (h : n < N) (hk : k ≤ W) : n * W + k ≤ N * W := by
  have := Nat.mul_le_mul_right W (Nat.succ_le_of_lt h)
  rw [Nat.succ_mul] at this; omega

namespace Spec
theorem Dim.nonneg_of_has {m : Dim} {x : Int} (h : m.Has x) : 0 ≤ x + m.ext.n := by
  unfold Dim.Has at h; omega
theorem Dim.int_of_has {m : Dim} {x : Int} (h : m.Has x) (hm : m.ext.n + m.ext.i + m.ext.p + 1 < 2147483648) : InI32 x := by
  unfold Dim.Has at h; unfold InI32
  have : m.loc.toNat ≤ 1 := by cases m.loc <;> simp [Loc.toNat]
  omega
theorem Dim.n_le_width (m : Dim) : m.ext.n ≤ m.width := by unfold Dim.width; omega
theorem Dim.width_lt (m : Dim) (hm : m.ext.n + m.ext.i + m.ext.p + 1 < 2147483648) : m.width < 2147483648 := by
  unfold Dim.width
  have : m.loc.toNat ≤ 1 := by cases m.loc <;> simp [Loc.toNat]
  omega
theorem Dim.fits {m : Dim} (hm : m.ext.n + m.ext.i + m.ext.p + 1 < 2147483648) : m.ext.Fits := by
  unfold Ext.Fits; omega
end Spec

/-- the machine width of a dimension -/
theorem width_u32 (e : Ext) (L : Loc) (h : e.n + e.i + e.p < 2147483648) :
    u32 ((tagEnd e.i e.p .ALL - tagBegin e.n e.i .ALL).toNat + L.toNat) = (Dim.mk e L).width := by
  have : L.toNat ≤ 1 := by cases L <;> simp [Loc.toNat]
  simp only [tagEnd, tagBegin, Dim.width]
  rw [u32_of_lt (by omega)]; omega

/-- the check of one dimension of a size -/
theorem checkDim_eq (e : Ext) (h : e.n + e.i + e.p < 2147483648) (d : Nat) :
    (if (e.i : Int) = 0 then (do
        let t ← i32 ((e.n : Int) + e.p)
        if t ≠ 0 then Out.err (.sizeIn d) else .ok ()) else .ok ())
      = if e.i = 0 ∧ e.n + e.p ≠ 0 then .err (.sizeIn d) else .ok () := by
  by_cases hi : e.i = 0
  · rw [if_pos (by omega), i32_ok (by unfold InI32; omega), Out.ok_bind]
    by_cases hn : e.n + e.p = 0
    · rw [if_neg (by omega), if_neg (by omega)]
    · rw [if_pos (by omega), if_pos (by omega)]
  · rw [if_neg (by omega), if_neg (by omega)]

/-- an optional error as an outcome -/
def Out.ofErr : Option Err → Out Unit
  | none => .ok ()
  | some e => .err e

end Verif
