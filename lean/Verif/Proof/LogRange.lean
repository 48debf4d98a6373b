import Verif.Proof.TecBody
import Verif.Proof.Printf2
import Verif.Spec.Extremes
import Verif.Props.TecMirror
/-!
# The extreme values in the log of a written file
-/
namespace Verif.Tec
open Spec Props

theorem value_small {t : TecType} {n : Nat} (hn : n < 2 ^ (8 * t.bytes)) (f : Finite t n) : (value t n).natAbs < 2 ^ 2098 := by
  have ints : ∀ k, 1 ≤ k → k ≤ 4 → n < 2 ^ (8 * k) → (signed k n * 2 ^ 1074).natAbs < 2 ^ 2098 := by
    intro k h1 h4 hn
    have h2 : (2 : Int) ^ (8 * k) ≤ 2 ^ 32 := pow_le_pow_right₀ (by norm_num) (by omega)
    have h3 : (n : Int) < 2 ^ (8 * k) := by exact_mod_cast hn
    have h5 : (signed k n).natAbs < 2 ^ 53 := by unfold signed; split <;> omega
    rw [Int.natAbs_mul, show ((2 : Int) ^ 1074).natAbs = 2 ^ 1074 by decide +kernel]
    refine lt_of_lt_of_le (Nat.mul_lt_mul_of_pos_right h5 (Nat.pow_pos (by decide))) ?_
    decide +kernel
  cases t with
  | double =>
    have e : (BitVec.ofNat 64 n).toNat = n := by rw [BitVec.toNat_ofNat]; exact Nat.mod_eq_of_lt hn
    have f : IsFinite (BitVec.ofNat 64 n) := by unfold IsFinite; rw [e]; exact f
    have h := F64.abs_lt ((F64.finite_iff _).mp f)
    have h2 := F64.scaled_eq (BitVec.ofNat 64 n)
    rw [e] at h2
    show (scaled 64 52 n).natAbs < 2 ^ 2098
    rw [h2]
    cases F64.neg (BitVec.ofNat 64 n) <;> simpa using h
  | float =>
    have f : finite 32 23 n := f
    have hn : n < 2 ^ 32 := hn
    have hm : ∀ m, m < 255 * 2 ^ 23 → mag 23 m < 2 ^ 278 := by
      intro m hm
      unfold mag
      have h1 : m % 2 ^ 23 < 2 ^ 23 := Nat.mod_lt _ (by decide)
      have h2 : m / 2 ^ 23 - 1 ≤ 253 := by omega
      split
      · exact lt_trans h1 (by decide)
      · calc (2 ^ 23 + m % 2 ^ 23) * 2 ^ (m / 2 ^ 23 - 1) ≤ (2 ^ 24) * 2 ^ 253 := Nat.mul_le_mul (by omega) (Nat.pow_le_pow_right (by decide) h2)
          _ < 2 ^ 278 := by decide
    have hs : (scaled 32 23 n).natAbs < 2 ^ 278 := by
      unfold finite at f
      unfold scaled
      split
      · rename_i hc
        rw [Int.natAbs_natCast]
        exact hm _ (by omega)
      · rw [Int.natAbs_neg, Int.natAbs_natCast]
        exact hm _ (by omega)
    show (scaled 32 23 n * 2 ^ 925).natAbs < 2 ^ 2098
    rw [Int.natAbs_mul, show ((2 : Int) ^ 925).natAbs = 2 ^ 925 by decide +kernel]
    refine lt_of_lt_of_le (Nat.mul_lt_mul_of_pos_right hs (Nat.pow_pos (by decide))) ?_
    decide +kernel
  | longint => exact (ints 4 (by decide) (by decide) hn)
  | shortint => exact (ints 2 (by decide) (by decide) hn)
  | byte => exact (ints 1 (by decide) (by decide) hn)
  | null =>
    have hn : n < 1 := hn
    obtain rfl : n = 0 := by omega
    decide +kernel

theorem special_large {x : F64} (h : x.special = true) : 2 ^ 2098 ≤ x.abs := by
  have h1 : x.expo = 2047 := by unfold F64.special at h; exact beq_iff_eq.mp h
  unfold F64.abs
  rw [h1, if_neg (by decide)]
  refine le_trans (by decide +kernel : 2 ^ 2098 ≤ 2 ^ 52 * 2 ^ (2047 - 1)) (Nat.mul_le_mul_right _ (by omega))

theorem finite_of_small {x : F64} {v : Int} (h : scaled 64 52 x.toNat = v) (hv : v.natAbs < 2 ^ 2098) : IsFinite x := by
  rw [F64.finite_iff]
  cases hs : x.special with
  | false => rfl
  | true =>
    have := special_large hs
    rw [x.scaled_eq] at h
    have : v.natAbs = x.abs := by rw [← h]; cases x.neg <;> simp
    omega

end Verif.Tec

namespace Verif.Props
open Spec Tec

/-- the log of a variable with finite values -/
theorem log_range {E : Env} {echo : Bool} {s s' : FSt} {data : Nat → Nat → Str} (h : Ready s data)
    (r : TecFile.write_plt E echo s = .ok () s') {i j : Nat} {z : Zone} {d : TecData} (hi : s.f.Zones[i]? = some z) (hj : z.Data[j]? = some d)
    (ht : d.type ≠ .null) (hs : d.size = d.type.bytes) (hf : ∀ n ∈ picked z d.size (data i j), Finite d.type n) :
    ∃ k l lo hi', s'.f.last_log.Zones[i]? = some k ∧ k.Data[j]? = some l ∧ l.min = some lo ∧ l.max = some hi' ∧ IsFinite lo ∧ IsFinite hi' ∧
      Extremes d.type (picked z d.size (data i j)) (realVal lo) (realVal hi') := by
  obtain ⟨v, mm, c, w⟩ := write_plt_inv data h.zones h.fresh h.varOk r
  obtain ⟨Z, L, T, hfile, hZ, hL, hz⟩ := w.file
  obtain ⟨z', l', l'', -, e2, dn, J, X, e3⟩ := hz i z hi
  obtain ⟨T', e4⟩ := dn.log
  have fit := h.zones z (List.mem_of_getElem? hi)
  have hl := (h.vars i z j d hi hj).2.1
  have m := dn.minmax j d hj
  obtain ⟨⟨n1, m1, a1⟩, ⟨n2, m2, a2⟩, a3⟩ := range_of fit hl ht hs hf m
  have fin : ∀ (x : F64) (n : Nat), n ∈ picked z d.size (data i j) → scaled 64 52 x.toNat = Tec.value d.type n → IsFinite x := by
    intro x n hn hx
    exact finite_of_small hx (value_small (by rw [← hs]; exact column_lt fit hl hn) (hf n hn))
  have lg := log_entry hj (g := fun j => DataLog.filled (mm i j) (z.start (data i) (zoneBase ((s.checked E).f.headBytes ++ leBytes 4 f357).length
      (fun i => (s.f.Zones.getD i (Zone.new [] 0)).dataBytes (data i) (mm i)) 0 i) j))
  have real : ∀ (a b : Int), a = b → (a : ℚ) / 2 ^ 1074 = (b : ℚ) / 2 ^ 1074 := fun a b h => by rw [h]
  have mono : ∀ (a b : Int), a ≤ b → (a : ℚ) / 2 ^ 1074 ≤ (b : ℚ) / 2 ^ 1074 := fun a b h =>
    div_le_div_of_nonneg_right (by exact_mod_cast h) (pow_nonneg (by norm_num) _)
  refine ⟨l'', _, (mm i j).1, (mm i j).2, by rw [hfile]; exact e2, by rw [e3, e4]; exact lg, rfl, rfl, fin _ n1 m1 a1, fin _ n2 m2 a2, ?_⟩
  exact ⟨⟨n1, m1, real _ _ a1.symm⟩, ⟨n2, m2, real _ _ a2.symm⟩, fun n hn => ⟨mono _ _ (a3 n hn).1, mono _ _ (a3 n hn).2⟩⟩

end Verif.Props
