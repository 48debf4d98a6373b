import Verif.Proof.Lifecycle
/-!
# `alloc` of shapes whose number of points wraps to zero
-/
namespace Verif
open Spec
variable {V : Type}

theorem D2.PD.alloc_wrap (chk : Bool) {N L0 L1} {e0 e1 : Ext} {h : Heap V} {o : D2.PD} (hd : o.data = .null)
    (hf0 : e0.n + e0.i + e0.p + 1 < 2147483648) (hf1 : e1.n + e1.i + e1.p + 1 < 2147483648)
    (he : sizeErrs 0 [e0, e1] = none) (hp : 4294967296 ∣ points [⟨e0, L0⟩, ⟨e1, L1⟩]) :
    D2.PD.alloc chk N L0 L1 e0.n e0.i e0.p e1.n e1.i e1.p ⟨h, o⟩ = .ok () ⟨h, o⟩ := by
  have hfit0 : e0.Fits := by unfold Ext.Fits; omega
  have hfit1 : e1.Fits := by unfold Ext.Fits; omega
  have hz0 := (D2.sz_acc_0 chk e0 e1 hfit0 .ALL).2.2.1
  have hz1 := (D2.sz_acc_1 chk e0 e1 hfit1 .ALL).2.2.1
  unfold D2.sz at hz0 hz1
  unfold D2.PD.alloc
  rw [M.bind_ok (St.obj_run _)]; simp only; rw [if_neg (by simp [hd]), D2.PD.check_eq e0 e1 (Nat.lt_of_succ_lt hf0) (Nat.lt_of_succ_lt hf1), he]
  have hz : u32 ((Dim.mk e0 L0).width * (Dim.mk e1 L1).width) = 0 := by
    simp only [points, Nat.mul_one] at hp
    exact Nat.mod_eq_zero_of_dvd hp
  simp only [Out.ofErr, hz0, hz1, M.liftM_eq, M.lift_ok, pure_bind, width_u32 e0 L0 (Nat.lt_of_succ_lt hf0), width_u32 e1 L1 (Nat.lt_of_succ_lt hf1), hz]
  rfl

theorem D3.PD.alloc_wrap (chk : Bool) {N L0 L1 L2} {e0 e1 e2 : Ext} {h : Heap V} {o : D3.PD} (hd : o.data = .null)
    (hf0 : e0.n + e0.i + e0.p + 1 < 2147483648) (hf1 : e1.n + e1.i + e1.p + 1 < 2147483648) (hf2 : e2.n + e2.i + e2.p + 1 < 2147483648)
    (he : sizeErrs 0 [e0, e1, e2] = none) (hp : 4294967296 ∣ points [⟨e0, L0⟩, ⟨e1, L1⟩, ⟨e2, L2⟩]) :
    D3.PD.alloc chk N L0 L1 L2 e0.n e0.i e0.p e1.n e1.i e1.p e2.n e2.i e2.p ⟨h, o⟩ = .ok () ⟨h, o⟩ := by
  have hfit0 : e0.Fits := by unfold Ext.Fits; omega
  have hfit1 : e1.Fits := by unfold Ext.Fits; omega
  have hfit2 : e2.Fits := by unfold Ext.Fits; omega
  have hz0 := (D3.sz_acc_0 chk e0 e1 e2 hfit0 .ALL).2.2.1
  have hz1 := (D3.sz_acc_1 chk e0 e1 e2 hfit1 .ALL).2.2.1
  have hz2 := (D3.sz_acc_2 chk e0 e1 e2 hfit2 .ALL).2.2.1
  unfold D3.sz at hz0 hz1 hz2
  unfold D3.PD.alloc
  rw [M.bind_ok (St.obj_run _)]; simp only; rw [if_neg (by simp [hd]), D3.PD.check_eq e0 e1 e2 (Nat.lt_of_succ_lt hf0) (Nat.lt_of_succ_lt hf1) (Nat.lt_of_succ_lt hf2), he]
  have hz : u32 (u32 ((Dim.mk e0 L0).width * (Dim.mk e1 L1).width) * (Dim.mk e2 L2).width) = 0 := by
    simp only [points, Nat.mul_one, ← Nat.mul_assoc] at hp
    unfold u32
    rw [Nat.mod_mul_mod]
    exact Nat.mod_eq_zero_of_dvd hp
  simp only [Out.ofErr, hz0, hz1, hz2, M.liftM_eq, M.lift_ok, pure_bind, width_u32 e0 L0 (Nat.lt_of_succ_lt hf0), width_u32 e1 L1 (Nat.lt_of_succ_lt hf1), width_u32 e2 L2 (Nat.lt_of_succ_lt hf2), hz]
  rfl

end Verif
