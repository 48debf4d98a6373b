import Verif.Props.TecBuf
import Verif.Proof.Quiet
/-!
# Buffers of whole zones and of zones with too many points: C36
-/
namespace Verif.Props
open Spec Tec

/-- C36 for zones written whole: the arrays of the user are used themselves, whatever the sizes are; no memory is needed -/
theorem C36_whole (z : Zone) (h : Heap Byte) (hw : ∀ i < 3, (z.sel i).skip = 1 ∧ (z.sel i).head = 0 ∧ (z.sel i).tail = 0) :
    Zone.make_buf ⟨h, z.gathered⟩ =
      .ok () ⟨h, { z.gathered with Data := z.Data.map fun d => { d with buf := d.DataP }, needreal := false }⟩ := by
  have hc : (z.gathered.noskip && z.gathered.noexc) = true := by
    simp only [Zone.gathered, (hw 0 (by decide)).1, (hw 1 (by decide)).1, (hw 2 (by decide)).1, (hw 0 (by decide)).2.1, (hw 1 (by decide)).2.1,
      (hw 2 (by decide)).2.1, (hw 0 (by decide)).2.2, (hw 1 (by decide)).2.2, (hw 2 (by decide)).2.2]
    rfl
  unfold Zone.make_buf
  rw [M.bind_ok (St.obj_run _), if_pos hc]
  have e := Zone.setBuf_all z.gathered h (fun d => d.DataP) z.Data []
  simp only [List.nil_append, List.length_nil] at e
  rw [M.bind_ok (show eachIdx (fun i d => Zone.setBuf i d.DataP) 0 z.gathered.Data ⟨h, z.gathered⟩ = _ from e), St.modObj_run]

/-- C36 beyond `int`: if a part of the zone is left out and the number of selected points, or of those of the first two
dimensions, is not an `int`, then `make_buf` is undefined as soon as there is a variable -/
theorem C36_over (z : Zone) (h : Heap Byte) (hw : ∃ i < 3, ¬((z.sel i).skip = 1 ∧ (z.sel i).head = 0 ∧ (z.sel i).tail = 0)) (hd : z.Data ≠ [])
    (ho : ¬InI32 ((z.sel 0).count * (z.sel 1).count) ∨ ¬InI32 ((z.sel 0).count * (z.sel 1).count * (z.sel 2).count)) :
    Zone.make_buf ⟨h, z.gathered⟩ = .ub .overflow := by
  have hc : ¬(z.gathered.noskip && z.gathered.noexc) = true := by
    intro c
    rw [Bool.and_eq_true] at c
    obtain ⟨i, hi, hw⟩ := hw
    exact hw ⟨Zone.gathered_noskip c.1 i hi, (Zone.gathered_noexc c.2 i hi).1, (Zone.gathered_noexc c.2 i hi).2⟩
  have hp : z.gathered.realProd = .ub .overflow := by
    unfold Zone.realProd
    show (i32 ((z.sel 0).count * (z.sel 1).count) >>= fun a => i32 (a * (z.sel 2).count)) = _
    by_cases h0 : InI32 ((z.sel 0).count * (z.sel 1).count)
    · rw [i32_ok h0]
      exact i32_bad' (ho.resolve_left (fun c => c h0))
    · rw [i32_bad' h0]; rfl
  unfold Zone.make_buf
  rw [M.bind_ok (St.obj_run _), if_neg hc]
  apply M.bind_ub
  obtain ⟨d, l, e⟩ := List.exists_cons_of_ne_nil hd
  show eachIdx (fun i d => Zone.fillBuf i d) 0 z.Data _ = _
  rw [e]
  show (Zone.fillBuf 0 d >>= fun _ => _) _ = _
  apply M.bind_ub
  unfold Zone.fillBuf
  apply M.bind_ub
  unfold Zone.newBuf
  rw [M.bind_ok (St.obj_run _)]
  simp only [hp]
  rfl

/-- a whole zone of 65536 x 65537 points, and the zone of `C36_false_product` -/
example : (∀ i < 3, (({ bigZone with Skip := ⟨1, 1, 1⟩ } : Zone).sel i).skip = 1 ∧ (({ bigZone with Skip := ⟨1, 1, 1⟩ } : Zone).sel i).head = 0 ∧
    (({ bigZone with Skip := ⟨1, 1, 1⟩ } : Zone).sel i).tail = 0) ∧
    (∃ i < 3, ¬((bigZone.sel i).skip = 1 ∧ (bigZone.sel i).head = 0 ∧ (bigZone.sel i).tail = 0)) ∧ bigZone.Data ≠ [] := by
  refine ⟨fun i hi => ?_, ⟨0, by decide, by decide⟩, by decide⟩
  rcases (by omega : i = 0 ∨ i = 1 ∨ i = 2) with rfl | rfl | rfl <;> decide

example : ¬InI32 ((bigZone.sel 0).count * (bigZone.sel 1).count) := by
  have s : ∀ i < 3, (bigZone.sel i).Sane := by
    intro i hi
    rcases (by omega : i = 0 ∨ i = 1 ∨ i = 2) with rfl | rfl | rfl <;> (constructor <;> decide)
  rw [Sane.count_eq (s 0 (by decide)) (show _ < _ by decide), Sane.count_eq (s 1 (by decide)) (show _ < _ by decide)]
  decide +kernel

end Verif.Props
