import Verif.Spec.TecMirror
import Verif.Props.TecReport
import Verif.Props.RoundTrip
/-!
# C58: the log of a written file
-/
namespace Verif.Props
open Spec Tec

theorem gathered_flags (z : Zone) : (z.gathered.noskip = true ↔ ∀ i < 3, (z.sel i).skip = 1) ∧
    (z.gathered.noexc = true ↔ ∀ i < 3, (z.sel i).head = 0 ∧ (z.sel i).tail = 0) := by
  have all : ∀ P : Nat → Prop, (∀ i < 3, P i) ↔ P 0 ∧ P 1 ∧ P 2 := by
    intro P
    refine ⟨fun h => ⟨h 0 (by decide), h 1 (by decide), h 2 (by decide)⟩, fun h i hi => ?_⟩
    match i, hi with
    | 0, _ => exact h.1
    | 1, _ => exact h.2.1
    | 2, _ => exact h.2.2
  constructor
  · rw [all]; simp only [Zone.gathered, Bool.and_eq_true, beq_iff_eq, and_assoc]
  · rw [all]; simp only [Zone.gathered, Bool.and_eq_true, beq_iff_eq, and_assoc]

/-- C58: after `write_plt` the log repeats every setting of the file and tells what was computed -/
theorem C58 {E : Env} {echo : Bool} {s s' : FSt} {data : Nat → Nat → Str} (h : Ready s data)
    (r : TecFile.write_plt E echo s = .ok () s') : FileLogged E Zone.selectedPoints s.f s'.f.last_log := by
  obtain ⟨v, mm, c, w⟩ := write_plt_inv data h.zones h.fresh h.varOk r
  obtain ⟨c', pt, hc', hdat, -⟩ := C38 h r
  have len : c.length = s.f.lengthOf Zone.selectedPoints := by
    rw [w.bytes]
    exact file_length h.zones fun i z j d hi hj => by
      have := (h.varOk i z j d hi hj).len
      rw [List.length_map] at this; exact this
  have ec : c' = c := by
    rw [w.fs] at hc'; simpa using hc'.symm
  subst ec
  obtain ⟨Z, L, T, hf, hZ, hL, hz⟩ := w.file
  refine ⟨by rw [hf]; rfl, by rw [hf]; rfl, by rw [hf]; rfl, by rw [hf]; rfl, by rw [hf]; rfl, by rw [hf]; rfl, by rw [hf], by rw [hf], by rw [hf],
    by rw [hf]; exact congrArg some len, by rw [hf]; rfl, by rw [hf]; exact hL, ?_⟩
  intro i z k hi hk
  obtain ⟨z', l', l'', -, e2, dn, J, X, e3⟩ := hz i z hi
  have fit := h.zones z (List.mem_of_getElem? hi)
  have : k = l'' := by
    rw [hf] at hk
    have := hk.symm.trans e2
    simpa using this
  subst this
  obtain ⟨T', e4⟩ := dn.log
  obtain ⟨g1, g2⟩ := gathered_flags z
  rw [e3, e4]
  refine ⟨rfl, rfl, rfl, rfl, rfl, rfl, rfl, rfl, rfl, rfl, rfl, g1, g2, ?_, ?_, ?_⟩
  · simp [ZoneLog.filled, editRange_length, Zone.preLog, ZoneLog.ofZone]
  · intro j d kd hj hkd
    obtain ⟨l, dl, q1, -, q2, q3, q4, q5, q6, -, q7⟩ := hdat i z j d hi hj
    rw [hk] at q1
    cases q1
    have hkd' : k.Data[j]? = some kd := by rw [e3, e4]; exact hkd
    rw [q2] at hkd'
    cases hkd'
    have lg := log_entry hj (g := fun j => DataLog.filled (mm i j) (z.start (data i) (zoneBase ((s.checked E).f.headBytes ++ leBytes 4 f357).length
      (fun i => (s.f.Zones.getD i (Zone.new [] 0)).dataBytes (data i) (mm i)) 0 i) j))
    have em := hkd.symm.trans lg
    simp only [Option.some.injEq] at em
    refine ⟨q4, q5, ⟨pt i j, q3, ?_⟩, by rw [em]; rfl, by rw [em]; rfl⟩
    have hl : (z.selectedOf d (data i j)).length = z.points * d.size :=
      block_length fit (by have := (h.varOk i z j d hi hj).len; rw [List.length_map] at this; exact this)
    rw [← q6, hl, len] at q7
    exact q7
  · show some (z.dataBytes (data i) (mm i)).length = some (z.dataLen z.points)
    rw [Zone.dataBytes_length fit _ fun j d hj => by
      have := (h.varOk i z j d hi hj).len
      rw [List.length_map] at this; exact this]

/-- the hypotheses are met; some entries of the log -/
example : Ready tripState (fun _ _ => sourceBytes) ∧ ∃ s', TecFile.write_plt demoEnv true tripState = .ok () s' ∧
    s'.f.last_log.Title = lit "title" ∧ (s'.f.last_log.Zones.map fun z => [z.Max.x, z.End.x, z.Real_Max.x, z.Dim, z.Real_Dim]) =
      [[5, 2, 3, 2, 2]] ∧
    s'.f.last_log.Size = some (s'.f.lengthOf Zone.selectedPoints) := by
  refine ⟨tripReady, ?_⟩
  generalize hr : TecFile.write_plt demoEnv true tripState = r
  have : (Res.state r).map (fun s' => (s'.f.last_log.Title, (s'.f.last_log.Zones.map fun z => [z.Max.x, z.End.x, z.Real_Max.x, z.Dim, z.Real_Dim]),
      s'.f.last_log.Size == some (s'.f.lengthOf Zone.selectedPoints))) =
      some (lit "title", [[5, 2, 3, 2, 2]], true) := by rw [← hr]; decide +kernel
  cases r with
  | ok a s' =>
    simp only [Res.state, Option.map_some, Option.some.injEq, Prod.mk.injEq, beq_iff_eq] at this
    exact ⟨s', rfl, this⟩
  | err e s' => simp [Res.state] at this
  | ub u => simp [Res.state] at this

end Verif.Props
