import Verif.Proof.TecPreAll
import Verif.Props.TecFile
/-!
# The checks on file objects with arbitrary `int` settings: C41
-/
namespace Verif.Props
open Spec Tec

/-- C41 for all `int` settings, negative ones included: the first zone that does not pass (`Zone.Passes` of
Verif/Spec/TecPreAll.lean) decides.  If its checks overflow the call is undefined; otherwise it throws, the message is recorded
and the disk, the standard output and the free store are as before. -/
theorem C41_exact (E : Env) (echo : Bool) (s : FSt) (ht : ∀ z ∈ s.f.Zones, ∀ i < 3, (z.sel i).IsInt) (hv : s.f.Variables ≠ [])
    (l r : List Zone) (z : Zone) (hz : s.f.Zones = l ++ z :: r) (hl : ∀ z ∈ l, z.Passes s.f.Variables) (v : ¬z.Passes s.f.Variables) :
    (z.Overflows → TecFile.write_plt E echo s = .ub .overflow) ∧
    (¬z.Overflows → ∃ m s', TecFile.write_plt E echo s = .err (.text m) s' ∧ s'.f.last_log.Error = m ∧
      s'.fs = s.fs ∧ s'.isOpen = s.isOpen ∧ s'.of = s.of ∧ s'.out = s.out ∧ s'.h = s.h) := by
  have hl' : ∀ z ∈ l, (∀ i < 3, (z.sel i).IsInt) ∧ z.Passes s.f.Variables := fun y hy => ⟨ht y (by rw [hz]; simp [hy]), hl y hy⟩
  have p := ht z (by rw [hz]; simp)
  rw [write_plt_eq]
  constructor
  · intro ho
    rw [M.bind_ub (pre_over (E := E) hv l r z hz hl' p ho)]
  · intro ho
    obtain ⟨m, f', e, he⟩ := pre_refuse (E := E) hv l r z hz hl' p v ho
    exact ⟨m, { s with f := f' }, by rw [M.bind_err e], he, rfl, rfl, rfl, rfl, rfl⟩

/-- nothing else is refused: if all zones pass the file is opened; where that fails the disk is as before -/
theorem C41_exact_open (E : Env) (echo : Bool) (s : FSt) (ht : ∀ z ∈ s.f.Zones, ∀ i < 3, (z.sel i).IsInt) (hv : s.f.Variables ≠ [])
    (hn : s.f.Zones ≠ []) (hp : ∀ z ∈ s.f.Zones, z.Passes s.f.Variables) (ho : E.canOpen (cstr s.f.path) = false) :
    ∃ s', TecFile.write_plt E echo s = .err (.text (cstr (lit "can not open file " ++ s.f.path))) s' ∧
      s'.f.last_log.Error = cstr (lit "can not open file " ++ s.f.path) ∧
      s'.fs = s.fs ∧ s'.isOpen = s.isOpen ∧ s'.of = s.of ∧ s'.out = s.out ∧ s'.h = s.h := by
  obtain ⟨Z, L, e⟩ := pre_pass (E := E) hv hn (fun z hz => ⟨ht z hz, hp z hz⟩)
  rw [write_plt_eq, M.bind_ok e]
  unfold TecFile.write_body
  have : TecFile.openFile E ((s.started E).withZones Z L) = .err (.text (cstr (lit "can not open file " ++ s.f.path)))
      { (s.started E).withZones Z L with f := { ((s.started E).withZones Z L).f with
        last_log := { ((s.started E).withZones Z L).f.last_log with Error := cstr (lit "can not open file " ++ s.f.path) } } } := by
    unfold TecFile.openFile
    simp only
    rw [if_neg]; rfl
    intro h
    have : E.canOpen (cstr s.f.path) = true := h
    rw [ho] at this; cases this
  rw [M.bind_err this]
  exact ⟨_, rfl, rfl, rfl, rfl, rfl, rfl, rfl⟩

/-- a zone with a negative stride that passes, one with a negative `Begin` whose sizes overflow, one that is refused -/
example : backZone.Passes [lit "x"] ∧ ({ backZone with Max := ⟨2147483647, 1, 1⟩, Begin := ⟨-5, 0, 0⟩ } : Zone).Overflows ∧
    ¬({ backZone with Begin := ⟨5, 0, 0⟩ } : Zone).Passes [lit "x"] ∧ ¬({ backZone with Begin := ⟨5, 0, 0⟩ } : Zone).Overflows := by
  refine ⟨⟨?_, ?_, rfl, ?_⟩, .inr ⟨?_, 0, by decide, fun h => ?_⟩, fun h => ?_, ?_⟩
  · intro i hi
    rcases (by omega : i = 0 ∨ i = 1 ∨ i = 2) with rfl | rfl | rfl <;> decide
  · intro i hi
    rcases (by omega : i = 0 ∨ i = 1 ∨ i = 2) with rfl | rfl | rfl <;> (unfold DimSel.SpanFits; decide)
  · intro d hd
    obtain rfl := List.mem_singleton.1 hd
    exact ⟨by decide, by decide, by decide⟩
  · intro i hi
    rcases (by omega : i = 0 ∨ i = 1 ∨ i = 2) with rfl | rfl | rfl <;> decide
  · exact absurd h.1 (by decide)
  · exact absurd (h.dims 0 (by decide)) (by decide)
  · rintro (⟨i, hi, hb, h⟩ | ⟨h, -⟩)
    · rcases (by omega : i = 0 ∨ i = 1 ∨ i = 2) with rfl | rfl | rfl <;> exact absurd h (by decide)
    · exact absurd (h 0 (by decide)) (by decide)

end Verif.Props
