import Verif.Proof.TecW4
import Verif.Proof.TecSizeAll
import Verif.Spec.TecPreAll
/-!
# The checks before a file is written, for arbitrary `int` settings
-/
namespace Verif.Tec
open Spec

theorem Zone.gather_cases {z : Zone} (ht : ∀ i < 3, (z.sel i).IsInt) :
    ((∀ i < 3, (z.sel i).verdict = .pass) ∧ (∀ i < 3, (z.sel i).SpanFits) ∧ Zone.gather_real_size z = .ok () z.measured) ∨
    (z.Overflows ∧ Zone.gather_real_size z = .ub .overflow) ∨
    ((¬∀ i < 3, (z.sel i).verdict = .pass) ∧ ¬z.Overflows ∧ ∃ m, Zone.gather_real_size z = .err (.text m) z) := by
  by_cases hp : ∀ i < 3, (z.sel i).verdict = .pass
  · by_cases hf : ∀ i < 3, (z.sel i).SpanFits
    · exact .inl ⟨hp, hf, (Zone.gather_pass hp ht).1 hf⟩
    · have hf' : ∃ i < 3, ¬(z.sel i).SpanFits := by
        by_contra c; apply hf; intro i hi; by_contra d; exact c ⟨i, hi, d⟩
      exact .inr (.inl ⟨.inr ⟨hp, hf'⟩, (Zone.gather_pass hp ht).2 hf'⟩)
  · have first : ∃ i < 3, (∀ j < i, (z.sel j).verdict = .pass) ∧ (z.sel i).verdict ≠ .pass := by
      by_cases h0 : (z.sel 0).verdict = .pass
      · by_cases h1 : (z.sel 1).verdict = .pass
        · refine ⟨2, by decide, fun j hj => ?_, fun h2 => hp fun i hi => ?_⟩
          · rcases (by omega : j = 0 ∨ j = 1) with rfl | rfl <;> assumption
          · rcases (by omega : i = 0 ∨ i = 1 ∨ i = 2) with rfl | rfl | rfl <;> assumption
        · refine ⟨1, by decide, fun j hj => ?_, h1⟩
          obtain rfl : j = 0 := by omega
          exact h0
      · exact ⟨0, by decide, fun j hj => absurd hj (by omega), h0⟩
    obtain ⟨i, hi, hb, hv⟩ := first
    cases v : (z.sel i).verdict with
    | pass => exact absurd v hv
    | overflow => exact .inr (.inl ⟨.inl ⟨i, hi, hb, v⟩, Zone.gather_over hi hb v⟩)
    | refuse n =>
      refine .inr (.inr ⟨hp, ?_, _, Zone.gather_refuse hi hb v⟩)
      rintro (⟨k, hk, hkb, hkv⟩ | ⟨h, -⟩)
      · rcases Nat.lt_trichotomy i k with h | h | h
        · exact hv (hkb i h)
        · subst h; rw [v] at hkv; cases hkv
        · rw [hb k h] at hkv; cases hkv
      · exact hp h

/-- the log of a zone after the checks -/
def Zone.measuredLog (z : Zone) (l : ZoneLog) : ZoneLog := { l with
  Dim := z.measured.Dim
  Real_Dim := z.measured.Real_Dim
  Real_Max := z.measured.Real_Max
  noskip := z.measured.noskip
  noexc := z.measured.noexc
  Data := l.Data ++ z.Data.map DataLog.ofData }

theorem Zone.pre_pass {z : Zone} {vars : List Str} (hv : vars ≠ []) (ht : ∀ i < 3, (z.sel i).IsInt) (v : z.Passes vars) (l : ZoneLog) :
    Zone.wrtie_plt_pre vars (z, l) = .ok () (z.measured, z.measuredLog l) := by
  unfold Zone.wrtie_plt_pre
  have g := (Zone.gather_pass v.dims ht).1 v.span
  rw [M.bind_ok (show Zone.alone Zone.gather_real_size (z, l) = .ok () (z.measured, l) by unfold Zone.alone; rw [g]), M.modify_bind_run, M.get_bind_run]
  have hl : z.measured.Data.length = vars.length := v.len
  have h0 : z.measured.Data.length ≠ 0 := by
    rw [hl]; intro e; exact hv (List.length_eq_zero_iff.mp e)
  simp only
  rw [if_neg h0, if_neg (by simpa using hl), preVars_ok vars z.measured z.measured.Data v.set]
  rfl

theorem Zone.pre_over {z : Zone} {vars : List Str} (ht : ∀ i < 3, (z.sel i).IsInt) (v : z.Overflows) (l : ZoneLog) :
    Zone.wrtie_plt_pre vars (z, l) = .ub .overflow := by
  unfold Zone.wrtie_plt_pre
  rcases Zone.gather_cases ht with ⟨hp, hf, -⟩ | ⟨-, e⟩ | ⟨-, h, -⟩
  · rcases v with ⟨k, hk, -, hkv⟩ | ⟨-, k, hk, c⟩
    · rw [hp k hk] at hkv; cases hkv
    · exact absurd (hf k hk) c
  · exact M.bind_ub (show Zone.alone Zone.gather_real_size (z, l) = .ub .overflow by unfold Zone.alone; rw [e])
  · exact absurd v h

theorem Zone.pre_refuse {z : Zone} {vars : List Str} (ht : ∀ i < 3, (z.sel i).IsInt) (v : ¬z.Passes vars) (ho : ¬z.Overflows) (l : ZoneLog) :
    ∃ m s, Zone.wrtie_plt_pre vars (z, l) = .err (.text m) s := by
  unfold Zone.wrtie_plt_pre
  rcases Zone.gather_cases ht with ⟨hp, hf, g⟩ | ⟨h, -⟩ | ⟨-, -, m, e⟩
  · rw [M.bind_ok (show Zone.alone Zone.gather_real_size (z, l) = .ok () (z.measured, l) by unfold Zone.alone; rw [g]), M.modify_bind_run, M.get_bind_run]
    simp only
    by_cases h0 : z.measured.Data.length = 0
    · rw [if_pos h0]; exact ⟨_, _, rfl⟩
    · rw [if_neg h0]
      by_cases hl : z.measured.Data.length = vars.length
      · rw [if_neg (by simpa using hl)]
        obtain ⟨m, L', e⟩ := preVars_bad vars z.measured z.measured.Data (fun hs => v ⟨hp, hf, hl, hs⟩) 0 _ (by omega)
        exact ⟨m, _, e⟩
      · rw [if_pos hl]; exact ⟨_, _, rfl⟩
  · exact absurd h ho
  · exact ⟨m, _, M.bind_err (show Zone.alone Zone.gather_real_size (z, l) = .err (.text m) (z, l) by unfold Zone.alone; rw [e])⟩

theorem preZone_pass {i : Nat} {z : Zone} {s : FSt} (hi : s.f.Zones[i]? = some z) (hl : s.f.last_log.Zones.length = i)
    (hv : s.f.Variables ≠ []) (p : ∀ i < 3, (z.sel i).IsInt) (v : z.Passes s.f.Variables) :
    TecFile.preZone i z s = .ok () (s.withZones (s.f.Zones.set i z.measured) (s.f.last_log.Zones ++ [z.measuredLog (ZoneLog.ofZone z)])) := by
  obtain ⟨e, e1, e2⟩ := preZone_run hi hl
  rw [e]
  have := Zone.pre_pass hv p v (ZoneLog.ofZone z)
  unfold FSt.recordErr FSt.zone
  rw [e1, e2]
  simp only [ZSt.pair, this]
  subst hl
  simp [FSt.withZones]

theorem preZone_refuse {i : Nat} {z : Zone} {s : FSt} (hi : s.f.Zones[i]? = some z) (hl : s.f.last_log.Zones.length = i)
    (p : ∀ i < 3, (z.sel i).IsInt) (v : ¬z.Passes s.f.Variables) (ho : ¬z.Overflows) :
    ∃ m f', TecFile.preZone i z s = .err (.text m) { s with f := f' } ∧ f'.last_log.Error = m := by
  obtain ⟨e, e1, e2⟩ := preZone_run hi hl
  rw [e]
  obtain ⟨m, t, h⟩ := Zone.pre_refuse p v ho (ZoneLog.ofZone z)
  unfold FSt.recordErr FSt.zone
  rw [e1, e2]
  simp only [ZSt.pair, h]
  exact ⟨_, _, rfl, rfl⟩

theorem preZone_over {i : Nat} {z : Zone} {s : FSt} (hi : s.f.Zones[i]? = some z) (hl : s.f.last_log.Zones.length = i)
    (p : ∀ i < 3, (z.sel i).IsInt) (ho : z.Overflows) : TecFile.preZone i z s = .ub .overflow := by
  obtain ⟨e, e1, e2⟩ := preZone_run hi hl
  rw [e]
  have h := Zone.pre_over (vars := s.f.Variables) p ho (ZoneLog.ofZone z)
  unfold FSt.recordErr FSt.zone
  rw [e1, e2]
  simp only [ZSt.pair, h]

/-- the zones that pass are checked, then the rest follows in a state that differs in the object only -/
theorem preZones_pass (l r : List Zone) : ∀ (done : List Zone) (s : FSt), s.f.Zones = done ++ (l ++ r) → s.f.last_log.Zones.length = done.length →
    s.f.Variables ≠ [] → (∀ z ∈ l, (∀ i < 3, (z.sel i).IsInt) ∧ z.Passes s.f.Variables) →
    ∃ done' L, done'.length = done.length + l.length ∧ L.length = done'.length ∧
    eachIdx TecFile.preZone done.length (l ++ r) s = eachIdx TecFile.preZone done'.length r (s.withZones (done' ++ r) L) := by
  induction l with
  | nil => intro done s h1 h2 _ _; exact ⟨done, s.f.last_log.Zones, by simp, h2, by rw [List.nil_append] at h1 ⊢; simp [FSt.withZones, ← h1]⟩
  | cons z l ih =>
    intro done s h1 h2 h3 h4
    obtain ⟨p, v⟩ := h4 z (by simp)
    obtain ⟨done', L, e1, e2, e⟩ := ih (done ++ [z.measured])
      (s.withZones (s.f.Zones.set done.length z.measured) (s.f.last_log.Zones ++ [z.measuredLog (ZoneLog.ofZone z)]))
      (by simp [FSt.withZones, h1]) (by simp [FSt.withZones, h2]) h3 (fun z hz => h4 z (by simp [hz]))
    refine ⟨done', L, by rw [e1]; simp; omega, e2, ?_⟩
    show (TecFile.preZone done.length z >>= fun _ => eachIdx TecFile.preZone (done.length + 1) (l ++ r)) s = _
    rw [M.bind_ok (preZone_pass (by rw [h1]; simp) h2 h3 p v)]
    rw [List.length_append, List.length_singleton] at e
    rw [e]
    rfl

theorem pre_all {E : Env} {s : FSt} (hv : s.f.Variables ≠ []) (l r : List Zone) (hz : s.f.Zones = l ++ r) (hn : s.f.Zones ≠ [])
    (h : ∀ z ∈ l, (∀ i < 3, (z.sel i).IsInt) ∧ z.Passes s.f.Variables) :
    ∃ done L, done.length = l.length ∧ L.length = done.length ∧
      TecFile.wrtie_plt_pre (s.started E) = eachIdx TecFile.preZone done.length r ((s.started E).withZones (done ++ r) L) := by
  unfold TecFile.wrtie_plt_pre
  rw [M.get_bind_run]
  have h1 : ¬(s.started E).f.Variables.length = 0 := fun e => hv (List.length_eq_zero_iff.mp e)
  have h2 : ¬(s.started E).f.Zones.length = 0 := fun e => hn (List.length_eq_zero_iff.mp e)
  rw [if_neg h1, if_neg h2]
  obtain ⟨done, L, e1, e2, e⟩ := preZones_pass l r [] (s.started E) hz rfl hv h
  refine ⟨done, L, by simpa using e1, e2, ?_⟩
  rw [← e, ← hz]
  rfl

theorem pre_refuse {E : Env} {s : FSt} (hv : s.f.Variables ≠ []) (l r : List Zone) (z : Zone) (hz : s.f.Zones = l ++ z :: r)
    (h : ∀ z ∈ l, (∀ i < 3, (z.sel i).IsInt) ∧ z.Passes s.f.Variables) (p : ∀ i < 3, (z.sel i).IsInt) (v : ¬z.Passes s.f.Variables) (ho : ¬z.Overflows) :
    ∃ m f', TecFile.wrtie_plt_pre (s.started E) = .err (.text m) { s with f := f' } ∧ f'.last_log.Error = m := by
  obtain ⟨done, L, e1, e2, e⟩ := pre_all (E := E) hv l (z :: r) hz (by rw [hz]; simp) h
  rw [e]
  obtain ⟨m, f', e3, e4⟩ := preZone_refuse (i := done.length) (z := z) (s := (s.started E).withZones (done ++ z :: r) L)
    (by simp [FSt.withZones]) (by simpa [FSt.withZones] using e2) p v ho
  exact ⟨m, f', M.bind_err e3, e4⟩

theorem pre_over {E : Env} {s : FSt} (hv : s.f.Variables ≠ []) (l r : List Zone) (z : Zone) (hz : s.f.Zones = l ++ z :: r)
    (h : ∀ z ∈ l, (∀ i < 3, (z.sel i).IsInt) ∧ z.Passes s.f.Variables) (p : ∀ i < 3, (z.sel i).IsInt) (ho : z.Overflows) :
    TecFile.wrtie_plt_pre (s.started E) = .ub .overflow := by
  obtain ⟨done, L, e1, e2, e⟩ := pre_all (E := E) hv l (z :: r) hz (by rw [hz]; simp) h
  rw [e]
  exact M.bind_ub (preZone_over (i := done.length) (z := z) (s := (s.started E).withZones (done ++ z :: r) L)
    (by simp [FSt.withZones]) (by simpa [FSt.withZones] using e2) p ho)

theorem pre_pass {E : Env} {s : FSt} (hv : s.f.Variables ≠ []) (hn : s.f.Zones ≠ [])
    (h : ∀ z ∈ s.f.Zones, (∀ i < 3, (z.sel i).IsInt) ∧ z.Passes s.f.Variables) :
    ∃ Z L, TecFile.wrtie_plt_pre (s.started E) = .ok () ((s.started E).withZones Z L) := by
  obtain ⟨done, L, e1, e2, e⟩ := pre_all (E := E) hv s.f.Zones [] (by simp) hn h
  exact ⟨done ++ [], L, e⟩

end Verif.Tec
