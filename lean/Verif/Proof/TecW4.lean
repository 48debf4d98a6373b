import Verif.Proof.TecW3
import Verif.Spec.TecPre
/-!
# The checks before a file is written
-/
namespace Verif.Tec
open Spec

theorem plain_sane {d : DimSel} (p : DimPlain d) (h : d.skip ≠ 0) : d.Sane :=
  ⟨p.max, p.skip, by have := p.pos; omega, p.head, p.tail, p.sum⟩

theorem Zone.gather_bad {z : Zone} (p : ∀ i < 3, DimPlain (z.sel i)) (h : ¬((∀ i < 3, (z.sel i).skip ≠ 0) ∧ ∀ i < 3, (z.sel i).Accepted)) :
    ∃ m, Zone.gather_real_size z = .err (.text m) z := by
  by_cases s0 : (z.sel 0).skip = 0
  · exact Zone.gather_skip (by decide) s0 (by intro j hj; omega)
  have S0 := plain_sane (p 0 (by decide)) s0
  by_cases a0 : (z.sel 0).Accepted
  · by_cases s1 : (z.sel 1).skip = 0
    · refine Zone.gather_skip (i := 1) (by decide) s1 ?_
      intro j hj
      obtain rfl : j = 0 := by omega
      exact ⟨S0, a0⟩
    have S1 := plain_sane (p 1 (by decide)) s1
    by_cases a1 : (z.sel 1).Accepted
    · by_cases s2 : (z.sel 2).skip = 0
      · refine Zone.gather_skip (i := 2) (by decide) s2 ?_
        intro j hj
        rcases (by omega : j = 0 ∨ j = 1) with rfl | rfl
        · exact ⟨S0, a0⟩
        · exact ⟨S1, a1⟩
      have S2 := plain_sane (p 2 (by decide)) s2
      by_cases a2 : (z.sel 2).Accepted
      · exfalso; apply h
        constructor <;> intro i hi
        all_goals rcases (by omega : i = 0 ∨ i = 1 ∨ i = 2) with rfl | rfl | rfl <;> assumption
      · obtain ⟨m, e⟩ := Zone.checkDim_err (by decide) S2 a2
        refine ⟨m, ?_⟩
        unfold Zone.gather_real_size
        rw [M.get_bind_run, Zone.checkDim_ok (by decide) S0 a0, Zone.checkDim_ok (by decide) S1 a1, e]; rfl
    · obtain ⟨m, e⟩ := Zone.checkDim_err (by decide) S1 a1
      refine ⟨m, ?_⟩
      unfold Zone.gather_real_size
      rw [M.get_bind_run, Zone.checkDim_ok (by decide) S0 a0, e]; rfl
  · obtain ⟨m, e⟩ := Zone.checkDim_err (by decide) S0 a0
    refine ⟨m, ?_⟩
    unfold Zone.gather_real_size
    rw [M.get_bind_run, e]; rfl

/-- the log of a zone after the checks -/
def Zone.preLog (z : Zone) (l : ZoneLog) : ZoneLog := { l with
  Dim := z.gathered.Dim
  Real_Dim := z.gathered.Real_Dim
  Real_Max := z.gathered.Real_Max
  noskip := z.gathered.noskip
  noexc := z.gathered.noexc
  Data := l.Data ++ z.Data.map DataLog.ofData }

theorem preVars_ok (vars : List Str) (z : Zone) (l : List TecData) (h : ∀ d ∈ l, d.IsSet) : ∀ n (L : ZoneLog),
    eachIdx (Zone.preVar vars) n l (z, L) = .ok () (z, { L with Data := L.Data ++ l.map DataLog.ofData }) := by
  induction l with
  | nil => intro n L; show Res.ok () _ = _; simp
  | cons d l ih =>
    intro n L
    have hd := h d (by simp)
    have : Zone.preVar vars n d (z, L) = .ok () (z, { L with Data := L.Data ++ [DataLog.ofData d] }) := by
      unfold Zone.preVar
      rw [M.modify_bind_run, M.get_bind_run]
      simp only
      rw [if_neg (by rintro (h | h | h); exacts [hd.1 h, hd.2.1 h, hd.2.2 h])]; rfl
    show (Zone.preVar vars n d >>= fun _ => eachIdx (Zone.preVar vars) (n + 1) l) (z, L) = _
    rw [M.bind_ok this, ih (fun d hd => h d (by simp [hd]))]
    simp [List.append_assoc]

theorem preVars_bad (vars : List Str) (z : Zone) (l : List TecData) (h : ¬∀ d ∈ l, d.IsSet) : ∀ n (L : ZoneLog), n + l.length ≤ vars.length →
    ∃ m L', eachIdx (Zone.preVar vars) n l (z, L) = .err (.text m) (z, L') := by
  induction l with
  | nil => exact absurd (by simp) h
  | cons d l ih =>
    intro n L hn
    rw [List.length_cons] at hn
    show ∃ m L', (Zone.preVar vars n d >>= fun _ => eachIdx (Zone.preVar vars) (n + 1) l) (z, L) = _
    by_cases hd : d.DataP = .null ∨ d.type = .null ∨ d.size = 0
    · refine ⟨lit "Zone(" ++ z.ZoneName ++ lit ").Variable(" ++ vars[n] ++ lit "): Data is unset", { L with Data := L.Data ++ [DataLog.ofData d] }, ?_⟩
      apply M.bind_err
      unfold Zone.preVar
      rw [M.modify_bind_run, M.get_bind_run]
      simp only
      rw [if_pos hd, List.getElem?_eq_getElem (by omega)]
      rfl
    · have : Zone.preVar vars n d (z, L) = .ok () (z, { L with Data := L.Data ++ [DataLog.ofData d] }) := by
        unfold Zone.preVar
        rw [M.modify_bind_run, M.get_bind_run]
        simp only
        rw [if_neg hd]; rfl
      rw [M.bind_ok this]
      apply ih _ (n + 1) _ (by omega)
      intro hall
      apply h
      intro d' hd'
      rcases List.mem_cons.mp hd' with rfl | hm
      · exact ⟨fun e => hd (.inl e), fun e => hd (.inr (.inl e)), fun e => hd (.inr (.inr e))⟩
      · exact hall d' hm

theorem Zone.pre_ok {z : Zone} {vars : List Str} (hv : vars ≠ []) (p : ∀ i < 3, DimPlain (z.sel i)) (v : z.Valid vars) (l : ZoneLog) :
    Zone.wrtie_plt_pre vars (z, l) = .ok () (z.gathered, z.preLog l) := by
  unfold Zone.wrtie_plt_pre
  have g := Zone.gather_ok (fun i hi => plain_sane (p i hi) (v.skip i hi)) v.acc
  rw [M.bind_ok (show Zone.alone Zone.gather_real_size (z, l) = .ok () (z.gathered, l) by unfold Zone.alone; rw [g]), M.modify_bind_run, M.get_bind_run]
  have hl : z.gathered.Data.length = vars.length := v.len
  have h0 : z.gathered.Data.length ≠ 0 := by
    rw [hl]; intro e; exact hv (List.length_eq_zero_iff.mp e)
  simp only
  rw [if_neg h0, if_neg (by simpa using hl), preVars_ok vars z.gathered z.gathered.Data v.set]
  rfl

theorem Zone.pre_bad {z : Zone} {vars : List Str} (p : ∀ i < 3, DimPlain (z.sel i)) (v : ¬z.Valid vars) (l : ZoneLog) :
    ∃ m s, Zone.wrtie_plt_pre vars (z, l) = .err (.text m) s := by
  unfold Zone.wrtie_plt_pre
  by_cases hg : (∀ i < 3, (z.sel i).skip ≠ 0) ∧ ∀ i < 3, (z.sel i).Accepted
  · have g := Zone.gather_ok (fun i hi => plain_sane (p i hi) (hg.1 i hi)) hg.2
    rw [M.bind_ok (show Zone.alone Zone.gather_real_size (z, l) = .ok () (z.gathered, l) by unfold Zone.alone; rw [g]), M.modify_bind_run, M.get_bind_run]
    simp only
    by_cases h0 : z.gathered.Data.length = 0
    · rw [if_pos h0]; exact ⟨_, _, rfl⟩
    · rw [if_neg h0]
      by_cases hl : z.gathered.Data.length = vars.length
      · rw [if_neg (by simpa using hl)]
        obtain ⟨m, L', e⟩ := preVars_bad vars z.gathered z.gathered.Data (fun hs => v ⟨hg.1, hg.2, hl, hs⟩) 0 _ (by omega)
        exact ⟨m, _, e⟩
      · rw [if_pos hl]; exact ⟨_, _, rfl⟩
  · obtain ⟨m, e⟩ := Zone.gather_bad p hg
    exact ⟨m, _, M.bind_err (show Zone.alone Zone.gather_real_size (z, l) = .err (.text m) (z, l) by unfold Zone.alone; rw [e])⟩

/-! ## All zones -/

/-- zones and zone logs replaced -/
def FSt.withZones (s : FSt) (Z : List Zone) (L : List ZoneLog) : FSt :=
  { s with f := { s.f with
    Zones := Z
    last_log := { s.f.last_log with Zones := L } } }

/-- the state after the checks of all zones -/
theorem preZone_run {i : Nat} {z : Zone} {s : FSt} (hi : s.f.Zones[i]? = some z) (hl : s.f.last_log.Zones.length = i) :
    TecFile.preZone i z s = FSt.recordErr (FSt.zone i (ZSt.pair (Zone.wrtie_plt_pre s.f.Variables)))
      (s.withZones s.f.Zones (s.f.last_log.Zones ++ [ZoneLog.ofZone z])) ∧
    (s.withZones s.f.Zones (s.f.last_log.Zones ++ [ZoneLog.ofZone z])).f.Zones[i]? = some z ∧
    (s.withZones s.f.Zones (s.f.last_log.Zones ++ [ZoneLog.ofZone z])).f.last_log.Zones[i]? = some (ZoneLog.ofZone z) := by
  refine ⟨rfl, hi, ?_⟩
  simp only [FSt.withZones]
  rw [List.getElem?_append_right (by omega), hl, Nat.sub_self]; rfl

theorem preZone_ok {i : Nat} {z : Zone} {s : FSt} (hi : s.f.Zones[i]? = some z) (hl : s.f.last_log.Zones.length = i)
    (hv : s.f.Variables ≠ []) (p : ∀ i < 3, DimPlain (z.sel i)) (v : z.Valid s.f.Variables) :
    TecFile.preZone i z s = .ok () (s.withZones (s.f.Zones.set i z.gathered) (s.f.last_log.Zones ++ [z.preLog (ZoneLog.ofZone z)])) := by
  obtain ⟨e, e1, e2⟩ := preZone_run hi hl
  rw [e]
  have := Zone.pre_ok hv p v (ZoneLog.ofZone z)
  unfold FSt.recordErr FSt.zone
  rw [e1, e2]
  simp only [ZSt.pair, this]
  subst hl
  simp [FSt.withZones]

theorem preZone_bad {i : Nat} {z : Zone} {s : FSt} (hi : s.f.Zones[i]? = some z) (hl : s.f.last_log.Zones.length = i)
    (p : ∀ i < 3, DimPlain (z.sel i)) (v : ¬z.Valid s.f.Variables) :
    ∃ m f', TecFile.preZone i z s = .err (.text m) { s with f := f' } ∧ f'.last_log.Error = m := by
  obtain ⟨e, e1, e2⟩ := preZone_run hi hl
  rw [e]
  obtain ⟨m, t, h⟩ := Zone.pre_bad p v (ZoneLog.ofZone z)
  unfold FSt.recordErr FSt.zone
  rw [e1, e2]
  simp only [ZSt.pair, h]
  exact ⟨_, _, rfl, rfl⟩

theorem preZones_ok (l : List Zone) : ∀ (done : List Zone) (s : FSt), s.f.Zones = done ++ l → s.f.last_log.Zones.length = done.length →
    s.f.Variables ≠ [] → (∀ z ∈ l, (∀ i < 3, DimPlain (z.sel i)) ∧ z.Valid s.f.Variables) →
    eachIdx TecFile.preZone done.length l s =
      .ok () (s.withZones (done ++ l.map Zone.gathered) (s.f.last_log.Zones ++ l.map fun z => z.preLog (ZoneLog.ofZone z))) := by
  induction l with
  | nil => intro done s h1 h2 _ _; show Res.ok () s = _; simp [FSt.withZones, ← h1]
  | cons z l ih =>
    intro done s h1 h2 h3 h4
    show (TecFile.preZone done.length z >>= fun _ => eachIdx TecFile.preZone (done.length + 1) l) s = _
    obtain ⟨p, v⟩ := h4 z (by simp)
    rw [M.bind_ok (preZone_ok (by rw [h1]; simp) h2 h3 p v)]
    have := ih (done ++ [z.gathered]) (s.withZones (s.f.Zones.set done.length z.gathered) (s.f.last_log.Zones ++ [z.preLog (ZoneLog.ofZone z)]))
      (by simp [FSt.withZones, h1]) (by simp [FSt.withZones, h2]) h3 (fun z hz => h4 z (by simp [hz]))
    rw [List.length_append, List.length_singleton] at this
    rw [this]
    simp [FSt.withZones]

theorem preZones_bad (l : List Zone) : ∀ (done : List Zone) (s : FSt), s.f.Zones = done ++ l → s.f.last_log.Zones.length = done.length →
    s.f.Variables ≠ [] → (∀ z ∈ l, ∀ i < 3, DimPlain (z.sel i)) → (¬∀ z ∈ l, z.Valid s.f.Variables) →
    ∃ m f', eachIdx TecFile.preZone done.length l s = .err (.text m) { s with f := f' } ∧ f'.last_log.Error = m := by
  induction l with
  | nil => intro done s _ _ _ _ h; exact absurd (by simp) h
  | cons z l ih =>
    intro done s h1 h2 h3 h4 h5
    show ∃ m f', (TecFile.preZone done.length z >>= fun _ => eachIdx TecFile.preZone (done.length + 1) l) s = _ ∧ _
    have p := h4 z (by simp)
    by_cases v : z.Valid s.f.Variables
    · rw [M.bind_ok (preZone_ok (by rw [h1]; simp) h2 h3 p v)]
      have := ih (done ++ [z.gathered]) (s.withZones (s.f.Zones.set done.length z.gathered) (s.f.last_log.Zones ++ [z.preLog (ZoneLog.ofZone z)]))
        (by simp [FSt.withZones, h1]) (by simp [FSt.withZones, h2]) h3 (fun z hz => h4 z (by simp [hz])) (by
          intro hall; apply h5
          intro z' hz'
          rcases List.mem_cons.mp hz' with rfl | hm
          · exact v
          · exact hall z' hm)
      rw [List.length_append, List.length_singleton] at this
      exact this
    · obtain ⟨m, f', e, he⟩ := preZone_bad (by rw [h1]; simp) h2 p v
      exact ⟨m, f', M.bind_err e, he⟩

/-! ## `write_plt` -/

/-- the state in which the checks start -/
def FSt.started (E : Env) (s : FSt) : FSt :=
  { s with f := { s.f with last_log := { FileLog.ofFile s.f with Time_Begin := E.tBegin } } }

theorem write_plt_eq (E : Env) (echo : Bool) (s : FSt) :
    TecFile.write_plt E echo s = (TecFile.wrtie_plt_pre >>= fun _ => TecFile.write_body E echo) (s.started E) := by
  unfold TecFile.write_plt
  rw [M.modify_bind_run]
  rfl

/-- the state after the checks -/
def FSt.checked (E : Env) (s : FSt) : FSt :=
  (s.started E).withZones (s.f.Zones.map Zone.gathered) (s.f.Zones.map fun z => z.preLog (ZoneLog.ofZone z))

theorem pre_ok {E : Env} {s : FSt} (p : ∀ z ∈ s.f.Zones, ∀ i < 3, DimPlain (z.sel i)) (v : s.f.Valid) :
    TecFile.wrtie_plt_pre (s.started E) = .ok () (s.checked E) := by
  unfold TecFile.wrtie_plt_pre
  rw [M.get_bind_run]
  have h1 : ¬(s.started E).f.Variables.length = 0 := fun e => v.vars (List.length_eq_zero_iff.mp e)
  have h2 : ¬(s.started E).f.Zones.length = 0 := fun e => v.zones (List.length_eq_zero_iff.mp e)
  rw [if_neg h1, if_neg h2]
  exact preZones_ok s.f.Zones [] (s.started E) rfl rfl v.vars (fun z hz => ⟨p z hz, v.each z hz⟩)

theorem pre_bad {E : Env} {s : FSt} (p : ∀ z ∈ s.f.Zones, ∀ i < 3, DimPlain (z.sel i)) (v : ¬s.f.Valid) :
    ∃ m f', TecFile.wrtie_plt_pre (s.started E) = .err (.text m) { s with f := f' } ∧ f'.last_log.Error = m := by
  unfold TecFile.wrtie_plt_pre
  rw [M.get_bind_run]
  by_cases h1 : (s.started E).f.Variables.length = 0
  · rw [if_pos h1]; exact ⟨_, _, rfl, rfl⟩
  rw [if_neg h1]
  by_cases h2 : (s.started E).f.Zones.length = 0
  · rw [if_pos h2]; exact ⟨_, _, rfl, rfl⟩
  rw [if_neg h2]
  exact preZones_bad s.f.Zones [] (s.started E) rfl rfl (fun e => h1 (by rw [e]; rfl)) p
    (fun hall => v ⟨fun e => h1 (by show List.length s.f.Variables = 0; rw [e]; rfl), fun e => h2 (by show List.length s.f.Zones = 0; rw [e]; rfl), hall⟩)

end Verif.Tec
