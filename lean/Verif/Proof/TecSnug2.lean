import Verif.Proof.TecSnug
/-!
# `write_plt` of a valid file throws nothing if there is memory
-/
namespace Verif.Tec
open Spec

/-- `m` started in `s` throws nothing -/
structure Mute {σ α : Type} (m : M σ α) (s : σ) : Prop where
  no : ∀ e t, m s ≠ .err e t

theorem Mute.bind {σ α β : Type} {m : M σ α} {f : α → M σ β} {s : σ} (h : Mute m s) (hf : ∀ a t, m s = .ok a t → Mute (f a) t) : Mute (m >>= f) s := by
  refine ⟨fun e t => ?_⟩
  rw [M.bind_run]
  cases hm : m s with
  | ok a s1 => exact (hf a s1 hm).no e t
  | err e' s1 => exact absurd hm (h.no e' s1)
  | ub u => intro c; cases c

theorem mute_ok {σ α : Type} {m : M σ α} {s : σ} {a : α} {t : σ} (h : m s = .ok a t) : Mute m s := by
  exact ⟨fun e u c => by (rw [h] at c; cases c)⟩

theorem mute_ifB {c : Bool} {m : M FSt Unit} {s : FSt} (h : Mute m s) : Mute (ifB c m) s := by
  cases c with
  | true => exact h
  | false => exact mute_ok (a := ()) (t := s) rfl

theorem mute_out {α : Type} {o : Out α} (h : ∀ e, o ≠ .err e) (s : FSt) : Mute (liftM o : M FSt α) s := by
  refine ⟨fun e t => ?_⟩
  rw [M.liftM_eq]
  cases o with
  | ok a => intro c; cases c
  | err e' => exact absurd rfl (h e')
  | ub u => intro c; cases c

theorem mute_sprintf {n : Nat} {x : Str} (s : FSt) : Mute (liftM (sprintf n x) : M FSt Str) s :=
  mute_out (by intro e; unfold sprintf; split <;> simp) s

theorem mute_print (echo : Bool) (x : Str) (s : FSt) : Mute (FSt.print echo x) s := by
  have := fprint_run echo x s s.out s.f.last_log.Echo_Text
  rw [FSt.rep_self] at this
  exact mute_ok this

theorem mute_push (x : Str) (s : FSt) : Mute (FSt.push x) s := by
  have := fpush_run x s s.out s.f.last_log.Echo_Text
  rw [FSt.rep_self] at this
  exact mute_ok this

theorem mute_line (echo : Bool) (n : Nat) (x : Str) (s : FSt) : Mute (do
    let b ← sprintf n x
    FSt.print echo (b ++ lit "\n")
    FSt.push b) s :=
  (mute_sprintf s).bind fun _ _ _ => (mute_print ..).bind fun _ _ _ => mute_push ..

theorem dataZone_mute {F : Fmt} (hF : F.Short) {vars : List Str} (echo : Bool) {i : Nat} {z : Zone} {l : ZoneLog} {data : Nat → Str} {s : FSt}
    (c : z.CanWrite vars) (hz : s.f.Zones[i]? = some z.gathered) (hl : s.f.last_log.Zones[i]? = some l) (fr : Fresh s.h)
    (hv : ∀ j d, z.Data[j]? = some d → z.VarOk s.h d ((data j).map some)) (hd : z.Data.length ≤ l.Data.length)
    (hm : ∀ k n, s.h.mem k n = true) : Mute (TecFile.dataZone F vars echo i z.gathered) s := by
  unfold TecFile.dataZone
  refine (mute_ifB (mute_line ..)).bind fun _ s1 r1 => ?_
  have w1 := Writes.ifB (writes_zoneLine echo i z.gathered) _ _ _ r1
  refine Mute.bind ?_ fun _ s2 _ => (mute_push ..).bind fun _ s3 _ => mute_ifB (mute_line ..)
  have hz1 : s1.f.Zones[i]? = some z.gathered := by rw [w1.f]; exact hz
  have hl1 : s1.f.last_log.Zones[i]? = some l := by rw [w1.f]; exact hl
  have hh : s1.h = s.h := w1.h
  rcases Zone.write_plt_data_total c.fits (le := F.le) hF (vars := vars) echo (s := ⟨s1.h, s1.of, s1.out, z.gathered, l⟩) data rfl
      (by rw [hh]; exact fr) (by simp only [hh]; exact hv) c.set c.len hd c.strand c.size with ⟨t, rt, -⟩ | ⟨⟨k, n, h⟩, -⟩
  · refine ⟨fun e u => ?_⟩
    unfold FSt.zone
    rw [hz1, hl1]
    simp only [rt]
    intro c; cases c
  · change s1.h.mem k n = false at h
    rw [hh, hm] at h; cases h

theorem dataZones_mute {F : Fmt} (hF : F.Short) {vars : List Str} (echo : Bool) (data : Nat → Nat → Str) (L : Nat → ZoneLog) (l : List Zone) : ∀ n (s : FSt),
    (∀ i z, l[i]? = some z → z.CanWrite vars ∧ s.f.Zones[n + i]? = some z.gathered ∧ s.f.last_log.Zones[n + i]? = some (L (n + i)) ∧
      (∀ j d, z.Data[j]? = some d → z.VarOk s.h d ((data (n + i) j).map some)) ∧ z.Data.length ≤ (L (n + i)).Data.length) →
    Fresh s.h → (∀ k n, s.h.mem k n = true) → Mute (eachIdx (TecFile.dataZone F vars echo) n (l.map Zone.gathered)) s := by
  induction l with
  | nil => intro n s _ _ _; exact mute_ok (a := ()) (t := s) rfl
  | cons z l ih =>
    intro n s H fr hm
    obtain ⟨c, hz, hl, hv, hd⟩ := H 0 z rfl
    rw [Nat.add_zero] at hz hl hv hd
    show Mute (TecFile.dataZone F vars echo n z.gathered >>= fun _ => eachIdx (TecFile.dataZone F vars echo) (n + 1) (l.map Zone.gathered)) s
    refine (dataZone_mute hF echo c hz hl fr hv hd hm).bind fun _ s1 r1 => ?_
    obtain ⟨mm, z', l', T', -, of1, ms, -, -, f1⟩ := dataZone_inv c.fits hz hl fr hv r1
    refine ih (n + 1) s1 ?_ (ms.fresh fr) (by intro k q; rw [ms.mem]; exact hm k q)
    intro i x hx
    obtain ⟨a, b, c', d, e⟩ := H (i + 1) x (by simpa using hx)
    rw [show n + 1 + i = n + (i + 1) by omega]
    refine ⟨a, ?_, ?_, fun j d' hd => ms.varOk (d j d' hd), e⟩
    · rw [f1]; simp only [TecFile.withZones]; rw [List.getElem?_set_ne (by omega)]; exact b
    · rw [f1]; simp only [TecFile.withZones]; rw [List.getElem?_set_ne (by omega)]; exact c'

theorem mute_append (x : Str) (s : FSt) : Mute (FSt.append x) s := by
  refine ⟨fun e t => ?_⟩
  unfold FSt.append
  split <;> intro c <;> cases c

theorem mute_fileLine (echo : Bool) (k : Nat) (time : Str) (s : FSt) : Mute (TecFile.fileLine echo (test s.f.Echo_Mode k) (test s.f.Echo_Mode 5) time) s := by
  have r := fileLine_run echo k time s s.out s.f.last_log.Echo_Text
  rw [FSt.rep_self] at r
  exact mute_ok r

theorem mute_log {g : FileLog → Out FileLog} (hg : ∀ l, Tame (g l)) (s : FSt) : Mute (FSt.log g) s := by
  unfold FSt.log
  refine ⟨fun e t => ?_⟩
  rw [M.get_bind_run]
  have : Mute (liftM (g s.f.last_log) : M FSt FileLog) s := mute_out (by
    intro e c
    rcases hg s.f.last_log with ⟨a, h⟩ | h | h <;> rw [h] at c <;> cases c) s
  exact (this.bind (fun _ u _ => mute_ok (a := ()) rfl)).no e t

theorem mute_modLog {g : FileLog → FileLog} (s : FSt) : Mute (FSt.modLog g) s := mute_ok (a := ()) rfl

theorem body_mute {E : Env} (echo : Bool) {s : FSt} (data : Nat → Nat → Str) (T : s.f.Typed E) (fr : Fresh s.h) (ho : E.canOpen (cstr s.f.path) = true)
    (hc : ∀ z ∈ s.f.Zones, z.CanWrite s.f.Variables) (hm : ∀ k n, s.h.mem k n = true)
    (hv : ∀ (i : Nat) (z : Zone) (j : Nat) (d : TecData), s.f.Zones[i]? = some z → z.Data[j]? = some d → z.VarOk s.h d ((data i j).map some)) :
    Mute (TecFile.write_body E echo) (s.checked E) := by
  unfold TecFile.write_body
  have e1 : TecFile.openFile E (s.checked E) = .ok () { s.checked E with fs := fun p => if p = cstr s.f.path then some [] else s.fs p, of := [], isOpen := true } := by
    unfold TecFile.openFile
    simp only
    rw [if_pos (show E.canOpen (cstr (s.checked E).f.path) = true from ho)]
    rfl
  refine (mute_ok e1).bind fun _ s1 r1 => ?_
  rw [e1] at r1; cases r1
  generalize hs1 : ({ s.checked E with fs := fun p => if p = cstr s.f.path then some [] else s.fs p, of := [], isOpen := true } : FSt) = s1
  refine (mute_ok (show (M.get : M FSt FSt) s1 = .ok s1 s1 from rfl)).bind fun _ s1' r1 => ?_
  cases r1
  refine (mute_fileLine echo 0 E.tBegin s1).bind fun _ s2 r2 => ?_
  have w2 := writes_fileLine _ _ _ r2
  have m3 : Mute (TecFile.write_plt_head echo) s2 := by
    obtain ⟨of3, r3⟩ := head_run echo s2 s2.out s2.f.last_log.Echo_Text
    rw [FSt.rep_self] at r3
    exact mute_ok r3
  refine m3.bind fun _ s3 r3 => ?_
  have w3 := head_inv r3
  have m4 : Mute (FSt.file (W_FLOAT32 f357)) s3 := by
    have r4 := ffile_run (W_FLOAT32_run f357) s3 s3.out s3.f.last_log.Echo_Text
    rw [FSt.rep_self] at r4
    exact mute_ok r4
  refine m4.bind fun _ s4 r4 => ?_
  have w4 := Writes.file (W_FLOAT32_run f357) _ _ _ r4
  refine (mute_ifB ((mute_print ..).bind fun _ _ _ => mute_push ..)).bind fun _ s5 r5 => ?_
  have w5 := (Writes.ifB (.bindq (.print _ _) fun _ => .push _) : Writes [] _) _ _ _ r5
  have w := ((w2.trans w3).trans w4).trans w5
  have z5 : s5.f.Zones = s.f.Zones.map Zone.gathered := by rw [w.f, ← hs1]; rfl
  have l5 : s5.f.last_log.Zones = s.f.Zones.map fun z => z.preLog (ZoneLog.ofZone z) := by rw [w.f, ← hs1]; rfl
  have v5 : s5.f.Variables = s.f.Variables := by rw [w.f, ← hs1]; rfl
  have h5 : s5.h = s.h := by rw [w.h, ← hs1]; rfl
  have m6 : Mute (TecFile.write_plt_data E.fmt echo) s5 := by
    unfold TecFile.write_plt_data
    refine ⟨fun e t => ?_⟩
    rw [M.get_bind_run, v5, z5]
    refine (dataZones_mute T.fmt echo data (fun i => (s.f.Zones.getD i (Zone.new [] 0)).preLog (ZoneLog.ofZone (s.f.Zones.getD i (Zone.new [] 0)))) s.f.Zones 0 s5 ?_
      (by rw [h5]; exact fr) (by rw [h5]; exact hm)).no e t
    intro i z hz
    have hg : s.f.Zones.getD i (Zone.new [] 0) = z := by rw [List.getD_eq_getElem?_getD, hz]; rfl
    rw [Nat.zero_add, hg, z5, l5, List.getElem?_map, List.getElem?_map, hz, h5]
    refine ⟨hc z (List.mem_of_getElem? hz), rfl, rfl, fun j d hd => hv i z j d hz hd, ?_⟩
    show z.Data.length ≤ ([] ++ z.Data.map DataLog.ofData).length
    simp
  have mz : ∀ (a : FSt) (on : Bool) (stamp : Bool) (time : Str), Mute (TecFile.fileLine echo on stamp time) a := by
    intro a on stamp time
    unfold TecFile.fileLine
    refine (mute_ok (show (M.get : M FSt FSt) a = .ok a a from rfl)).bind fun _ _ _ => mute_ifB ?_
    refine (mute_ifB ((mute_print ..).bind fun _ _ _ => mute_push ..)).bind fun _ _ _ => (mute_print ..).bind fun _ b _ => ?_
    cases stamp with
    | true => exact mute_append ..
    | false => exact mute_push ..
  refine m6.bind fun _ s6 _ => ?_
  refine (mute_ok (show (M.get : M FSt FSt) s6 = .ok s6 s6 from rfl)).bind fun _ s7 _ => ?_
  refine (mute_modLog _).bind fun _ s8 _ => (mute_ifB (mute_line ..)).bind fun _ s9 _ => ?_
  refine (mute_ok (a := ()) (show TecFile.closeFile s9 = .ok () _ from rfl)).bind fun _ s10 _ => ?_
  refine (mute_modLog _).bind fun _ s11 _ => (mute_ifB (mute_line ..)).bind fun _ s12 _ => (mute_modLog _).bind fun _ s13 _ => (mz ..).bind fun _ s14 _ => ?_
  exact (mute_log (tame_fileJson E.fmt) _).bind fun _ s15 _ => mute_log (tame_fileXml E.fmt) _

end Verif.Tec
