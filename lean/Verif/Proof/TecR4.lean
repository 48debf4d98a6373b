import Verif.Proof.TecR3
import Verif.Proof.TecFits
import Verif.Spec.TecSnug
/-!
# Writing a file: the run of each part
-/
namespace Verif.Tec
open Spec

/-- `s` with another standard output and other texts in the log -/
def FSt.rep (s : FSt) (o : Str) (T : List Str) : FSt :=
  { s with out := o, f := { s.f with last_log := { s.f.last_log with Echo_Text := T } } }

theorem FSt.rep_self (s : FSt) : s.rep s.out s.f.last_log.Echo_Text = s := rfl

theorem fprint_run (echo : Bool) (t : Str) (s : FSt) (o : Str) (T : List Str) :
    FSt.print echo t (s.rep o T) = .ok () (s.rep (o ++ pr echo t) T) := by
  unfold FSt.print pr
  cases echo
  · show Res.ok () _ = _; rw [if_neg (by decide), List.append_nil]
  · rfl
theorem fpush_run (t : Str) (s : FSt) (o : Str) (T : List Str) : FSt.push t (s.rep o T) = .ok () (s.rep o (T ++ [t])) := rfl
theorem fappend_run (t x : Str) (s : FSt) (o : Str) (T : List Str) :
    FSt.append t (s.rep o (T ++ [x])) = .ok () (s.rep o (T ++ [x ++ t])) := by
  unfold FSt.append
  have : (s.rep o (T ++ [x])).f.last_log.Echo_Text.reverse = x :: T.reverse := by
    show (T ++ [x]).reverse = _
    simp
  rw [this]
  simp only [List.reverse_reverse]
  rfl
theorem ffile_run {m : M Str Unit} {b : Str} (h : ∀ t, m t = .ok () (t ++ b)) (s : FSt) (o : Str) (T : List Str) :
    FSt.file m (s.rep o T) = .ok () (({ s with of := s.of ++ b } : FSt).rep o T) := by
  unfold FSt.file
  rw [show (s.rep o T).of = s.of from rfl, h]; rfl

/-- a statement that prints and keeps the lines `L` and does nothing else -/
def Tells (echo : Bool) (L : List Line) (m : M FSt Unit) : Prop :=
  ∀ (s : FSt) o T, m (s.rep o T) = .ok () (s.rep (o ++ pr echo (printed L)) (T ++ keptLines L))

theorem Tells.none (echo : Bool) {m : M FSt Unit} (h : ∀ s, m s = .ok () s) : Tells echo [] m := by
  intro s o T
  rw [h]; simp [printed, keptLines, pr_nil]

theorem Tells.ifOn {echo : Bool} {e : List Bool} {k : Nat} {x : Line} {m : M FSt Unit} (hm : e.getD k false = true → Tells echo [x] m) :
    Tells echo (onFlag e k x) (ifB (test e k) m) := by
  unfold onFlag
  by_cases c : e.getD k false = true
  · rw [if_pos c, show test e k = true from c]; exact hm c
  · rw [if_neg c, show test e k = false by simpa [test] using c]
    exact Tells.none echo fun _ => rfl

theorem Tells.ifB {echo : Bool} {e : List Bool} {k : Nat} {x : Line} {m : M FSt Unit} (hm : Tells echo [x] m) :
    Tells echo (onFlag e k x) (ifB (test e k) m) := .ifOn fun _ => hm

theorem tells_one {echo : Bool} {a b : Str} {m : M FSt Unit} (h : ∀ s o T, m (FSt.rep s o T) = .ok () (s.rep (o ++ pr echo (a ++ lit "\n")) (T ++ [b]))) :
    Tells echo [⟨a, b⟩] m := by
  intro s o T
  rw [h, printed_one]; rfl

theorem fileLine_run (echo : Bool) (k : Nat) (time : Str) (s : FSt) (o : Str) (T : List Str) :
    TecFile.fileLine echo (test s.f.Echo_Mode k) (test s.f.Echo_Mode 5) time (s.rep o T) =
      .ok () (s.rep (o ++ pr echo (printed (onFlag s.f.Echo_Mode k (fileTitle s.f time)))) (T ++ keptLines (onFlag s.f.Echo_Mode k (fileTitle s.f time)))) := by
  unfold TecFile.fileLine
  rw [M.get_bind_run]
  have hk : lit ".plt ####\n" = lit ".plt ####" ++ lit "\n" := rfl
  have hp : s.f.path ++ lit " ####" = s.f.FilePath ++ lit "/" ++ s.f.FileName ++ lit ".plt ####" := by
    unfold TecFile.path; simp only [List.append_assoc]; rfl
  have e1 : (s.rep o T).f.FilePath = s.f.FilePath := rfl
  have e2 : (s.rep o T).f.FileName = s.f.FileName := rfl
  have e3 : (s.rep o T).f.path = s.f.path := rfl
  simp only [e1, e2, e3]
  by_cases c : s.f.Echo_Mode.getD k false = true
  · rw [show test s.f.Echo_Mode k = true from c]
    show (ifB (test s.f.Echo_Mode 5) _ >>= fun _ => _) _ = _
    unfold onFlag fileTitle
    rw [if_pos c, printed_one]
    by_cases d : s.f.Echo_Mode.getD 5 false = true
    · rw [show test s.f.Echo_Mode 5 = true from d]
      simp only [d, if_true]
      have : ifB true (do
          FSt.print echo (lit "[" ++ cstr time ++ lit "] ")
          FSt.push (lit "[" ++ time ++ lit "] ")) (s.rep o T) = .ok () (s.rep (o ++ pr echo (lit "[" ++ cstr time ++ lit "] ")) (T ++ [lit "[" ++ time ++ lit "] "])) := by
        show (FSt.print echo _ >>= fun _ => FSt.push _) _ = _
        rw [M.bind_ok (fprint_run ..), fpush_run]
      rw [M.bind_ok this, M.bind_ok (fprint_run ..), fappend_run, hk, List.append_assoc _ s.f.path, hp]
      simp only [List.append_assoc, pr_append]
      rfl
    · rw [show test s.f.Echo_Mode 5 = false by simpa [test] using d]
      simp only [d, Bool.false_eq_true, if_false]
      rw [M.bind_ok (show ifB false _ (s.rep o T) = .ok () (s.rep o T) from rfl), M.bind_ok (fprint_run ..), fpush_run, hk, List.append_assoc _ s.f.path, hp]
      simp only [List.append_assoc, pr_append, List.nil_append]
      rfl
  · unfold onFlag
    rw [if_neg c, show test s.f.Echo_Mode k = false by simpa [test] using c]
    show Res.ok () _ = _
    simp [printed, keptLines, pr_nil]

theorem headVars_on (echo : Bool) (l : List Str) : ∀ (s : FSt) (o : Str) (T : List Str) (x : Str),
    each l (fun v => TecFile.headVar echo true v) (s.rep o (T ++ [x])) =
      .ok () (({ s with of := s.of ++ l.flatMap textBytes } : FSt).rep (o ++ pr echo (names (l.map cstr))) (T ++ [x ++ names l])) := by
  induction l with
  | nil => intro s o T x; show Res.ok () _ = _; simp [names, pr_nil]
  | cons v l ih =>
    intro s o T x
    have : TecFile.headVar echo true v (s.rep o (T ++ [x])) =
        .ok () (({ s with of := s.of ++ textBytes v } : FSt).rep (o ++ pr echo (lit " <" ++ cstr v ++ lit ">")) (T ++ [x ++ (lit " <" ++ v ++ lit ">")])) := by
      unfold TecFile.headVar
      rw [M.bind_ok (ffile_run (W_STRING_run v) ..)]
      show (FSt.print echo _ >>= fun _ => FSt.append _) _ = _
      rw [M.bind_ok (fprint_run ..), fappend_run]
    rw [each, M.bind_ok this, ih]
    simp only [names, List.map_cons, List.flatMap_cons, List.append_assoc, pr_append]

theorem headVars_off (echo : Bool) (l : List Str) : ∀ (s : FSt) (o : Str) (T : List Str),
    each l (fun v => TecFile.headVar echo false v) (s.rep o T) = .ok () (({ s with of := s.of ++ l.flatMap textBytes } : FSt).rep o T) := by
  induction l with
  | nil => intro s o T; show Res.ok () _ = _; simp
  | cons v l ih =>
    intro s o T
    have : TecFile.headVar echo false v (s.rep o T) = .ok () (({ s with of := s.of ++ textBytes v } : FSt).rep o T) := by
      unfold TecFile.headVar
      rw [M.bind_ok (ffile_run (W_STRING_run v) ..)]
      rfl
    rw [each, M.bind_ok this, ih]
    simp only [List.flatMap_cons, List.append_assoc]

theorem each_ffile {α : Type} (f : α → M Str Unit) (g : α → Str) (h : ∀ a s, f a s = .ok () (s ++ g a)) (l : List α) :
    ∀ (s : FSt) (o : Str) (T : List Str), each l (fun a => FSt.file (f a)) (s.rep o T) = .ok () (({ s with of := s.of ++ l.flatMap g } : FSt).rep o T) := by
  induction l with
  | nil => intro s o T; show Res.ok () _ = _; simp
  | cons a l ih => intro s o T; rw [each, M.bind_ok (ffile_run (h a) ..), ih, List.flatMap_cons]; simp only [List.append_assoc]

theorem head_run (echo : Bool) (s : FSt) (o : Str) (T : List Str) :
    ∃ of, TecFile.write_plt_head echo (s.rep o T) = .ok () (({ s with of := of } : FSt).rep
      (o ++ pr echo (printed (onFlag s.f.Echo_Mode 2 ⟨lit "     VAR:" ++ names (s.f.Variables.map cstr), lit "     VAR:" ++ names s.f.Variables⟩)))
      (T ++ keptLines (onFlag s.f.Echo_Mode 2 ⟨lit "     VAR:" ++ names (s.f.Variables.map cstr), lit "     VAR:" ++ names s.f.Variables⟩))) := by
  unfold TecFile.write_plt_head
  rw [M.get_bind_run, M.bind_ok (ffile_run (emit_run _) ..), M.bind_ok (ffile_run (W_INT32_run _) ..), M.bind_ok (ffile_run (W_INT32_run _) ..),
    M.bind_ok (ffile_run (W_STRING_run _) ..), M.bind_ok (ffile_run (W_INT32_run _) ..)]
  have ha : ∀ (m : AuxMap) (s : FSt) (o : Str) (T : List Str), each m (fun e => FSt.file do
      W_FLOAT32 f799
      W_STRING e.1
      W_INT32 0
      W_STRING e.2) (s.rep o T) = .ok () (({ s with of := s.of ++ fileAuxBytes m } : FSt).rep o T) := by
    intro m s o T
    apply each_ffile
    intro e s
    rw [M.bind_ok (W_FLOAT32_run _ _), M.bind_ok (W_STRING_run _ _), M.bind_ok (W_INT32_run _ _), W_STRING_run]
    simp only [List.append_assoc]
  unfold onFlag
  by_cases c : s.f.Echo_Mode.getD 2 false = true
  · have c' : test s.f.Echo_Mode 2 = true := c
    rw [if_pos c, printed_one]
    have ct : test (s.rep o T).f.Echo_Mode 2 = true := c
    rw [ct]
    have e0 : ∀ (s : FSt) o T, ifB true (do
        FSt.print echo (lit "     VAR:")
        FSt.push (lit "     VAR:")) (s.rep o T) = .ok () (s.rep (o ++ pr echo (lit "     VAR:")) (T ++ [lit "     VAR:"])) := by
      intro s o T
      show (FSt.print echo (lit "     VAR:") >>= fun _ => FSt.push (lit "     VAR:")) _ = _
      rw [M.bind_ok (fprint_run ..), fpush_run]
    rw [M.bind_ok (e0 ..), M.bind_ok (headVars_on ..), M.bind_ok (show ifB true (FSt.print echo (lit "\n")) _ = _ from fprint_run ..),
      M.bind_ok (each_ffile _ _ zone_head_run ..), ha]
    simp only [List.append_assoc, pr_append]
    exact ⟨_, rfl⟩
  · have ct : test (s.rep o T).f.Echo_Mode 2 = false := by
      show s.f.Echo_Mode.getD 2 false = false; simpa using c
    rw [if_neg c, ct]
    have e0 : ∀ (m : M FSt Unit) (s : FSt), ifB false m s = .ok () s := fun _ _ => rfl
    rw [M.bind_ok (e0 ..), M.bind_ok (headVars_off ..), M.bind_ok (e0 ..), M.bind_ok (each_ffile _ _ zone_head_run ..), ha]
    simp only [printed, keptLines, List.flatMap_nil, List.map_nil, pr_nil, List.append_nil]
    exact ⟨_, rfl⟩

theorem zoneLine_tells (echo : Bool) {i : Nat} (hi : i + 1 < 2147483648) {z : Zone} (hz : clen z.ZoneName + width (i + 1) ≤ 76) :
    Tells echo [zoneTitle i z] (TecFile.zoneLine echo i z) := by
  unfold TecFile.zoneLine zoneTitle Line.same
  have e : toI32 (i + 1) = ((i : Int) + 1) := by
    unfold toI32; split
    · omega
    · omega
  have h1 := width_dec (n := i + 1) hi
  rw [e] at h1
  rw [e]
  refine tells_one fun s o T => ?_
  have h2 : (cstr z.ZoneName).length = clen z.ZoneName := rfl
  rw [sprintf_ok (by lits; omega), M.liftM_eq, M.lift_ok, pure_bind, M.bind_ok (fprint_run ..), fpush_run]

/-! ## The zones -/

/-- what is printed for a zone -/
def zoneShown (le : F64 → Str) (vars : List Str) (mb : Zone → Str) (i : Nat) (z : Zone) : List Line :=
  onFlag z.Echo_Mode 0 (zoneTitle i z) ++ zoneLines le vars z z.gathered.Real_Dim z.gathered.Real_Max (mb z) ++ onFlag z.Echo_Mode 1 (zoneTitle i z)

/-- what is kept for a zone in the log of the file -/
def zoneKept (i : Nat) (z : Zone) : List Str :=
  keptLines (onFlag z.Echo_Mode 0 (zoneTitle i z)) ++ [lit "#ZONE#"] ++ keptLines (onFlag z.Echo_Mode 1 (zoneTitle i z))

/-- what a zone needs -/
structure Zone.CanWrite (vars : List Str) (z : Zone) : Prop where
  fits : z.Fits
  set : ∀ d ∈ z.Data, d.type ≠ .null ∧ d.type.bytes ≤ d.size
  len : z.Data.length = vars.length
  strand : InI32 z.StrandId
  size : z.dataLen z.points < 9223372036854775808

theorem dataZone_total {F : Fmt} (hF : F.Short) {vars : List Str} (echo : Bool) {i : Nat} {z : Zone} {l : ZoneLog} {data : Nat → Str} {s : FSt}
    (c : z.CanWrite vars)
    (hn : z.Echo_Mode.getD 0 false = true ∨ z.Echo_Mode.getD 1 false = true → clen z.ZoneName + width (i + 1) ≤ 76) (hi : i + 1 < 2147483648) (hz : s.f.Zones[i]? = some z.gathered) (hl : s.f.last_log.Zones[i]? = some l) (fr : Fresh s.h)
    (hv : ∀ j d, z.Data[j]? = some d → z.VarOk s.h d ((data j).map some)) (hd : z.Data.length ≤ l.Data.length) :
    (∃ s', TecFile.dataZone F vars echo i z.gathered s = .ok () s' ∧ s'.out = s.out ++ pr echo (printed (zoneShown F.le vars Zone.mb i z)) ∧
      s'.f.last_log.Echo_Text = s.f.last_log.Echo_Text ++ zoneKept i z ∧
      ∃ l', s'.f.last_log.Zones = s.f.last_log.Zones.set i l' ∧
        l'.Echo_Text = l.Echo_Text ++ keptLines (zoneLines F.le vars z z.gathered.Real_Dim z.gathered.Real_Max z.mb)) ∨
    ((∃ k n, s.h.mem k n = false) ∧ ∃ t, TecFile.dataZone F vars echo i z.gathered s = .err (.text oomText) t) := by
  unfold TecFile.dataZone
  have t1 : Tells echo (onFlag z.Echo_Mode 0 (zoneTitle i z)) (ifB (test z.gathered.Echo_Mode 0) (TecFile.zoneLine echo i z.gathered)) :=
    Tells.ifOn (e := z.Echo_Mode) fun q => zoneLine_tells echo hi (hn (.inl q))
  have t2 : Tells echo (onFlag z.Echo_Mode 1 (zoneTitle i z)) (ifB (test z.gathered.Echo_Mode 1) (TecFile.zoneLine echo i z.gathered)) :=
    Tells.ifOn (e := z.Echo_Mode) fun q => zoneLine_tells echo hi (hn (.inr q))
  have r1 := t1 s s.out s.f.last_log.Echo_Text
  rw [FSt.rep_self] at r1
  rw [M.bind_ok r1]
  generalize hs1 : s.rep _ _ = s1
  have s1h : s1.h = s.h := by rw [← hs1]; rfl
  have s1z : s1.f.Zones = s.f.Zones := by rw [← hs1]; rfl
  have s1l : s1.f.last_log.Zones = s.f.last_log.Zones := by rw [← hs1]; rfl
  have s1o : s1.out = s.out ++ pr echo (printed (onFlag z.Echo_Mode 0 (zoneTitle i z))) := by rw [← hs1]; rfl
  have s1t : s1.f.last_log.Echo_Text = s.f.last_log.Echo_Text ++ keptLines (onFlag z.Echo_Mode 0 (zoneTitle i z)) := by rw [← hs1]; rfl
  rcases Zone.write_plt_data_total c.fits (le := F.le) hF (vars := vars) echo (s := ⟨s1.h, s1.of, s1.out, z.gathered, l⟩) data rfl
      (by rw [s1h]; exact fr) (by simp only [s1h]; exact hv) c.set c.len hd c.strand c.size with ⟨t, rt, ht, tt⟩ | ⟨hm, t, rt⟩
  · left
    have r2 : FSt.zone i (Zone.write_plt_data F.le vars echo) s1 = .ok () { s1 with
        h := t.h, of := t.of, out := t.out
        f := { s1.f with
          Zones := s1.f.Zones.set i t.z
          last_log := { s1.f.last_log with Zones := s1.f.last_log.Zones.set i t.l } } } := by
      unfold FSt.zone
      rw [s1z, s1l, hz, hl]
      simp only [rt]
    rw [M.bind_ok r2]
    generalize hs2 : ({ s1 with h := t.h, of := t.of, out := t.out, f := { s1.f with Zones := s1.f.Zones.set i t.z, last_log := { s1.f.last_log with Zones := s1.f.last_log.Zones.set i t.l } } } : FSt) = s2
    have e3 := fpush_run (lit "#ZONE#") s2 s2.out s2.f.last_log.Echo_Text
    rw [FSt.rep_self] at e3
    rw [M.bind_ok e3, t2]
    refine ⟨_, rfl, ?_, ?_, t.l, ?_, tt⟩
    · show s2.out ++ _ = _
      rw [← hs2]
      simp only [ht, s1o]
      unfold zoneShown
      simp only [printed_append, ← pr_append, List.append_assoc]
    · show s2.f.last_log.Echo_Text ++ _ ++ _ = _
      rw [← hs2]
      simp only [s1t]
      unfold zoneKept
      simp only [List.append_assoc]
    · show s2.f.last_log.Zones = _
      rw [← hs2, s1l]
  · right
    refine ⟨by rw [← s1h]; exact hm, ?_⟩
    have : ∃ u, FSt.zone i (Zone.write_plt_data F.le vars echo) s1 = .err (.text oomText) u := by
      unfold FSt.zone
      rw [s1z, s1l, hz, hl]
      simp only [rt]
      exact ⟨_, rfl⟩
    obtain ⟨u, e⟩ := this
    rw [M.bind_err e]
    exact ⟨_, rfl⟩

theorem dataZones_total {F : Fmt} (hF : F.Short) {vars : List Str} (echo : Bool) (data : Nat → Nat → Str) (L : Nat → ZoneLog) (l : List Zone) : ∀ n (s : FSt),
    (∀ i z, l[i]? = some z → z.CanWrite vars ∧ s.f.Zones[n + i]? = some z.gathered ∧ s.f.last_log.Zones[n + i]? = some (L (n + i)) ∧
      (∀ j d, z.Data[j]? = some d → z.VarOk s.h d ((data (n + i) j).map some)) ∧ z.Data.length ≤ (L (n + i)).Data.length ∧
      (z.Echo_Mode.getD 0 false = true ∨ z.Echo_Mode.getD 1 false = true → clen z.ZoneName + width (n + i + 1) ≤ 76)) →
    n + l.length < 2147483648 → Fresh s.h →
    (∃ s', eachIdx (TecFile.dataZone F vars echo) n (l.map Zone.gathered) s = .ok () s' ∧
      s'.out = s.out ++ pr echo (printed ((l.zipIdx n).flatMap fun x => zoneShown F.le vars Zone.mb x.2 x.1)) ∧
      s'.f.last_log.Echo_Text = s.f.last_log.Echo_Text ++ ((l.zipIdx n).flatMap fun x => zoneKept x.2 x.1) ∧
      (∀ i, i < n → s'.f.last_log.Zones[i]? = s.f.last_log.Zones[i]?) ∧
      ∀ i z, l[i]? = some z → ∃ l', s'.f.last_log.Zones[n + i]? = some l' ∧
        l'.Echo_Text = (L (n + i)).Echo_Text ++ keptLines (zoneLines F.le vars z z.gathered.Real_Dim z.gathered.Real_Max z.mb)) ∨
    ((∃ k n, s.h.mem k n = false) ∧ ∃ t, eachIdx (TecFile.dataZone F vars echo) n (l.map Zone.gathered) s = .err (.text oomText) t) := by
  induction l with
  | nil =>
    intro n s _ _ _
    refine .inl ⟨s, rfl, ?_, ?_, fun _ _ => rfl, fun i z h => by simp at h⟩
    · simp [printed, pr_nil]
    · simp
  | cons z l ih =>
    intro n s H hn fr
    rw [List.length_cons] at hn
    obtain ⟨c, hz, hl, hv, hd, hw⟩ := H 0 z rfl
    rw [Nat.add_zero] at hz hl hv hd hw
    show (∃ s', (TecFile.dataZone F vars echo n z.gathered >>= fun _ => eachIdx (TecFile.dataZone F vars echo) (n + 1) (l.map Zone.gathered)) s = .ok () s' ∧ _) ∨
      (_ ∧ ∃ t, (TecFile.dataZone F vars echo n z.gathered >>= fun _ => eachIdx (TecFile.dataZone F vars echo) (n + 1) (l.map Zone.gathered)) s = .err _ t)
    rcases dataZone_total hF echo (data := data n) c hw (by omega) hz hl fr hv hd with ⟨s1, r1, o1, t1, l1, lz1, le1⟩ | ⟨hm, t, r1⟩
    · obtain ⟨mm, z', l', T', -, of1, ms, -, -, f1⟩ := dataZone_inv c.fits hz hl fr hv r1
      rw [M.bind_ok r1]
      rcases ih (n + 1) s1 (by
        intro i x hx
        obtain ⟨a, b, c', d, e⟩ := H (i + 1) x (by simpa using hx)
        rw [show n + 1 + i = n + (i + 1) by omega]
        refine ⟨a, ?_, ?_, fun j d' hd => ms.varOk (d j d' hd), e⟩
        · rw [f1]; simp only [TecFile.withZones]; rw [List.getElem?_set_ne (by omega)]; exact b
        · rw [lz1, List.getElem?_set_ne (by omega)]; exact c') (by omega) (ms.fresh fr) with ⟨s2, r2, o2, t2, b2, z2⟩ | ⟨⟨k, q, hm⟩, t, r2⟩
      · refine .inl ⟨s2, r2, ?_, ?_, ?_, ?_⟩
        · rw [o2, o1, List.zipIdx_cons, List.flatMap_cons, printed_append, ← pr_append, List.append_assoc]
        · rw [t2, t1, List.zipIdx_cons, List.flatMap_cons, List.append_assoc]
        · intro i hi
          rw [b2 i (by omega), lz1, List.getElem?_set_ne (by omega)]
        · intro i x hx
          cases i with
          | zero =>
            have : z = x := by simpa using hx
            subst this
            refine ⟨l1, ?_, le1⟩
            rw [Nat.add_zero, b2 n (by omega), lz1, List.getElem?_set_self (List.getElem?_eq_some_iff.mp hl).1]
          | succ i =>
            obtain ⟨y, h1, h2⟩ := z2 i x (by simpa using hx)
            rw [show n + (i + 1) = n + 1 + i by omega]
            exact ⟨y, h1, h2⟩
      · exact .inr ⟨⟨k, q, by rw [← ms.mem]; exact hm⟩, t, r2⟩
    · rw [M.bind_err r1]
      exact .inr ⟨hm, t, rfl⟩

end Verif.Tec
