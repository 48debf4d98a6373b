import Verif.Proof.TecR6
import Verif.Props.TecText
import Mathlib.Algebra.Order.BigOperators.Group.List
/-!
# The run of `write_plt` and its report: C49, C50, C51
-/
namespace Verif.Props
open Spec Tec

/-- number of selected points -/
def Zone.selectedPoints (z : Zone) : Nat := (selection (z.sel 0) (z.sel 1) (z.sel 2)).length

/-- the lines of the report: before the zones, for every zone, after the zones -/
def report (E : Env) (f : TecFile) (mbz : Zone → Str) (mbf : Str) : List Line :=
  linesBefore E f ++
  (f.Zones.zipIdx.flatMap fun x => zoneReport E.fmt.le f.Variables x.2 x.1 (nonUnit fun i => (x.1.sel i).count)
    ⟨(x.1.sel 0).count, (x.1.sel 1).count, (x.1.sel 2).count⟩ (mbz x.1)) ++
  linesAfter E f mbf

/-- a file that can be written: `Ready` and `Valid`, texts that fit, elements that lie inside the bytes given, a length that
the file position can express -/
structure Writable (E : Env) (s : FSt) (data : Nat → Nat → Str) : Prop where
  ready : Ready s data
  brief : s.f.Brief E
  elems : ∀ z ∈ s.f.Zones, ∀ d ∈ z.Data, d.type.bytes ≤ d.size
  length : s.f.lengthOf Zone.selectedPoints < 9223372036854775808

theorem dataLen_le {f : TecFile} {n : Zone → Nat} {z : Zone} (h : z ∈ f.Zones) : z.dataLen (n z) ≤ f.lengthOf n := by
  have : z.dataLen (n z) ≤ (f.Zones.map fun z => z.dataLen (n z)).sum :=
    List.single_le_sum (fun _ _ => Nat.zero_le _) _ (List.mem_map.mpr ⟨z, h, rfl⟩)
  unfold TecFile.lengthOf
  omega

theorem ready_can {s : FSt} {data : Nat → Nat → Str} (ready : Ready s data) (elems : ∀ z ∈ s.f.Zones, ∀ d ∈ z.Data, d.type.bytes ≤ d.size)
    (length : s.f.lengthOf Zone.selectedPoints < 9223372036854775808) (strand : ∀ z ∈ s.f.Zones, InI32 z.StrandId) (v : s.f.Valid) :
    ∀ z ∈ s.f.Zones, z.CanWrite s.f.Variables := by
  intro z hz
  refine ⟨ready.zones z hz, fun d hd => ⟨((v.each z hz).set d hd).2.1, elems z hz d hd⟩, (v.each z hz).len, strand z hz, ?_⟩
  exact Nat.lt_of_le_of_lt (dataLen_le (n := Zone.selectedPoints) hz) length

theorem write_run_any {E : Env} (echo : Bool) {s : FSt} {data : Nat → Nat → Str} (ready : Ready s data) (hB : s.f.Brief E ∨ s.f.Typed E ∧ s.f.Snug E)
    (elems : ∀ z ∈ s.f.Zones, ∀ d ∈ z.Data, d.type.bytes ≤ d.size) (length : s.f.lengthOf Zone.selectedPoints < 9223372036854775808) (v : s.f.Valid)
    (ho : E.canOpen (cstr s.f.path) = true) :
    (∃ s', TecFile.write_plt E echo s = .ok () s' ∧ s'.out = s.out ++ pr echo (printed (allShown E s.f)) ∧
      s'.f.last_log.Echo_Text = allKept E s.f ∧
      ∀ (i : Nat) (z : Zone), s.f.Zones[i]? = some z → ∃ l : ZoneLog, s'.f.last_log.Zones[i]? = some l ∧
        l.Echo_Text = keptLines (zoneLines E.fmt.le s.f.Variables z z.gathered.Real_Dim z.gathered.Real_Max z.mb)) ∨
    ((∃ k n, s.h.mem k n = false) ∧ ∃ t, TecFile.write_plt E echo s = .err (.text oomText) t) := by
  rw [write_plt_eq, M.bind_ok (pre_ok (fun z hz => (ready.zones z hz).plain) v)]
  refine body_total echo data hB ready.fresh ho (ready_can ready elems length (fun z hz => ?_) v) length ready.varOk
  rcases hB with B | ⟨T, -⟩
  · exact (B.zones z hz).2.1
  · exact T.strand z hz

theorem write_run {E : Env} (echo : Bool) {s : FSt} {data : Nat → Nat → Str} (w : Writable E s data) (v : s.f.Valid)
    (ho : E.canOpen (cstr s.f.path) = true) :
    (∃ s', TecFile.write_plt E echo s = .ok () s' ∧ s'.out = s.out ++ pr echo (printed (allShown E s.f)) ∧
      s'.f.last_log.Echo_Text = allKept E s.f ∧
      ∀ (i : Nat) (z : Zone), s.f.Zones[i]? = some z → ∃ l : ZoneLog, s'.f.last_log.Zones[i]? = some l ∧
        l.Echo_Text = keptLines (zoneLines E.fmt.le s.f.Variables z z.gathered.Real_Dim z.gathered.Real_Max z.mb)) ∨
    ((∃ k n, s.h.mem k n = false) ∧ ∃ t, TecFile.write_plt E echo s = .err (.text oomText) t) :=
  write_run_any echo w.ready (.inl w.brief) w.elems w.length v ho

/-- C50: a valid file is written.  `write_plt` returns, or there is not enough memory for the selected points and it says so -/
theorem C50 (E : Env) (echo : Bool) (s : FSt) (data : Nat → Nat → Str) (w : Writable E s data) (v : s.f.Valid)
    (ho : E.canOpen (cstr s.f.path) = true) :
    (∃ s', TecFile.write_plt E echo s = .ok () s') ∨
    ((∃ k n, s.h.mem k n = false) ∧ ∃ t, TecFile.write_plt E echo s = .err (.text (lit "maybe out of memory: std::bad_alloc")) t) := by
  rcases write_run echo w v ho with ⟨s', r, -⟩ | ⟨m, t, r⟩
  · exact .inl ⟨s', r⟩
  · exact .inr ⟨m, t, r⟩

/-- C50: with any settings, valid or not, whether the file can be opened or not and whatever memory there is:
`write_plt` does nothing undefined -/
theorem C50_defined (E : Env) (echo : Bool) (s : FSt) (data : Nat → Nat → Str) (p : ∀ z ∈ s.f.Zones, ∀ i < 3, DimPlain (z.sel i))
    (w : s.f.Valid → Writable E s data) : Res.isUb (TecFile.write_plt E echo s) = none := by
  by_cases v : s.f.Valid
  · by_cases ho : E.canOpen (cstr s.f.path) = true
    · rcases write_run echo (w v) v ho with ⟨s', r, -⟩ | ⟨m, t, r⟩ <;> rw [r] <;> rfl
    · rw [write_plt_eq, M.bind_ok (pre_ok p v)]
      unfold TecFile.write_body
      have : ∃ m t, TecFile.openFile E (s.checked E) = .err m t := by
        unfold TecFile.openFile
        simp only
        rw [if_neg (show ¬E.canOpen (cstr (s.checked E).f.path) = true from ho)]
        exact ⟨_, _, rfl⟩
      obtain ⟨m, t, e⟩ := this
      rw [M.bind_err e]; rfl
  · obtain ⟨m, f', e, -⟩ := pre_bad (E := E) p v
    rw [write_plt_eq, M.bind_err e]; rfl

/-- C49: what a successful `write_plt` prints and keeps.  Sizes are given in megabytes with one digit. -/
theorem C49_partial (E : Env) (echo : Bool) (s s' : FSt) (data : Nat → Nat → Str) (w : Writable E s data)
    (r : TecFile.write_plt E echo s = .ok () s') :
    ∃ mbz mbf, (∀ z, IsMB (z.dataLen (Zone.selectedPoints z)) (mbz z)) ∧ IsMB (s.f.lengthOf Zone.selectedPoints) mbf ∧
      s'.out = s.out ++ (if echo then printed (report E s.f mbz mbf) else []) ∧
      s'.f.last_log.write_echo [] = .ok () (textFile (keptLines (report E s.f mbz mbf))) ∧
      ∀ (i : Nat) (z : Zone), s.f.Zones[i]? = some z → ∃ l : ZoneLog, s'.f.last_log.Zones[i]? = some l ∧
        l.Echo_Text = keptLines (zoneLines E.fmt.le s.f.Variables z (nonUnit fun i => (z.sel i).count)
          ⟨(z.sel 0).count, (z.sel 1).count, (z.sel 2).count⟩ (mbz z)) := by
  obtain ⟨v, mm, c, W⟩ := write_plt_inv data w.ready.zones w.ready.fresh w.ready.varOk r
  have ho : E.canOpen (cstr s.f.path) = true := by
    by_contra ho
    rw [write_plt_eq, M.bind_ok (pre_ok (fun z hz => (w.ready.zones z hz).plain) v)] at r
    unfold TecFile.write_body at r
    obtain ⟨_, s1, r1, -⟩ := M.bind_inv r
    unfold TecFile.openFile at r1
    simp only at r1
    rw [if_neg (show ¬E.canOpen (cstr (s.checked E).f.path) = true from ho)] at r1
    cases r1
  rcases write_run echo w v ho with ⟨s1, r1, o, t, z⟩ | ⟨-, t, r1⟩
  · rw [r] at r1; cases r1
    refine ⟨Zone.mb, fmtMB (s.f.lengthOf Zone.points), fun z => fmtMB_is _, fmtMB_is _, o, ?_, z⟩
    obtain ⟨Z, L, T, hf, hZ, hL, -⟩ := W.file
    exact echo_file t (by rw [hf]; exact hL) z
  · rw [r] at r1; cases r1

/-- C51: the length of the file, and what the log says about it -/
theorem C51 (E : Env) (echo : Bool) (s s' : FSt) (data : Nat → Nat → Str) (w : Ready s data)
    (r : TecFile.write_plt E echo s = .ok () s') :
    (∃ c, s'.fs (cstr s.f.path) = some c ∧ c.length = s.f.lengthOf Zone.selectedPoints ∧ s'.f.last_log.Size = some c.length) ∧
    (∀ (i : Nat) (z : Zone), s.f.Zones[i]? = some z → ∃ l : ZoneLog, s'.f.last_log.Zones[i]? = some l ∧
      l.Size = some (z.dataLen (Zone.selectedPoints z))) ∧
    s'.f.last_log.Time_Begin = E.tBegin ∧ s'.f.last_log.Time_End = E.tEnd ∧ s'.f.last_log.UsingTime = some E.using_ ∧
    s'.f.last_log.Error = [] := by
  obtain ⟨v, mm, c, W⟩ := write_plt_inv data w.zones w.fresh w.varOk r
  obtain ⟨Z, L, T, hf, hZ, hL, hz⟩ := W.file
  have hl : c.length = s.f.lengthOf Zone.selectedPoints := by
    rw [W.bytes]; exact file_length (E := E) (mm := mm) w.zones (fun i z j d hi hj => (w.vars i z j d hi hj).2.1)
  refine ⟨⟨c, by rw [W.fs]; exact if_pos rfl, hl, by rw [hf]⟩, ?_, by rw [hf], by rw [hf], by rw [hf], by rw [hf]; rfl⟩
  intro i z hi
  obtain ⟨z', l', l'', -, e2, dn, J, X, e3⟩ := hz i z hi
  obtain ⟨T', e4⟩ := dn.log
  refine ⟨l'', by rw [hf]; exact e2, ?_⟩
  rw [e3, e4]
  show some (z.dataBytes (data i) (mm i)).length = _
  rw [Zone.dataBytes_length (w.zones z (List.mem_of_getElem? hi)) _ (fun j d hj => (w.vars i z j d hi hj).2.1)]
  rfl

/-! ## The example -/

theorem demoWritable : Writable demoEnv demoState demoBytes := by
  refine ⟨demoReady, ?_, ?_, by decide +kernel⟩
  · refine ⟨fun _ => (by decide : (lit "0").length ≤ 30), by decide +kernel, by decide +kernel, by decide +kernel, by decide +kernel, by decide +kernel,
      by decide +kernel, by decide +kernel, by decide +kernel, by unfold AuxShort; decide +kernel, ?_⟩
    intro z hz
    have : z = demoVars ∨ z = demoSecond := by simpa [demoState, demoFile] using hz
    rcases this with rfl | rfl <;> exact ⟨by decide +kernel, by decide +kernel, by unfold AuxShort; decide +kernel⟩
  · intro z hz
    have : z = demoVars ∨ z = demoSecond := by simpa [demoState, demoFile] using hz
    rcases this with rfl | rfl <;> decide +kernel

theorem demoValid : demoState.f.Valid := by
  have h : (Res.state (TecFile.write_plt demoEnv true demoState)).isSome = true := by decide +kernel
  generalize hr : TecFile.write_plt demoEnv true demoState = r at h
  cases r with
  | ok a s => exact (write_plt_inv demoBytes demoReady.zones demoReady.fresh demoReady.varOk hr).1
  | err e s => cases h
  | ub u => cases h

/-- the hypotheses of the theorems are met, the file is written, and this is its report -/
example : Writable demoEnv demoState demoBytes ∧ demoState.f.Valid ∧ demoEnv.canOpen (cstr demoState.f.path) = true ∧
    (Res.state (TecFile.write_plt demoEnv true demoState)).map (fun s => (s.f.last_log.Size, s.out)) = some (some 426,
      lit "[2026-01-01 00:00:00] #### creat file dir/name.plt ####\n" ++
      lit "     VAR: <u> <v>\n" ++
      lit "--   write zone 1: z   --\n" ++
      lit "     Dim = 2   Real_Max = [ 3 3 ]\n" ++
      lit "--   write zone 2: second   --\n" ++
      lit "     Dim = 2   Real_Max = [ 3 3 ]\n" ++
      lit "[2026-01-01 00:00:01] #### creat file dir/name.plt ####\n") :=
  ⟨demoWritable, demoValid, rfl, by decide +kernel⟩

/-- no memory for the selected points: the second case of C50 -/
example : (Res.failed (TecFile.write_plt demoEnv true { demoState with h := { demoState.h with mem := fun _ _ => false } })).map (·.1) =
    some (.text (lit "maybe out of memory: std::bad_alloc")) := by decide +kernel

/-- the line of `Real_Max` gives its first entries, not those that differ from 1: for 1 x 3 x 3 points it says `[ 1 3 ]` -/
theorem C49_false_max : (Res.state (TecFile.write_plt demoEnv true { demoState with f := { demoFile with
    Echo_Mode := List.replicate 7 false
    Zones := [{ demoVars with Max := ⟨1, 3, 3⟩, Skip := ⟨1, 1, 1⟩, Begin := ⟨0, 0, 0⟩, End := ⟨0, 0, 0⟩, Echo_Mode := [false, false, false, true] }] } })).map
    (·.out) = some (lit "     Dim = 2   Real_Max = [ 1 3 ]\n") := by decide +kernel

/-- C49 is false without a limit for the name of a zone: the line that announces the zone is put together in 100 bytes -/
theorem C49_false : Res.isUb (TecFile.write_plt demoEnv true { demoState with f := { demoFile with
    Zones := [{ demoVars with ZoneName := List.replicate 80 97, Echo_Mode := List.replicate 9 true }] } }) = some .oob := by decide +kernel

end Verif.Props
