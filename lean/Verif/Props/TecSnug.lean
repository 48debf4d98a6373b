import Verif.Proof.TecSnug2
import Verif.Props.TecReport
/-!
# Which files can be written and which reports come out, exactly: C49, C50
-/
namespace Verif.Props
open Spec Tec

/-- C50, both directions: with memory, a valid file of values that the C++ types hold is written if and only if its texts keep the
bounds of `TecFile.Snug` (Verif/Spec/TecSnug.lean) -/
theorem C50_exact (E : Env) (echo : Bool) (s : FSt) (data : Nat → Nat → Str) (ready : Ready s data) (typed : s.f.Typed E)
    (elems : ∀ z ∈ s.f.Zones, ∀ d ∈ z.Data, d.type.bytes ≤ d.size) (length : s.f.lengthOf Zone.selectedPoints < 9223372036854775808)
    (v : s.f.Valid) (ho : E.canOpen (cstr s.f.path) = true) (mem : ∀ k n, s.h.mem k n = true) :
    (∃ s', TecFile.write_plt E echo s = .ok () s') ↔ s.f.Snug E := by
  refine ⟨fun ⟨s', r⟩ => snug_of_ok data ready.zones ready.fresh ready.varOk typed length r, fun h => ?_⟩
  rcases write_run_any echo ready (.inr ⟨typed, h⟩) elems length v ho with ⟨s', r, -⟩ | ⟨⟨k, n, m⟩, -⟩
  · exact ⟨s', r⟩
  · rw [mem] at m; cases m

/-- otherwise the behaviour is undefined; no exception is thrown -/
theorem C50_exact_else (E : Env) (echo : Bool) (s : FSt) (data : Nat → Nat → Str) (ready : Ready s data) (typed : s.f.Typed E)
    (elems : ∀ z ∈ s.f.Zones, ∀ d ∈ z.Data, d.type.bytes ≤ d.size) (length : s.f.lengthOf Zone.selectedPoints < 9223372036854775808)
    (v : s.f.Valid) (ho : E.canOpen (cstr s.f.path) = true) (mem : ∀ k n, s.h.mem k n = true) (hn : ¬ s.f.Snug E) :
    ∃ u, TecFile.write_plt E echo s = .ub u := by
  cases r : TecFile.write_plt E echo s with
  | ok a s' => exact absurd (snug_of_ok data ready.zones ready.fresh ready.varOk typed length r) hn
  | ub u => exact ⟨u, rfl⟩
  | err e t =>
    rw [write_plt_eq, M.bind_ok (pre_ok (fun z hz => (ready.zones z hz).plain) v)] at r
    exact absurd r ((body_mute echo data typed ready.fresh ho (ready_can ready elems length typed.strand v) mem ready.varOk).no e t)

/-- C49 with nothing supposed about the lengths of the texts: what a successful `write_plt` prints and keeps -/
theorem C49_any (E : Env) (echo : Bool) (s s' : FSt) (data : Nat → Nat → Str) (ready : Ready s data) (typed : s.f.Typed E)
    (elems : ∀ z ∈ s.f.Zones, ∀ d ∈ z.Data, d.type.bytes ≤ d.size) (length : s.f.lengthOf Zone.selectedPoints < 9223372036854775808)
    (r : TecFile.write_plt E echo s = .ok () s') :
    ∃ mbz mbf, (∀ z, IsMB (z.dataLen (Zone.selectedPoints z)) (mbz z)) ∧ IsMB (s.f.lengthOf Zone.selectedPoints) mbf ∧
      s'.out = s.out ++ (if echo then printed (report E s.f mbz mbf) else []) ∧
      s'.f.last_log.write_echo [] = .ok () (textFile (keptLines (report E s.f mbz mbf))) ∧
      ∀ (i : Nat) (z : Zone), s.f.Zones[i]? = some z → ∃ l : ZoneLog, s'.f.last_log.Zones[i]? = some l ∧
        l.Echo_Text = keptLines (zoneLines E.fmt.le s.f.Variables z (nonUnit fun i => (z.sel i).count)
          ⟨(z.sel 0).count, (z.sel 1).count, (z.sel 2).count⟩ (mbz z)) := by
  obtain ⟨v, mm, c, W⟩ := write_plt_inv data ready.zones ready.fresh ready.varOk r
  have snug := snug_of_ok data ready.zones ready.fresh ready.varOk typed length r
  have ho : E.canOpen (cstr s.f.path) = true := by
    by_contra ho
    rw [write_plt_eq, M.bind_ok (pre_ok (fun z hz => (ready.zones z hz).plain) v)] at r
    unfold TecFile.write_body at r
    obtain ⟨_, s1, r1, -⟩ := M.bind_inv r
    unfold TecFile.openFile at r1
    simp only at r1
    rw [if_neg (show ¬E.canOpen (cstr (s.checked E).f.path) = true from ho)] at r1
    cases r1
  rcases write_run_any echo ready (.inr ⟨typed, snug⟩) elems length v ho with ⟨s1, r1, o, t, z⟩ | ⟨-, t, r1⟩
  · rw [r] at r1; cases r1
    refine ⟨Zone.mb, fmtMB (s.f.lengthOf Zone.points), fun z => fmtMB_is _, fmtMB_is _, o, ?_, z⟩
    obtain ⟨Z, L, T, hf, hZ, hL, -⟩ := W.file
    exact echo_file t (by rw [hf]; exact hL) z
  · rw [r] at r1; cases r1

/-! ## The example: one zone, its name at and beyond the bound of 75 characters -/

def longFile (n : Nat) : TecFile := { demoFile with Zones := [{ demoVars with ZoneName := List.replicate n 97, Echo_Mode := List.replicate 9 true }] }
def longState (n : Nat) : FSt := { demoState with f := longFile n }

theorem long_snug : (longFile 75).Snug demoEnv ∧ ¬ (longFile 76).Snug demoEnv := by
  constructor
  · refine ⟨?_, ?_, by decide +kernel, by decide +kernel, by decide +kernel, by decide +kernel, by decide +kernel, ?_, by unfold AuxFits; decide +kernel, ?_⟩
    · intro i z hz _
      match i with
      | 0 => cases hz; decide +kernel
      | i + 1 => cases hz
    · unfold UsedFits; decide +kernel
    · have : ∀ i : Fin (longFile 75).Variables.length, clen (longFile 75).Variables[i] + width i ≤ 190 := by decide +kernel
      exact fun i h => this ⟨i, h⟩
    · intro z hz
      obtain rfl : z = _ := List.mem_singleton.1 hz
      exact ⟨by decide +kernel, by unfold AuxFits; decide +kernel⟩
  · intro c
    exact absurd (c.titles 0 _ rfl (.inl (by decide +kernel))) (by decide +kernel)

theorem long_typed (n : Nat) : (longFile n).Typed demoEnv := by
  refine ⟨fun _ => (by decide : (lit "0").length ≤ 30), (by decide : 1 < 2147483648), demoWritable.brief.type, (by decide +kernel : demoFile.Variables.length ≤ 2147483648), ?_⟩
  intro z hz
  obtain rfl : z = _ := List.mem_singleton.1 hz
  show InI32 demoVars.StrandId
  decide +kernel

theorem long_ready (n : Nat) : Ready (longState n) demoBytes := by
  refine ⟨?_, demoReady.fresh, ?_⟩
  · intro z hz
    obtain rfl : z = _ := List.mem_singleton.1 hz
    have := demoReady.zones demoVars (by simp [demoState, demoFile])
    exact ⟨this.sane, this.acc, this.prod, this.last⟩
  · intro i z j d hz hd
    match i with
    | 0 => cases hz; exact demoReady.vars 0 demoVars j d rfl hd
    | i + 1 => cases hz

theorem long_valid (n : Nat) : (longFile n).Valid := by
  refine ⟨demoValid.vars, by simp [longFile], ?_⟩
  intro z hz
  obtain rfl : z = _ := List.mem_singleton.1 hz
  have := demoValid.each demoVars (by simp [demoState, demoFile])
  exact ⟨this.skip, this.acc, this.len, this.set⟩

theorem long_elems (n : Nat) : ∀ z ∈ (longFile n).Zones, ∀ d ∈ z.Data, d.type.bytes ≤ d.size := by
  intro z hz
  obtain rfl : z = _ := List.mem_singleton.1 hz
  exact demoWritable.elems demoVars (by simp [demoState, demoFile])

/-- the hypotheses are met on both sides of the bound: 75 characters are written, 76 overrun the buffer -/
example : (∃ s', TecFile.write_plt demoEnv true (longState 75) = .ok () s') ∧ ∃ u, TecFile.write_plt demoEnv true (longState 76) = .ub u :=
  ⟨(C50_exact demoEnv true (longState 75) demoBytes (long_ready _) (long_typed _) (long_elems _) (by decide +kernel) (long_valid _) rfl (fun _ _ => rfl)).2
    long_snug.1,
   C50_exact_else demoEnv true (longState 76) demoBytes (long_ready _) (long_typed _) (long_elems _) (by decide +kernel) (long_valid _) rfl (fun _ _ => rfl)
    long_snug.2⟩

end Verif.Props
