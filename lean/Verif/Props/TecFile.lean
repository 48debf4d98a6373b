import Verif.Proof.TecW6
import Verif.Props.TecBuf
import Verif.Props.TecMinMax
/-!
# Writing a file: C38, C41
-/
namespace Verif.Props
open Spec Tec

/-- the bytes of the selected points of variable `d` of zone `z`, whose values are stored as `data` -/
def _root_.Verif.Tec.Zone.selectedOf (z : Zone) (d : TecData) (data : Str) : Str := selectedBytes (z.sel 0) (z.sel 1) (z.sel 2) d.size data

/-- what the user has to provide: for every zone numbers that do not overflow, for every variable memory that
holds its values -/
structure Ready (s : FSt) (data : Nat → Nat → Str) : Prop where
  zones : ∀ z ∈ s.f.Zones, z.Fits
  fresh : Fresh s.h
  vars : ∀ (i : Nat) (z : Zone) (j : Nat) (d : TecData), s.f.Zones[i]? = some z → z.Data[j]? = some d →
    z.Max.x * z.Max.y * z.Max.z * d.size < 18446744073709551616 ∧
    (data i j).length = wholeBytes (z.sel 0) (z.sel 1) (z.sel 2) d.size ∧ Holds s.h d.DataP ((data i j).map some)

theorem Ready.varOk {s : FSt} {data : Nat → Nat → Str} (r : Ready s data) (i : Nat) (z : Zone) (j : Nat) (d : TecData)
    (hi : s.f.Zones[i]? = some z) (hj : z.Data[j]? = some d) : z.VarOk s.h d ((data i j).map some) :=
  have h := r.vars i z j d hi hj
  ⟨h.1, by rw [List.length_map]; exact h.2.1, h.2.2⟩

theorem getD_some {α : Type} {l : List α} {i : Nat} {a b : α} (h : l[i]? = some a) : l.getD i b = a := by
  rw [List.getD_eq_getElem?_getD, h]; rfl

theorem log_entry {z : Zone} {j : Nat} {d : TecData} (hj : z.Data[j]? = some d) {g : Nat → DataLog → DataLog} :
    (editRange 0 z.Data.length g (z.preLog (ZoneLog.ofZone z)).Data)[j]? = some (g j (DataLog.ofData d)) := by
  have hjl : j < z.Data.length := (List.getElem?_eq_some_iff.mp hj).1
  rw [editRange_get]
  have : (z.preLog (ZoneLog.ofZone z)).Data[j]? = some (DataLog.ofData d) := by
    show ([] ++ z.Data.map DataLog.ofData)[j]? = _
    rw [List.nil_append, List.getElem?_map, hj]; rfl
  rw [this, Option.map_some, if_pos ⟨Nat.zero_le _, by omega⟩]

/-- C38: after `write_plt`, for every zone and variable, the log's `file_pt` is the position in the file at which
the variable starts; the bytes there, as many as `size` times the product of the logged `Real_Max`, are those of
the selected points; the blocks lie inside the file, in the order of the zones and variables, without overlap. -/
theorem C38 {E : Env} {echo : Bool} {s s' : FSt} {data : Nat → Nat → Str} (h : Ready s data)
    (r : TecFile.write_plt E echo s = .ok () s') :
    ∃ (c : Str) (pt : Nat → Nat → Nat),
      s'.fs (cstr s.f.path) = some c ∧
      (∀ i z j d, s.f.Zones[i]? = some z → z.Data[j]? = some d → ∃ l dl,
        s'.f.last_log.Zones[i]? = some l ∧ l.Data.length = z.Data.length ∧ l.Data[j]? = some dl ∧
        dl.file_pt = some (pt i j : Int) ∧ dl.type = d.type ∧ dl.size = d.size ∧
        (z.selectedOf d (data i j)).length = (l.Real_Max.x * l.Real_Max.y * l.Real_Max.z).toNat * dl.size ∧
        (c.drop (pt i j)).take ((l.Real_Max.x * l.Real_Max.y * l.Real_Max.z).toNat * dl.size) = z.selectedOf d (data i j) ∧
        pt i j + (l.Real_Max.x * l.Real_Max.y * l.Real_Max.z).toNat * dl.size ≤ c.length) ∧
      (∀ i z j d k z' m d', s.f.Zones[i]? = some z → z.Data[j]? = some d → s.f.Zones[k]? = some z' → z'.Data[m]? = some d' →
        (i < k ∨ (i = k ∧ j < m)) → pt i j + (z.selectedOf d (data i j)).length ≤ pt k m) := by
  obtain ⟨-, mm, c, w⟩ := write_plt_inv data h.zones h.fresh h.varOk r
  obtain ⟨Z, L, T, hf, hZ, hL, hz⟩ := w.file
  let ZZ : Nat → Zone := fun i => s.f.Zones.getD i (Zone.new [] 0)
  let pre := (s.checked E).f.headBytes ++ leBytes 4 f357
  refine ⟨c, fun i j => (ZZ i).start (data i) (zoneBase pre.length (fun i => (ZZ i).dataBytes (data i) (mm i)) 0 i) j, ?_, ?_, ?_⟩
  · rw [w.fs]; simp
  · intro i z j d hi hj
    obtain ⟨z', l', l'', e1, e2, dn, J, X, e3⟩ := hz i z hi
    obtain ⟨T', e4⟩ := dn.log
    have hzi : ZZ i = z := getD_some hi
    have hjl : j < z.Data.length := (List.getElem?_eq_some_iff.mp hj).1
    have hil : i < s.f.Zones.length := (List.getElem?_eq_some_iff.mp hi).1
    have fit := h.zones z (List.mem_of_getElem? hi)
    have vo := h.varOk i z j d hi hj
    have bl : z.blockAt (data i) j = z.selectedOf d (data i j) := by
      unfold Zone.blockAt; rw [hj]; rfl
    have ln : (z.selectedOf d (data i j)).length = z.points * d.size :=
      block_length fit (by have := vo.len; rw [List.length_map] at this; exact this)
    have rp : ((z.sel 0).count * (z.sel 1).count * (z.sel 2).count).toNat = z.points := by
      unfold Zone.points DimSel.count
      rw [length_selection z fit.sane]
      rw [← Int.natCast_mul, ← Int.natCast_mul, Int.toNat_natCast]
      simp only [DimSel.count, Int.toNat_natCast]
    have hR : l''.Real_Max = ⟨(z.sel 0).count, (z.sel 1).count, (z.sel 2).count⟩ := by rw [e3, e4]; rfl
    have hc : c = pre ++ (List.range s.f.Zones.length).flatMap fun i => (ZZ i).dataBytes (data i) (mm i) := w.bytes
    obtain ⟨k1, k2⟩ := file_cut ZZ data mm hc (i := i) (j := j) hil (by rw [hzi]; exact hjl)
    rw [hzi, bl, ln] at k1 k2
    refine ⟨l'', DataLog.filled (mm i j) (z.start (data i) (zoneBase pre.length (fun i => (ZZ i).dataBytes (data i) (mm i)) 0 i) j) (DataLog.ofData d),
      ?_, ?_, ?_, ?_, rfl, rfl, ?_, ?_, ?_⟩
    · rw [hf]; exact e2
    · rw [e3, e4]; simp [ZoneLog.filled, editRange_length, Zone.preLog, ZoneLog.ofZone]
    · rw [e3, e4]
      exact log_entry hj
    · show some (Int.ofNat (Zone.start z _ _ _)) = some (Int.ofNat (Zone.start (ZZ i) _ _ _))
      rw [hzi]
    · rw [hR, ln, rp]; rfl
    · rw [hR]
      show (c.drop (Zone.start (ZZ i) _ _ _)).take (((z.sel 0).count * (z.sel 1).count * (z.sel 2).count).toNat * d.size) = _
      rw [rp, hzi]; exact k1
    · rw [hR]
      show Zone.start (ZZ i) _ _ _ + ((z.sel 0).count * (z.sel 1).count * (z.sel 2).count).toNat * d.size ≤ _
      rw [rp, hzi]; exact k2
  · intro i z j d k z' m d' hi hj hk hm ho
    have hzi : ZZ i = z := getD_some hi
    have hjl : j < z.Data.length := (List.getElem?_eq_some_iff.mp hj).1
    have := file_order (pre := pre) ZZ data mm (i := i) (j := j) (k := k) (l := m) (by rw [hzi]; exact hjl) ho
    have bl : (ZZ i).blockAt (data i) j = z.selectedOf d (data i j) := by
      rw [hzi]; unfold Zone.blockAt; rw [hj]; rfl
    rw [bl] at this
    exact this

/-- C38: besides, only this file was changed, it is closed, all buffers were given back, and the logged size is
the length of the file -/
theorem C38_frame {E : Env} {echo : Bool} {s s' : FSt} {data : Nat → Nat → Str} (h : Ready s data)
    (r : TecFile.write_plt E echo s = .ok () s') :
    s'.isOpen = false ∧ (∀ p, p ≠ cstr s.f.path → s'.fs p = s.fs p) ∧ s'.h.blk = s.h.blk ∧
    s'.f.last_log.Size = (s'.fs (cstr s.f.path)).map List.length ∧ s'.f.last_log.Error = [] ∧
    s'.f.Variables = s.f.Variables ∧ s'.f.Zones.length = s.f.Zones.length ∧ s'.f.last_log.Zones.length = s.f.Zones.length := by
  obtain ⟨-, mm, c, w⟩ := write_plt_inv data h.zones h.fresh h.varOk r
  obtain ⟨Z, L, T, hf, hZ, hL, hz⟩ := w.file
  have ht : s'.f.last_log.Size = some c.length ∧ s'.f.last_log.Error = [] ∧
    s'.f.Variables = s.f.Variables ∧ s'.f.Zones.length = s.f.Zones.length ∧ s'.f.last_log.Zones.length = s.f.Zones.length := by
    rw [hf]; exact ⟨rfl, rfl, rfl, hZ, hL⟩
  refine ⟨w.closed, fun p hp => by rw [w.fs]; simp [hp], w.mem.blk, ?_, ht.2⟩
  rw [w.fs, ht.1]; simp

/-- C38: the log names the file and its variables, and tells the numbers of selected points of every zone -/
theorem C38_log {E : Env} {echo : Bool} {s s' : FSt} {data : Nat → Nat → Str} (h : Ready s data)
    (r : TecFile.write_plt E echo s = .ok () s') :
    s'.f.last_log.FilePath = s.f.FilePath ∧ s'.f.last_log.FileName = s.f.FileName ∧ s'.f.last_log.Title = s.f.Title ∧
    s'.f.last_log.Variables = s.f.Variables ∧ s'.f.last_log.Zones.length = s.f.Zones.length ∧
    (∀ (i : Nat) (z : Zone), s.f.Zones[i]? = some z → z.Data.length = s.f.Variables.length ∧ ∃ l : ZoneLog, s'.f.last_log.Zones[i]? = some l ∧
      l.Data.length = z.Data.length ∧ l.Real_Max = ⟨(z.sel 0).count, (z.sel 1).count, (z.sel 2).count⟩) := by
  obtain ⟨v, mm, c, w⟩ := write_plt_inv data h.zones h.fresh h.varOk r
  obtain ⟨Z, L, T, hf, hZ, hL, hz⟩ := w.file
  have ht : s'.f.last_log.FilePath = s.f.FilePath ∧ s'.f.last_log.FileName = s.f.FileName ∧ s'.f.last_log.Title = s.f.Title ∧
      s'.f.last_log.Variables = s.f.Variables ∧ s'.f.last_log.Zones.length = s.f.Zones.length := by
    rw [hf]; exact ⟨rfl, rfl, rfl, rfl, hL⟩
  refine ⟨ht.1, ht.2.1, ht.2.2.1, ht.2.2.2.1, ht.2.2.2.2, fun i z hi => ⟨(v.each z (List.mem_of_getElem? hi)).len, ?_⟩⟩
  obtain ⟨z', l', l'', e1, e2, dn, J, X, e3⟩ := hz i z hi
  obtain ⟨T', e4⟩ := dn.log
  refine ⟨l'', by rw [hf]; exact e2, ?_, ?_⟩
  · rw [e3, e4]; simp [ZoneLog.filled, editRange_length, Zone.preLog, ZoneLog.ofZone]
  · rw [e3, e4]; rfl

/-- C37 for the whole file: the minimum and maximum in the log are those of the selected points, for variables
of a known type without NaN -/
theorem C37_logged {E : Env} {echo : Bool} {s s' : FSt} {data : Nat → Nat → Str} (h : Ready s data)
    (r : TecFile.write_plt E echo s = .ok () s') (i : Nat) (z : Zone) (j : Nat) (d : TecData)
    (hi : s.f.Zones[i]? = some z) (hj : z.Data[j]? = some d) (hs : d.size = d.type.bytes)
    (hn : ∀ k < (selection (z.sel 0) (z.sel 1) (z.sel 2)).length, (d.type.key (elem d.type.bytes (z.selectedOf d (data i j)) k)).isSome) :
    ∃ l dl m, s'.f.last_log.Zones[i]? = some l ∧ l.Data[j]? = some dl ∧
      dl.min = some (d.type.toF64 m.1) ∧ dl.max = some (d.type.toF64 m.2) ∧
      IsMinMax (fun n => (d.type.key n).getD 0) (elem d.type.bytes (z.selectedOf d (data i j)))
        (selection (z.sel 0) (z.sel 1) (z.sel 2)).length m := by
  obtain ⟨v, mm, c, w⟩ := write_plt_inv data h.zones h.fresh h.varOk r
  obtain ⟨Z, L, T, hf, hZ, hL, hz⟩ := w.file
  obtain ⟨z', l', l'', e1, e2, dn, J, X, e3⟩ := hz i z hi
  obtain ⟨T', e4⟩ := dn.log
  have hjl : j < z.Data.length := (List.getElem?_eq_some_iff.mp hj).1
  have ht := ((v.each z (List.mem_of_getElem? hi)).set d (List.mem_of_getElem? hj)).2.1
  obtain ⟨m, em, hm⟩ := dn.minmax j d hj ht hs hn
  refine ⟨l'', DataLog.filled (mm i j) (z.start (data i) (zoneBase ((s.checked E).f.headBytes ++ leBytes 4 f357).length (fun i => (s.f.Zones.getD i (Zone.new [] 0)).dataBytes (data i) (mm i)) 0 i) j) (DataLog.ofData d), m, ?_, ?_, ?_, ?_, hm⟩
  · rw [hf]; exact e2
  · rw [e3, e4]
    exact log_entry hj
  · unfold DataLog.filled; rw [em]
  · unfold DataLog.filled; rw [em]

/-! ## An example -/

def plainFmt : Fmt := ⟨fun _ => lit "0", fun _ => lit "0", fun _ => lit "0"⟩
def demoEnv : Env where
  fmt := plainFmt
  tBegin := lit "2026-01-01 00:00:00"
  tEnd := lit "2026-01-01 00:00:01"
  using_ := 0
  canOpen := fun _ => true

def demoSecond : Zone := { demoVars with
  ZoneName := lit "second"
  Auxiliary := [(lit "b", lit "2")] }
def demoFile : TecFile := { TecFile.new (lit "name") (lit "dir") (lit "title") with
  Variables := [lit "u", lit "v"]
  Auxiliary := [(lit "a", lit "1")]
  Zones := [demoVars, demoSecond] }

def demoState : FSt := ⟨demoHeap, fun _ => none, [], false, [], demoFile⟩

def demoBytes (_ i : Nat) : Str :=
  if i = 0 then window (fun k => UInt8.ofNat k) 0 70 else window (fun k => UInt8.ofNat (k * 3)) 3 140

theorem demoReady : Ready demoState demoBytes := by
  have hv : ∀ (z : Zone), z = demoVars ∨ z = demoSecond → ∀ i j d, z.Data[j]? = some d →
      z.Max.x * z.Max.y * z.Max.z * d.size < 18446744073709551616 ∧
      (demoBytes i j).length = wholeBytes (z.sel 0) (z.sel 1) (z.sel 2) d.size ∧ Holds demoHeap d.DataP ((demoBytes i j).map some) := by
    rintro z hz i j d hj
    have hd : demoVars.Data[j]? = some d := by rcases hz with rfl | rfl <;> exact hj
    have e : (demoBytes i j).map some = demoData j := by
      unfold demoBytes demoData window
      split <;> rw [List.map_map] <;> rfl
    have := demoHolds j d hd
    rw [← e, List.length_map] at this
    rcases hz with rfl | rfl <;> exact this
  refine ⟨?_, demoFresh, ?_⟩
  · intro z hz
    have : z = demoVars ∨ z = demoSecond := by simpa [demoState, demoFile] using hz
    rcases this with rfl | rfl
    · exact demoFits
    · exact ⟨demoFits.sane, demoFits.acc, demoFits.prod, demoFits.last⟩
  · intro i z j d hi hj
    have hz : z ∈ demoState.f.Zones := List.mem_of_getElem? hi
    have : z = demoVars ∨ z = demoSecond := by simpa [demoState, demoFile] using hz
    exact hv z this i j d hj

def Res.state {σ α : Type} : Res σ α → Option σ
  | .ok _ s => some s
  | _ => none

/-- the file of the example is written; here are the length of the file, the logged positions and the bytes of
the second variable of the second zone -/
example : (Res.state (TecFile.write_plt demoEnv true demoState)).map (fun s =>
    ((s.fs (lit "dir/name.plt")).map List.length, s.f.last_log.Zones.map (fun l => l.Data.map DataLog.file_pt),
      (s.fs (lit "dir/name.plt")).map (fun c => (c.drop 408).take 18))) =
    some (some 426, [[some 316, some 325], [some 399, some 408]],
      some ([5, 6, 11, 12, 17, 18, 45, 46, 51, 52, 57, 58, 85, 86, 91, 92, 97, 98].map fun n => UInt8.ofNat (n * 3))) := by
  decide +kernel

/-! ## C41 -/

/-- C41, for zones without negative numbers and without overflow of `Begin + End`: if the file object is not
valid (`TecFile.Valid` of Verif/Spec/TecPre.lean) `write_plt` throws, the message is recorded in the log, and the
disk, the standard output and the free store are as before. -/
theorem C41_partial (E : Env) (echo : Bool) (s : FSt) (p : ∀ z ∈ s.f.Zones, ∀ i < 3, DimPlain (z.sel i)) (v : ¬s.f.Valid) :
    ∃ m s', TecFile.write_plt E echo s = .err (.text m) s' ∧ s'.f.last_log.Error = m ∧
      s'.fs = s.fs ∧ s'.isOpen = s.isOpen ∧ s'.of = s.of ∧ s'.out = s.out ∧ s'.h = s.h := by
  obtain ⟨m, f', e, he⟩ := pre_bad (E := E) p v
  exact ⟨m, { s with f := f' }, by rw [write_plt_eq, M.bind_err e], he, rfl, rfl, rfl, rfl, rfl⟩

/-- the messages for a file without variables and for a file without zones -/
theorem C41_empty (E : Env) (echo : Bool) (s : FSt) :
    (s.f.Variables = [] → ∃ s', TecFile.write_plt E echo s = .err (.text (lit "File(" ++ s.f.FileName ++ lit "): Variables is empty")) s' ∧
      s'.f.last_log.Error = lit "File(" ++ s.f.FileName ++ lit "): Variables is empty" ∧ s'.fs = s.fs) ∧
    (s.f.Variables ≠ [] → s.f.Zones = [] →
      ∃ s', TecFile.write_plt E echo s = .err (.text (lit "File(" ++ s.f.FileName ++ lit "): Zones is empty")) s' ∧
      s'.f.last_log.Error = lit "File(" ++ s.f.FileName ++ lit "): Zones is empty" ∧ s'.fs = s.fs) := by
  constructor
  · intro h
    have e : (s.started E).f.Variables.length = 0 := by show s.f.Variables.length = 0; rw [h]; rfl
    rw [write_plt_eq]
    unfold TecFile.wrtie_plt_pre
    rw [LawfulMonad.bind_assoc, M.get_bind_run, if_pos e]
    exact ⟨_, rfl, rfl, rfl⟩
  · intro h0 h
    have e0 : ¬(s.started E).f.Variables.length = 0 := fun e => h0 (List.length_eq_zero_iff.mp e)
    have e : (s.started E).f.Zones.length = 0 := by show s.f.Zones.length = 0; rw [h]; rfl
    rw [write_plt_eq]
    unfold TecFile.wrtie_plt_pre
    rw [LawfulMonad.bind_assoc, M.get_bind_run, if_neg e0, if_pos e]
    exact ⟨_, rfl, rfl, rfl⟩

/-- the checks refuse nothing else: a valid object reaches the operation that opens the file; if that fails the
disk is as before and the message is recorded -/
theorem C41_open (E : Env) (echo : Bool) (s : FSt) (p : ∀ z ∈ s.f.Zones, ∀ i < 3, DimPlain (z.sel i)) (v : s.f.Valid)
    (ho : E.canOpen (cstr s.f.path) = false) :
    ∃ s', TecFile.write_plt E echo s = .err (.text (cstr (lit "can not open file " ++ s.f.path))) s' ∧
      s'.f.last_log.Error = cstr (lit "can not open file " ++ s.f.path) ∧
      s'.fs = s.fs ∧ s'.isOpen = s.isOpen ∧ s'.of = s.of ∧ s'.out = s.out ∧ s'.h = s.h := by
  rw [write_plt_eq, M.bind_ok (pre_ok p v)]
  unfold TecFile.write_body
  have : TecFile.openFile E (s.checked E) = .err (.text (cstr (lit "can not open file " ++ s.f.path))) { s.checked E with f := { (s.checked E).f with
      last_log := { (s.checked E).f.last_log with Error := cstr (lit "can not open file " ++ s.f.path) } } } := by
    unfold TecFile.openFile
    simp only
    rw [if_neg]; rfl
    intro h
    have : E.canOpen (cstr s.f.path) = true := h
    rw [ho] at this; cases this
  rw [M.bind_err this]
  exact ⟨_, rfl, rfl, rfl, rfl, rfl, rfl, rfl⟩

/-- the hypotheses of the theorems above: the example is plain and valid; without the first variable of its
second zone it is not -/
example : (∀ z ∈ demoState.f.Zones, ∀ i < 3, DimPlain (z.sel i)) ∧ demoState.f.Valid ∧
    ¬({ demoFile with Zones := [demoVars, { demoSecond with Data := [{ type := .byte, size := 1, DataP := .null }, { type := .shortint, size := 2, DataP := .at 1 3 }] }] } : TecFile).Valid := by
  refine ⟨fun z hz => (demoReady.zones z hz).plain, ?_, fun v => ?_⟩
  · have h : (Res.state (TecFile.write_plt demoEnv true demoState)).isSome = true := by decide +kernel
    generalize hr : TecFile.write_plt demoEnv true demoState = r at h
    cases r with
    | ok a s => exact (write_plt_inv demoBytes demoReady.zones demoReady.fresh demoReady.varOk hr).1
    | err e s => cases h
    | ub u => cases h
  · exact ((v.each _ (List.mem_cons_of_mem _ (List.mem_cons_self ..))).set _ (List.mem_cons_self ..)).1 rfl

def backZone : Zone := { demoZone with
  Max := ⟨5, 1, 1⟩
  Skip := ⟨-1, 1, 1⟩
  Begin := ⟨0, 0, 0⟩
  End := ⟨0, 0, 0⟩
  Data := [{ type := .byte, size := 1, DataP := .at 0 0 }] }
def backState : FSt where
  h := { demoHeap with mem := fun _ n => n < 4294967296 }
  fs := fun p => if p = lit "dir/name.plt" then some (lit "old content") else none
  of := []
  isOpen := false
  out := []
  f := { TecFile.new (lit "name") (lit "dir") (lit "title") with
    Variables := [lit "u"]
    Zones := [backZone] }

def Res.failed {σ α : Type} : Res σ α → Option (Err × σ)
  | .err e s => some (e, s)
  | _ => none

/-- C41 is false for a negative stride: `Skip = -1` passes the test `Skip == 0`, the old file is destroyed, then
`new` fails (it is asked for 2^64 - 5 bytes); the file stays open and `last_log.Error` is empty. -/
theorem C41_false : ∃ (E : Env) (s s' : FSt), s.fs (cstr s.f.path) = some (lit "old content") ∧ s.f.Zones.map (fun z => z.Skip.x) = [-1] ∧
    TecFile.write_plt E true s = .err (.text (lit "maybe out of memory: std::bad_alloc")) s' ∧
    s'.fs (cstr s.f.path) = some [] ∧ s'.isOpen = true ∧ s'.f.last_log.Error = [] := by
  have h : (Res.failed (TecFile.write_plt demoEnv true backState)).map (fun r =>
      (r.1, r.2.fs (cstr backState.f.path), r.2.isOpen, r.2.f.last_log.Error)) =
      some (.text (lit "maybe out of memory: std::bad_alloc"), some [], true, []) := by decide +kernel
  generalize hr : TecFile.write_plt demoEnv true backState = r at h
  cases r with
  | ok a s => cases h
  | err e s =>
    simp only [Res.failed, Option.map_some, Option.some.injEq, Prod.mk.injEq] at h
    obtain ⟨rfl, h2, h3, h4⟩ := h
    exact ⟨demoEnv, backState, s, by decide +kernel, rfl, hr, h2, h3, h4⟩
  | ub u => cases h

end Verif.Props
