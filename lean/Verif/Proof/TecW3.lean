import Verif.Proof.TecW2
/-!
# The data section of a file
-/
namespace Verif.Tec
open Spec

/-! ## Steps that write no data -/

/-- from `s` to `s'` the bytes `b` are written and the report may grow -/
structure FStep (s s' : FSt) (b : Str) : Prop where
  h : s'.h = s.h
  fs : s'.fs = s.fs
  isOpen : s'.isOpen = s.isOpen
  of : s'.of = s.of ++ b
  f : s'.f = { s.f with
    last_log := { s.f.last_log with
      Echo_Text := s'.f.last_log.Echo_Text } }

theorem FStep.refl (s : FSt) : FStep s s [] := ⟨rfl, rfl, rfl, by simp, rfl⟩

theorem FStep.trans {s1 s2 s3 : FSt} {b c : Str} (x : FStep s1 s2 b) (y : FStep s2 s3 c) : FStep s1 s3 (b ++ c) where
  h := y.h.trans x.h
  fs := y.fs.trans x.fs
  isOpen := y.isOpen.trans x.isOpen
  of := by rw [y.of, x.of, List.append_assoc]
  f := by rw [y.f, x.f]

/-- a statement that writes `b` and reports -/
def Writes {α : Type} (b : Str) (m : M FSt α) : Prop := ∀ s a s', m s = .ok a s' → FStep s s' b

namespace Writes
variable {α β : Type}
theorem pure (a : α) : Writes [] (Pure.pure a : M FSt α) := by
  intro s a s' h; cases h; exact FStep.refl s
theorem bind {b c : Str} {m : M FSt α} {f : α → M FSt β} (hm : Writes b m) (hf : ∀ a, Writes c (f a)) : Writes (b ++ c) (m >>= f) := by
  intro s r s' h
  obtain ⟨a, s1, h1, h2⟩ := M.bind_inv h
  exact (hm s a s1 h1).trans (hf a s1 r s' h2)
theorem bindq {c : Str} {m : M FSt α} {f : α → M FSt β} (hm : Writes [] m) (hf : ∀ a, Writes c (f a)) : Writes c (m >>= f) := bind hm hf
theorem lift (o : Out α) : Writes [] (M.lift o) := by
  intro s a s' h
  obtain ⟨-, rfl⟩ := M.lift_inv h
  exact FStep.refl _
theorem liftM (o : Out α) : Writes [] (liftM o : M FSt α) := lift o
theorem ifB {b : Bool} {m : M FSt Unit} (hm : Writes [] m) : Writes [] (Tec.ifB b m) := by
  unfold Tec.ifB
  cases b
  · exact pure ()
  · exact hm
theorem print (echo : Bool) (t : Str) : Writes [] (FSt.print echo t) := by
  unfold FSt.print
  cases echo
  · exact pure ()
  · intro s a s' h; cases h; exact ⟨rfl, rfl, rfl, by simp, rfl⟩
theorem push (t : Str) : Writes [] (FSt.push t) := by
  intro s a s' h; cases h; exact ⟨rfl, rfl, rfl, by simp, rfl⟩
theorem append (t : Str) : Writes [] (FSt.append t) := by
  intro s a s' h
  unfold FSt.append at h
  split at h
  · cases h
  · cases h; exact ⟨rfl, rfl, rfl, by simp, rfl⟩
theorem file {m : M Str Unit} {b : Str} (hm : ∀ s, m s = .ok () (s ++ b)) : Writes b (FSt.file m) := by
  intro s a s' h
  unfold FSt.file at h
  rw [hm] at h
  cases h; exact ⟨rfl, rfl, rfl, rfl, rfl⟩
theorem each {l : List α} {f : α → M FSt Unit} {g : α → Str} (hf : ∀ a, Writes (g a) (f a)) : Writes (l.flatMap g) (Tec.each l f) := by
  induction l with
  | nil => exact pure ()
  | cons a l ih => exact bind (hf a) fun _ => ih
end Writes

theorem writes_zoneLine (echo : Bool) (i : Nat) (z : Zone) : Writes [] (TecFile.zoneLine echo i z) :=
  .bindq (.liftM _) fun _ => .bindq (.print _ _) fun _ => .push _

/-! ## Zones -/

/-- the data section of a zone -/
def Zone.dataBytes (z : Zone) (data : Nat → Str) (mm : Nat → F64 × F64) : Str :=
  z.dataHead ++ (List.range z.Data.length).flatMap (fun i => mmBytes (mm i)) ++ (List.range z.Data.length).flatMap (z.blockAt data)

/-- where variable `j` of a zone starts when the data section starts at `base` -/
def Zone.start (z : Zone) (data : Nat → Str) (base j : Nat) : Nat :=
  base + z.preLen + ((List.range j).flatMap (z.blockAt data)).length

/-- the log of a zone after its data section was written from `base` on -/
def ZoneLog.filled (z : Zone) (data : Nat → Str) (mm : Nat → F64 × F64) (base : Nat) (T : List Str) (l : ZoneLog) : ZoneLog :=
  { l with
    Data := editRange 0 z.Data.length (fun j => DataLog.filled (mm j) (z.start data base j)) l.Data
    Echo_Text := T
    Size := some (z.dataBytes data mm).length }

structure ZoneDone (z : Zone) (data : Nat → Str) (mm : Nat → F64 × F64) (l : ZoneLog) (base : Nat) (z' : Zone) (l' : ZoneLog) : Prop where
  minmax : ∀ j d, z.Data[j]? = some d → MinMaxOf d z.points (z.block d.size (data j)) (mm j)
  zone : ∃ D, z' = { z.gathered with
    Data := D
    needreal := false } ∧ D.map TecData.core = z.Data.map TecData.core
  log : ∃ T, l' = ZoneLog.filled z data mm base T l

/-- the zones and the log of the zones are replaced -/
def TecFile.withZones (f : TecFile) (Z : List Zone) (L : List ZoneLog) (T : List Str) : TecFile :=
  { f with
    Zones := Z
    last_log := { f.last_log with
      Zones := L
      Echo_Text := T } }

structure MemSame (h h' : Heap Byte) : Prop where
  blk : h'.blk = h.blk
  mem : h'.mem = h.mem
  next : h.next ≤ h'.next

theorem MemSame.refl (h : Heap Byte) : MemSame h h := ⟨rfl, rfl, le_refl _⟩
theorem MemSame.trans {a b c : Heap Byte} (x : MemSame a b) (y : MemSame b c) : MemSame a c :=
  ⟨y.blk.trans x.blk, y.mem.trans x.mem, x.next.trans y.next⟩
theorem MemSame.fresh {h h' : Heap Byte} (m : MemSame h h') (f : Fresh h) : Fresh h' := by
  intro c hc; rw [m.blk]; exact f c (m.next.trans hc)
theorem MemSame.varOk {h h' : Heap Byte} (m : MemSame h h') {z : Zone} {d : TecData} {data : List (Option Byte)}
    (v : z.VarOk h d data) : z.VarOk h' d data := by
  refine ⟨v.size, v.len, ?_⟩
  obtain ⟨b, o, len, c, e1, e2, e3, e4⟩ := v.holds
  exact ⟨b, o, len, c, e1, by rw [m.blk]; exact e2, e3, e4⟩

theorem dataZone_inv {F : Fmt} {vars : List Str} {echo : Bool} {i : Nat} {g z : Zone} {l : ZoneLog} {data : Nat → Str} {s s' : FSt}
    (f : z.Fits) (hz : s.f.Zones[i]? = some z.gathered) (hl : s.f.last_log.Zones[i]? = some l) (fr : Fresh s.h)
    (hv : ∀ j d, z.Data[j]? = some d → z.VarOk s.h d ((data j).map some))
    (r : TecFile.dataZone F vars echo i g s = .ok () s') :
    ∃ mm z' l' T, ZoneDone z data mm l s.of.length z' l' ∧ s'.of = s.of ++ z.dataBytes data mm ∧ MemSame s.h s'.h ∧
      s'.fs = s.fs ∧ s'.isOpen = s.isOpen ∧ s'.f = s.f.withZones (s.f.Zones.set i z') (s.f.last_log.Zones.set i l') T := by
  unfold TecFile.dataZone at r
  obtain ⟨_, s1, r1, r⟩ := M.bind_inv r
  have w1 := Writes.ifB (writes_zoneLine echo i g) _ _ _ r1
  obtain ⟨_, s2, r2, r⟩ := M.bind_inv r
  obtain ⟨_, s3, r3, r4⟩ := M.bind_inv r
  have w34 := (Writes.push _ _ _ _ r3).trans (Writes.ifB (writes_zoneLine echo i g) _ _ _ r4)
  have hz1 : s1.f.Zones[i]? = some z.gathered := by rw [w1.f]; exact hz
  have hl1 : s1.f.last_log.Zones[i]? = some l := by rw [w1.f]; exact hl
  unfold FSt.zone at r2
  rw [hz1, hl1] at r2
  simp only at r2
  cases hw : Zone.write_plt_data F.le vars echo ⟨s1.h, s1.of, s1.out, z.gathered, l⟩ with
  | ub u => rw [hw] at r2; cases r2
  | err e t => rw [hw] at r2; cases r2
  | ok a t =>
    rw [hw] at r2
    cases r2
    have W := Zone.write_plt_data_inv f data rfl (by rw [w1.h]; exact fr) (by simp only [w1.h]; exact hv) hw
    obtain ⟨mm, hmm, hof, hlog⟩ := W.out
    have w1of : s1.of = s.of := by rw [w1.of, List.append_nil]
    simp only [w1of] at hof hlog
    refine ⟨mm, t.z, t.l, s'.f.last_log.Echo_Text, ⟨hmm, W.zone, t.l.Echo_Text, ?_⟩, ?_, ⟨?_, ?_, ?_⟩, ?_, ?_, ?_⟩
    · have : t.of.length - s.of.length = (z.dataBytes data mm).length := by
        rw [hof, List.length_append, Nat.add_sub_cancel_left]; rfl
      rw [this] at hlog
      exact hlog
    · rw [w34.of]; simp only [List.append_nil]; exact hof
    · rw [w34.h]; simp only; rw [W.blk, w1.h]
    · rw [w34.h]; simp only; rw [W.mem, w1.h]
    · rw [w34.h]; have := W.next; simp only at this; rw [w1.h] at this; exact this
    · rw [w34.fs]; exact w1.fs
    · rw [w34.isOpen]; exact w1.isOpen
    · have := w34.f
      generalize s'.f.last_log.Echo_Text = T at *
      rw [this]
      have w1f := w1.f
      generalize s1.f.last_log.Echo_Text = T1 at *
      simp only [w1f]; rfl

/-- positions of the zones -/
def zoneBase (base : Nat) (sec : Nat → Str) (n i : Nat) : Nat := base + ((List.range' n (i - n)).flatMap sec).length

theorem dataZones_inv {F : Fmt} {vars : List Str} {echo : Bool} (Z : Nat → Zone) (data : Nat → Nat → Str) (l : List Zone) :
    ∀ n (s s' : FSt) (L : Nat → ZoneLog),
    (∀ i < l.length, (Z (n + i)).Fits ∧ s.f.Zones[n + i]? = some (Z (n + i)).gathered ∧ s.f.last_log.Zones[n + i]? = some (L (n + i)) ∧
      ∀ j d, (Z (n + i)).Data[j]? = some d → (Z (n + i)).VarOk s.h d ((data (n + i) j).map some)) →
    Fresh s.h →
    eachIdx (TecFile.dataZone F vars echo) n l s = .ok () s' →
    ∃ (mm : Nat → Nat → F64 × F64) (Z' : List Zone) (L' : List ZoneLog) (T : List Str), s'.of = s.of ++ (List.range' n l.length).flatMap (fun i => (Z i).dataBytes (data i) (mm i)) ∧ MemSame s.h s'.h ∧
      s'.fs = s.fs ∧ s'.isOpen = s.isOpen ∧ s'.f = s.f.withZones Z' L' T ∧
      Z'.length = s.f.Zones.length ∧ L'.length = s.f.last_log.Zones.length ∧
      (∀ i, ¬(n ≤ i ∧ i < n + l.length) → Z'[i]? = s.f.Zones[i]? ∧ L'[i]? = s.f.last_log.Zones[i]?) ∧
      (∀ i, n ≤ i → i < n + l.length → ∃ z' l', Z'[i]? = some z' ∧ L'[i]? = some l' ∧
        ZoneDone (Z i) (data i) (mm i) (L i) (zoneBase s.of.length (fun i => (Z i).dataBytes (data i) (mm i)) n i) z' l') := by
  induction l with
  | nil =>
    intro n s s' L _ _ r
    cases r
    refine ⟨fun _ _ => (0, 0), s.f.Zones, s.f.last_log.Zones, s.f.last_log.Echo_Text, by simp, MemSame.refl _, rfl, rfl, rfl, rfl, rfl,
      fun _ _ => ⟨rfl, rfl⟩, ?_⟩
    intro i h1 h2; simp at h2; omega
  | cons g l ih =>
    intro n s s' L H fr r
    obtain ⟨_, s1, r1, r⟩ := M.bind_inv (m := TecFile.dataZone F vars echo n g) r
    obtain ⟨f, hz, hl, hv⟩ := H 0 (by simp)
    rw [Nat.add_zero] at f hz hl hv
    obtain ⟨m0, z', l', T0, d0, o0, ms0, fs0, op0, f0⟩ := dataZone_inv f hz hl fr hv r1
    obtain ⟨mm, Z', L', T, o1, ms1, fs1, op1, f1, len1, len2, out1, in1⟩ := ih (n + 1) s1 s' L (by
      intro i hi
      obtain ⟨a, b, c, d⟩ := H (i + 1) (by rw [List.length_cons]; omega)
      rw [show n + 1 + i = n + (i + 1) by omega]
      refine ⟨a, ?_, ?_, fun j d' hd => ms0.varOk (d j d' hd)⟩
      · rw [f0]; simp only [TecFile.withZones]; rw [List.getElem?_set_ne (by omega)]; exact b
      · rw [f0]; simp only [TecFile.withZones]; rw [List.getElem?_set_ne (by omega)]; exact c) (ms0.fresh fr) r
    have hn1 : n < s.f.Zones.length := (List.getElem?_eq_some_iff.mp hz).1
    have hn2 : n < s.f.last_log.Zones.length := (List.getElem?_eq_some_iff.mp hl).1
    let mm' : Nat → Nat → F64 × F64 := fun i => if i = n then m0 else mm i
    have e0 : mm' n = m0 := if_pos rfl
    have e1 : ∀ i, i ≠ n → mm' i = mm i := fun i hi => if_neg hi
    have fm : ∀ a k, n < a → (List.range' a k).flatMap (fun i => (Z i).dataBytes (data i) (mm' i)) =
        (List.range' a k).flatMap (fun i => (Z i).dataBytes (data i) (mm i)) := by
      intro a k ha
      rw [List.flatMap_def, List.flatMap_def]
      congr 1
      apply List.map_congr_left
      intro i hi
      rw [List.mem_range'_1] at hi
      simp only [e1 i (by omega)]
    refine ⟨mm', Z', L', T, ?_, ms0.trans ms1, fs1.trans fs0, op1.trans op0, ?_, ?_, ?_, ?_, ?_⟩
    · rw [o1, o0, List.length_cons, List.range'_succ, List.flatMap_cons, fm (n + 1) _ (by omega), List.append_assoc]
      simp only [e0]
    · rw [f1, f0]; rfl
    · rw [len1, f0]; simp [TecFile.withZones]
    · rw [len2, f0]; simp [TecFile.withZones]
    · intro i hi
      rw [List.length_cons] at hi
      obtain ⟨a, b⟩ := out1 i (by omega)
      rw [a, b, f0]
      simp only [TecFile.withZones]
      rw [List.getElem?_set_ne (by omega), List.getElem?_set_ne (by omega)]
      exact ⟨rfl, rfl⟩
    · intro i h1 h2
      rw [List.length_cons] at h2
      by_cases hi : i = n
      · subst hi
        obtain ⟨a, b⟩ := out1 i (by omega)
        refine ⟨z', l', ?_, ?_, ?_⟩
        · rw [a, f0]; simp only [TecFile.withZones]; rw [List.getElem?_set_self hn1]
        · rw [b, f0]; simp only [TecFile.withZones]; rw [List.getElem?_set_self hn2]
        · rw [e0]
          unfold zoneBase
          rw [Nat.sub_self, List.range'_zero, List.flatMap_nil, List.length_nil, Nat.add_zero]
          exact d0
      · obtain ⟨z1, l1, a, b, c⟩ := in1 i (by omega) (by omega)
        refine ⟨z1, l1, a, b, ?_⟩
        rw [e1 i hi]
        have : zoneBase s.of.length (fun i => (Z i).dataBytes (data i) (mm' i)) n i =
            zoneBase s1.of.length (fun i => (Z i).dataBytes (data i) (mm i)) (n + 1) i := by
          unfold zoneBase
          rw [show i - n = (i - (n + 1)) + 1 by omega, List.range'_succ, List.flatMap_cons, fm (n + 1) _ (by omega), o0]
          simp only [e0, List.length_append]
          omega
        rw [this]; exact c

end Verif.Tec
