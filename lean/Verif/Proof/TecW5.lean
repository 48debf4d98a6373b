import Verif.Proof.TecW4
/-!
# A whole file
-/
namespace Verif.Tec
open Spec

/-! ## Header -/

/-- auxiliary data of a zone in the header -/
def zoneAuxBytes (m : AuxMap) : Str := m.flatMap fun e => int4 1 ++ textBytes e.1 ++ int4 0 ++ textBytes e.2

/-- a zone in the header -/
def Zone.headBytes (z : Zone) : Str :=
  leBytes 4 f299 ++ textBytes z.ZoneName ++ int4 (-1) ++ int4 z.StrandId ++ leBytes 8 z.SolutionTime.toNat ++ int4 (-1) ++
    int4 0 ++ int4 0 ++ int4 0 ++ int4 0 ++ int4 z.Real_Max.x ++ int4 z.Real_Max.y ++ int4 z.Real_Max.z ++
    zoneAuxBytes z.Auxiliary ++ int4 0

theorem zone_head_run (z : Zone) (s : Str) : Zone.write_plt_head z s = .ok () (s ++ z.headBytes) := by
  unfold Zone.write_plt_head
  have ha : ∀ s, each z.Auxiliary (fun j => do
      W_INT32 1
      W_STRING j.1
      W_INT32 0
      W_STRING j.2) s = .ok () (s ++ zoneAuxBytes z.Auxiliary) := by
    intro s
    apply each_emit
    intro e s
    rw [M.bind_ok (W_INT32_run _ _), M.bind_ok (W_STRING_run _ _), M.bind_ok (W_INT32_run _ _), W_STRING_run]
    simp only [List.append_assoc]
  rw [M.bind_ok (W_FLOAT32_run _ _), M.bind_ok (W_STRING_run _ _), M.bind_ok (W_INT32_run _ _), M.bind_ok (W_INT32_run _ _),
    M.bind_ok (W_FLOAT64_run _ _), M.bind_ok (W_INT32_run _ _), M.bind_ok (W_INT32_run _ _), M.bind_ok (W_INT32_run _ _),
    M.bind_ok (W_INT32_run _ _), M.bind_ok (W_INT32_run _ _), M.bind_ok (W_INT32_run _ _), M.bind_ok (W_INT32_run _ _),
    M.bind_ok (W_INT32_run _ _), M.bind_ok (ha _), W_INT32_run]
  unfold Zone.headBytes
  simp only [List.append_assoc]

/-- auxiliary data of the file in the header -/
def fileAuxBytes (m : AuxMap) : Str := m.flatMap fun e => leBytes 4 f799 ++ textBytes e.1 ++ int4 0 ++ textBytes e.2

/-- the header -/
def TecFile.headBytes (f : TecFile) : Str :=
  lit "#!TDV112" ++ (int4 1 ++ (int4 f.FileType ++ (textBytes f.Title ++ (int4 f.Variables.length ++ (f.Variables.flatMap textBytes ++
    (f.Zones.flatMap Zone.headBytes ++ fileAuxBytes f.Auxiliary))))))

theorem writes_headVar (echo e2 : Bool) (v : Str) : Writes (textBytes v) (TecFile.headVar echo e2 v) := by
  have := Writes.bind (Writes.file (W_STRING_run v)) fun _ : Unit =>
    (Writes.ifB (b := e2) (.bindq (.print echo (lit " <" ++ cstr v ++ lit ">")) fun _ => .append (lit " <" ++ v ++ lit ">")))
  rw [List.append_nil] at this
  exact this

theorem head_inv {echo : Bool} {s s' : FSt} (r : TecFile.write_plt_head echo s = .ok () s') : FStep s s' s.f.headBytes := by
  unfold TecFile.write_plt_head at r
  rw [M.get_bind_run] at r
  refine (Writes.bind (.file (emit_run _)) fun _ => .bind (.file (W_INT32_run _)) fun _ => .bind (.file (W_INT32_run _)) fun _ =>
    .bind (.file (W_STRING_run _)) fun _ => .bind (.file (W_INT32_run _)) fun _ =>
    .bindq (.ifB (.bindq (.print _ _) fun _ => .push _)) fun _ => .bind (.each fun v => writes_headVar _ _ v) fun _ =>
    .bindq (.ifB (.print _ _)) fun _ => .bind (.each fun z => .file (zone_head_run z)) fun _ =>
    .each fun e => .file ?_) s _ s' r
  intro s
  rw [M.bind_ok (W_FLOAT32_run _ _), M.bind_ok (W_STRING_run _ _), M.bind_ok (W_INT32_run _ _), W_STRING_run]
  simp only [List.append_assoc]

/-! ## Texts generated at the end -/

theorem Out.bind_inv {α β : Type} {m : Out α} {f : α → Out β} {b : β} (h : (m >>= f) = .ok b) : ∃ a, m = .ok a ∧ f a = .ok b := by
  cases m with
  | ok a => exact ⟨a, rfl, h⟩
  | err e => cases h
  | ub u => cases h

theorem eachZone_inv {g : ZoneLog → Out ZoneLog} (l : List ZoneLog) : ∀ l', eachZone g l = .ok l' →
    l'.length = l.length ∧ ∀ (i : Nat) z, l[i]? = some z → ∃ z', l'[i]? = some z' ∧ g z = .ok z' := by
  induction l with
  | nil => intro l' h; cases h; exact ⟨rfl, fun i z h => by simp at h⟩
  | cons a l ih =>
    intro l' h
    obtain ⟨a', h1, h⟩ := Out.bind_inv h
    obtain ⟨l1, h2, h⟩ := Out.bind_inv h
    cases h
    obtain ⟨hl, hi⟩ := ih l1 h2
    refine ⟨by simp [hl], ?_⟩
    intro i z hz
    cases i with
    | zero => cases hz; exact ⟨a', rfl, h1⟩
    | succ i => exact hi i z (by simpa using hz)

theorem zone_json_inv {F : Fmt} {l l' : ZoneLog} (h : ZoneLog.gen_json F l = .ok l') : ∃ J, l' = { l with Json_Text := J } := by
  unfold ZoneLog.gen_json at h
  obtain ⟨_, -, h⟩ := Out.bind_inv h
  obtain ⟨_, -, h⟩ := Out.bind_inv h
  obtain ⟨_, -, h⟩ := Out.bind_inv h
  obtain ⟨_, -, h⟩ := Out.bind_inv h
  obtain ⟨_, -, h⟩ := Out.bind_inv h
  obtain ⟨_, -, h⟩ := Out.bind_inv h
  obtain ⟨_, -, h⟩ := Out.bind_inv h
  obtain ⟨_, -, h⟩ := Out.bind_inv h
  obtain ⟨_, -, h⟩ := Out.bind_inv h
  obtain ⟨_, -, h⟩ := Out.bind_inv h
  obtain ⟨_, -, h⟩ := Out.bind_inv h
  obtain ⟨_, -, h⟩ := Out.bind_inv h
  cases h; exact ⟨_, rfl⟩

theorem zone_xml_inv {F : Fmt} {l l' : ZoneLog} (h : ZoneLog.gen_xml F l = .ok l') : ∃ X, l' = { l with Xml_Text := X } := by
  unfold ZoneLog.gen_xml at h
  obtain ⟨_, -, h⟩ := Out.bind_inv h
  obtain ⟨_, -, h⟩ := Out.bind_inv h
  obtain ⟨_, -, h⟩ := Out.bind_inv h
  obtain ⟨_, -, h⟩ := Out.bind_inv h
  obtain ⟨_, -, h⟩ := Out.bind_inv h
  obtain ⟨_, -, h⟩ := Out.bind_inv h
  obtain ⟨_, -, h⟩ := Out.bind_inv h
  obtain ⟨_, -, h⟩ := Out.bind_inv h
  obtain ⟨_, -, h⟩ := Out.bind_inv h
  obtain ⟨_, -, h⟩ := Out.bind_inv h
  obtain ⟨_, -, h⟩ := Out.bind_inv h
  obtain ⟨_, -, h⟩ := Out.bind_inv h
  obtain ⟨_, -, h⟩ := Out.bind_inv h
  cases h; exact ⟨_, rfl⟩

theorem file_json_inv {F : Fmt} {l l' : FileLog} (h : FileLog.gen_json F l = .ok l') :
    ∃ zs J, l' = { l with Zones := zs, Json_Text := J } ∧ eachZone (ZoneLog.gen_json F) l.Zones = .ok zs := by
  unfold FileLog.gen_json at h
  obtain ⟨_, -, h⟩ := Out.bind_inv h
  obtain ⟨_, -, h⟩ := Out.bind_inv h
  obtain ⟨_, -, h⟩ := Out.bind_inv h
  obtain ⟨_, -, h⟩ := Out.bind_inv h
  obtain ⟨_, -, h⟩ := Out.bind_inv h
  obtain ⟨_, -, h⟩ := Out.bind_inv h
  obtain ⟨_, -, h⟩ := Out.bind_inv h
  obtain ⟨_, -, h⟩ := Out.bind_inv h
  obtain ⟨_, -, h⟩ := Out.bind_inv h
  obtain ⟨zs, hz, h⟩ := Out.bind_inv h
  cases h; exact ⟨zs, _, rfl, hz⟩

theorem file_xml_inv {F : Fmt} {l l' : FileLog} (h : FileLog.gen_xml F l = .ok l') :
    ∃ zs X, l' = { l with Zones := zs, Xml_Text := X } ∧ eachZone (ZoneLog.gen_xml F) l.Zones = .ok zs := by
  unfold FileLog.gen_xml at h
  obtain ⟨_, -, h⟩ := Out.bind_inv h
  obtain ⟨_, -, h⟩ := Out.bind_inv h
  obtain ⟨_, -, h⟩ := Out.bind_inv h
  obtain ⟨_, -, h⟩ := Out.bind_inv h
  obtain ⟨_, -, h⟩ := Out.bind_inv h
  obtain ⟨_, -, h⟩ := Out.bind_inv h
  obtain ⟨_, -, h⟩ := Out.bind_inv h
  obtain ⟨_, -, h⟩ := Out.bind_inv h
  obtain ⟨_, -, h⟩ := Out.bind_inv h
  obtain ⟨_, -, h⟩ := Out.bind_inv h
  obtain ⟨_, -, h⟩ := Out.bind_inv h
  obtain ⟨zs, hz, h⟩ := Out.bind_inv h
  cases h; exact ⟨zs, _, rfl, hz⟩

theorem fsLog_inv {g : FileLog → Out FileLog} {s s' : FSt} (h : FSt.log g s = .ok () s') :
    ∃ l, g s.f.last_log = .ok l ∧ s' = { s with f := { s.f with last_log := l } } := by
  unfold FSt.log at h
  rw [M.get_bind_run] at h
  obtain ⟨l, s1, h1, h2⟩ := M.bind_inv h
  clear h
  rw [M.liftM_eq] at h1
  obtain ⟨e, rfl⟩ := M.lift_inv h1
  cases h2
  exact ⟨l, e, rfl⟩

/-! ## The body of `write_plt` -/

theorem writes_fileLine {echo on stamp : Bool} {time : Str} : Writes [] (TecFile.fileLine echo on stamp time) := by
  intro s a s' h
  unfold TecFile.fileLine at h
  rw [M.get_bind_run] at h
  refine (Writes.ifB (.bindq (.ifB (.bindq (.print _ _) fun _ => .push _)) fun _ => .bindq (.print _ _) fun _ => ?_) : Writes [] _) _ _ _ h
  split
  · exact .append _
  · exact .push _

/-- everything that holds after a successful `write_plt` -/
structure FileWritten (E : Env) (s s' : FSt) (data : Nat → Nat → Str) (mm : Nat → Nat → F64 × F64) (c : Str) : Prop where
  fs : s'.fs = fun p => if p = cstr s.f.path then some c else s.fs p
  closed : s'.isOpen = false
  bytes : c = (s.checked E).f.headBytes ++ leBytes 4 f357 ++
    (List.range s.f.Zones.length).flatMap fun i => ((s.f.Zones.getD i (Zone.new [] 0)).dataBytes (data i) (mm i))
  mem : MemSame s.h s'.h
  file : ∃ Z L T, s'.f = { s.f with Zones := Z, last_log := { FileLog.ofFile s.f with
      Zones := L, Time_Begin := E.tBegin, Time_End := E.tEnd, UsingTime := some E.using_, Size := some c.length,
      Echo_Text := T, Json_Text := s'.f.last_log.Json_Text, Xml_Text := s'.f.last_log.Xml_Text } } ∧
    Z.length = s.f.Zones.length ∧ L.length = s.f.Zones.length ∧
    ∀ i z, s.f.Zones[i]? = some z → ∃ z' l' l'', Z[i]? = some z' ∧ L[i]? = some l'' ∧
      ZoneDone z (data i) (mm i) (z.preLog (ZoneLog.ofZone z))
        (zoneBase ((s.checked E).f.headBytes ++ leBytes 4 f357).length (fun i => (s.f.Zones.getD i (Zone.new [] 0)).dataBytes (data i) (mm i)) 0 i) z' l' ∧
      ∃ J X, l'' = { l' with Json_Text := J, Xml_Text := X }
  xml : ∃ l : FileLog, l.gen_xml E.fmt = .ok s'.f.last_log ∧ l.Xml_Text = [] ∧ ∀ z ∈ l.Zones, z.Xml_Text = []
  json : ∃ l m : FileLog, l.gen_json E.fmt = .ok m ∧ m.gen_xml E.fmt = .ok s'.f.last_log ∧ l.Json_Text = [] ∧ ∀ z ∈ l.Zones, z.Json_Text = []

theorem Zone.Fits.plain {z : Zone} (f : z.Fits) : ∀ i < 3, DimPlain (z.sel i) := fun i hi =>
  have s := f.sane i hi
  ⟨s.max, s.skip, le_of_lt s.pos, s.head, s.tail, s.sum⟩

theorem body_inv {E : Env} {echo : Bool} {s s' : FSt} (data : Nat → Nat → Str) (hf : ∀ z ∈ s.f.Zones, z.Fits) (fr : Fresh s.h)
    (hv : ∀ (i : Nat) (z : Zone) (j : Nat) (d : TecData), s.f.Zones[i]? = some z → z.Data[j]? = some d → z.VarOk s.h d ((data i j).map some))
    (r : TecFile.write_body E echo (s.checked E) = .ok () s') : ∃ mm c, FileWritten E s s' data mm c := by
  unfold TecFile.write_body at r
  obtain ⟨_, s1, r1, r⟩ := M.bind_inv r
  have e1 : s1 = { s.checked E with fs := fun p => if p = cstr s.f.path then some [] else s.fs p, of := [], isOpen := true } := by
    unfold TecFile.openFile at r1
    simp only at r1
    split at r1
    · cases r1; rfl
    · cases r1
  rw [M.get_bind_run] at r
  generalize hm : s1.f.Echo_Mode = mode at r
  obtain ⟨_, s2, r2, r⟩ := M.bind_inv r
  have w2 := writes_fileLine _ _ _ r2
  obtain ⟨_, s3, r3, r⟩ := M.bind_inv r
  have w3 := head_inv r3
  obtain ⟨_, s4, r4, r⟩ := M.bind_inv r
  have w4 := Writes.file (W_FLOAT32_run f357) _ _ _ r4
  obtain ⟨_, s5, r5, r⟩ := M.bind_inv r
  have w5 := (Writes.ifB (.bindq (.print _ _) fun _ => .push _) : Writes [] _) _ _ _ r5
  have w := ((w2.trans w3).trans w4).trans w5
  have hb : ([] ++ s2.f.headBytes ++ leBytes 4 f357 ++ [] : Str) = (s.checked E).f.headBytes ++ leBytes 4 f357 := by
    rw [List.nil_append, List.append_nil, w2.f, e1]; rfl
  rw [hb] at w
  clear w2 w3 w4 w5 hb r2 r3 r4 r5 r1
  obtain ⟨_, s6, r6, r⟩ := M.bind_inv r
  unfold TecFile.write_plt_data at r6
  rw [M.get_bind_run] at r6
  let Z : Nat → Zone := fun i => s.f.Zones.getD i (Zone.new [] 0)
  have hZ : ∀ i < s.f.Zones.length, s.f.Zones[i]? = some (Z i) := by
    intro i hi
    show _ = some (s.f.Zones.getD i (Zone.new [] 0))
    rw [List.getD_eq_getElem?_getD, List.getElem?_eq_getElem hi]; rfl
  have f5 := w.f
  generalize hT5 : s5.f.last_log.Echo_Text = T5 at f5
  have z5 : s5.f.Zones = s.f.Zones.map Zone.gathered := by rw [f5, e1]; rfl
  have l5 : s5.f.last_log.Zones = s.f.Zones.map fun z => z.preLog (ZoneLog.ofZone z) := by rw [f5, e1]; rfl
  have h5 : s5.h = s.h := by rw [w.h, e1]; rfl
  have o5 : s5.of = (s.checked E).f.headBytes ++ leBytes 4 f357 := by rw [w.of, e1]; rfl
  have len5 : s5.f.Zones.length = s.f.Zones.length := by rw [z5, List.length_map]
  obtain ⟨mm, Z', L', T6, of6, ms6, fs6, op6, f6, hl1, hl2, -, hin⟩ := dataZones_inv Z data s5.f.Zones 0 s5 s6
    (fun i => (Z i).preLog (ZoneLog.ofZone (Z i))) (by
      intro i hi
      rw [len5] at hi
      rw [Nat.zero_add, z5, l5, List.getElem?_map, List.getElem?_map, hZ i hi]
      refine ⟨hf _ (List.mem_of_getElem? (hZ i hi)), rfl, rfl, ?_⟩
      intro j d hd
      rw [h5]
      exact hv i _ j d (hZ i hi) hd) (by rw [h5]; exact fr) r6
  rw [M.get_bind_run] at r
  obtain ⟨_, s7, r7, r⟩ := M.bind_inv r
  cases r7
  obtain ⟨_, s8, r8, r⟩ := M.bind_inv r
  have w8 := (Writes.ifB (.bindq (.liftM _) fun _ => .bindq (.print _ _) fun _ => .push _) : Writes [] _) _ _ _ r8
  obtain ⟨_, s9, r9, r⟩ := M.bind_inv r
  obtain ⟨_, s10, r10, r⟩ := M.bind_inv r
  obtain ⟨_, s11, r11, r⟩ := M.bind_inv r
  have w11 := (Writes.ifB (.bindq (.liftM _) fun _ => .bindq (.print _ _) fun _ => .push _) : Writes [] _) _ _ _ r11
  obtain ⟨_, s12, r12, r⟩ := M.bind_inv r
  obtain ⟨_, s13, r13, r⟩ := M.bind_inv r
  have w13 := writes_fileLine _ _ _ r13
  obtain ⟨_, s14, r14, r15⟩ := M.bind_inv r
  obtain ⟨lj, gj, e14⟩ := fsLog_inv r14
  obtain ⟨lx, gx, e15⟩ := fsLog_inv r15
  obtain ⟨zj, J, ej, hj⟩ := file_json_inv gj
  obtain ⟨zx, X, ex, hx⟩ := file_xml_inv gx
  clear r r8 r11 r13 r14 r15 r6
  cases r9
  cases r10
  cases r12
  have f8 := w8.f
  generalize hT8 : s8.f.last_log.Echo_Text = T8 at f8
  have f11 := w11.f
  generalize hT11 : s11.f.last_log.Echo_Text = T11 at f11
  have f13 := w13.f
  generalize hT13 : s13.f.last_log.Echo_Text = T13 at f13
  have of8 : s8.of = s6.of := by rw [w8.of, List.append_nil]
  have hc : s6.of = (s.checked E).f.headBytes ++ leBytes 4 f357 ++ (List.range s.f.Zones.length).flatMap fun i => (Z i).dataBytes (data i) (mm i) := by
    rw [of6, o5, len5, ← List.range_eq_range']
  have F13 : s13.f = { s.f with
      Zones := Z'
      last_log := { FileLog.ofFile s.f with
        Zones := L'
        Time_Begin := E.tBegin
        Time_End := E.tEnd
        UsingTime := some E.using_
        Size := some s6.of.length
        Echo_Text := T13 } } := by
    rw [f13]; simp only [f11, f8, f6, f5, e1]; rfl
  have P8 : s8.f.path = s.f.path := by
    unfold TecFile.path; rw [f8]; simp only [f6, f5, e1]; rfl
  refine ⟨mm, s6.of, ?_, ?_, hc, ?_, ?_, ?_, ?_⟩
  · rw [e15, e14]
    simp only [w13.fs, w11.fs, w8.fs, fs6, w.fs, e1, P8, of8]
    funext p
    by_cases hp : p = cstr s.f.path
    · rw [if_pos hp, if_pos hp]
    · rw [if_neg hp, if_neg hp, if_neg hp]
  · rw [e15, e14]; simp only [w13.isOpen, w11.isOpen]
  · rw [e15, e14]; simp only [w13.h, w11.h, w8.h]; rw [← h5]; exact ms6
  · have L13 : s13.f.last_log.Zones = L' := by rw [F13]
    rw [L13] at hj
    have L14 : s14.f.last_log.Zones = zj := by rw [e14, ej]
    rw [L14] at hx
    obtain ⟨lj1, lj2⟩ := eachZone_inv _ _ hj
    obtain ⟨lx1, lx2⟩ := eachZone_inv _ _ hx
    rw [l5, List.length_map] at hl2
    rw [len5] at hl1
    have EJ : s'.f.last_log.Json_Text = J := by rw [e15, ex, e14, ej]
    have EX : s'.f.last_log.Xml_Text = X := by rw [e15, ex]
    refine ⟨Z', zx, T13, ?_, hl1, by rw [lx1, lj1, hl2], ?_⟩
    · rw [EJ, EX, e15, ex, e14]
      simp only [ej, F13]
    · intro i z hz
      have hi : i < s.f.Zones.length := (List.getElem?_eq_some_iff.mp hz).1
      obtain ⟨z', l', a, b, D⟩ := hin i (by omega) (by rw [len5]; omega)
      obtain ⟨l1, b1, g1⟩ := lj2 i l' b
      obtain ⟨l2, b2, g2⟩ := lx2 i l1 b1
      obtain ⟨J', q1⟩ := zone_json_inv g1
      obtain ⟨X', q2⟩ := zone_xml_inv g2
      have hzi : Z i = z := by
        have := hZ i hi; rw [hz] at this; cases this; rfl
      rw [hzi, o5] at D
      exact ⟨z', l', l2, a, b2, D, J', X', by rw [q2, q1]⟩
  · have e : s14.f.last_log = lj := by rw [e14]
    rw [e] at gx
    refine ⟨lj, by rw [e15]; exact gx, by rw [ej, F13]; rfl, ?_⟩
    intro z hz
    rw [ej] at hz
    have L13 : s13.f.last_log.Zones = L' := by rw [F13]
    rw [L13] at hj
    obtain ⟨lj1, lj2⟩ := eachZone_inv _ _ hj
    rw [l5, List.length_map] at hl2
    obtain ⟨i, hi⟩ := List.mem_iff_getElem?.mp hz
    change zj[i]? = some z at hi
    have hil : i < s.f.Zones.length := by rw [← hl2, ← lj1]; exact (List.getElem?_eq_some_iff.mp hi).1
    obtain ⟨z', l', a, b, D⟩ := hin i (by omega) (by rw [len5]; omega)
    obtain ⟨l1, b1, g1⟩ := lj2 i l' b
    rw [hi] at b1
    cases b1
    obtain ⟨J', q1⟩ := zone_json_inv g1
    obtain ⟨T', q2⟩ := D.log
    rw [q1, q2]
    rfl
  · have e : s14.f.last_log = lj := by rw [e14]
    rw [e] at gx
    refine ⟨s13.f.last_log, lj, gj, by rw [e15]; exact gx, by rw [F13]; rfl, ?_⟩
    intro z hz
    have L13 : s13.f.last_log.Zones = L' := by rw [F13]
    rw [L13] at hz
    rw [l5, List.length_map] at hl2
    obtain ⟨i, hi⟩ := List.mem_iff_getElem?.mp hz
    have hil : i < s.f.Zones.length := by rw [← hl2]; exact (List.getElem?_eq_some_iff.mp hi).1
    obtain ⟨z', l', a, b, D⟩ := hin i (by omega) (by rw [len5]; omega)
    rw [hi] at b
    cases b
    obtain ⟨T', q2⟩ := D.log
    rw [q2]
    rfl

theorem write_plt_inv {E : Env} {echo : Bool} {s s' : FSt} (data : Nat → Nat → Str) (hf : ∀ z ∈ s.f.Zones, z.Fits) (fr : Fresh s.h)
    (hv : ∀ (i : Nat) (z : Zone) (j : Nat) (d : TecData), s.f.Zones[i]? = some z → z.Data[j]? = some d → z.VarOk s.h d ((data i j).map some))
    (r : TecFile.write_plt E echo s = .ok () s') : s.f.Valid ∧ ∃ mm c, FileWritten E s s' data mm c := by
  rw [write_plt_eq] at r
  by_cases v : s.f.Valid
  · rw [M.bind_ok (pre_ok (fun z hz => (hf z hz).plain) v)] at r
    exact ⟨v, body_inv data hf fr hv r⟩
  · obtain ⟨m, f', e, -⟩ := pre_bad (E := E) (fun z hz => (hf z hz).plain) v
    rw [M.bind_err e] at r
    cases r

end Verif.Tec
