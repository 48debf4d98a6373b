import Verif.Proof.TecR6
/-!
# What a successful `write_plt` says about the lengths of the texts
-/
namespace Verif.Tec
open Spec

/-- logs that differ in the generated texts only -/
structure ZoneLog.Same (a b : ZoneLog) : Prop where
  eq : ∃ J X, b = { a with Json_Text := J, Xml_Text := X }

structure FileLog.Same (a b : FileLog) : Prop where
  eq : ∃ zs J X, b = { a with Zones := zs, Json_Text := J, Xml_Text := X }
  there : ∀ x ∈ b.Zones, ∃ y ∈ a.Zones, ZoneLog.Same y x
  back : ∀ y ∈ a.Zones, ∃ x ∈ b.Zones, ZoneLog.Same y x

theorem same_of_each {g : ZoneLog → Out ZoneLog} {l zs : List ZoneLog} (h : eachZone g l = .ok zs) (hg : ∀ a b, g a = .ok b → ZoneLog.Same a b) :
    (∀ x ∈ zs, ∃ y ∈ l, ZoneLog.Same y x) ∧ ∀ y ∈ l, ∃ x ∈ zs, ZoneLog.Same y x := by
  obtain ⟨e1, e2⟩ := eachZone_inv _ _ h
  refine ⟨fun x hx => ?_, fun y hy => ?_⟩
  · obtain ⟨i, hi⟩ := List.mem_iff_getElem?.mp hx
    have hil : i < l.length := by rw [← e1]; exact (List.getElem?_eq_some_iff.mp hi).1
    obtain ⟨l', h1, h2⟩ := e2 i _ (List.getElem?_eq_getElem hil)
    rw [hi] at h1; cases h1
    exact ⟨_, List.getElem_mem hil, hg _ _ h2⟩
  · obtain ⟨i, hi⟩ := List.mem_iff_getElem?.mp hy
    obtain ⟨l', h1, h2⟩ := e2 i _ hi
    exact ⟨l', List.mem_of_getElem? h1, hg _ _ h2⟩

theorem json_same {F : Fmt} {l m : FileLog} (h : l.gen_json F = .ok m) : l.Same m := by
  obtain ⟨zs, J, e, hz⟩ := file_json_inv h
  obtain ⟨a, b⟩ := same_of_each hz fun _ _ g => by obtain ⟨J, e⟩ := zone_json_inv g; exact ⟨⟨J, _, by rw [e]⟩⟩
  exact ⟨⟨zs, J, l.Xml_Text, by rw [e]⟩, by rw [e]; exact a, by rw [e]; exact b⟩

theorem xml_same {F : Fmt} {l m : FileLog} (h : l.gen_xml F = .ok m) : l.Same m := by
  obtain ⟨zs, J, e, hz⟩ := file_xml_inv h
  obtain ⟨a, b⟩ := same_of_each hz fun _ _ g => by obtain ⟨J, e⟩ := zone_xml_inv g; exact ⟨⟨_, J, by rw [e]⟩⟩
  exact ⟨⟨zs, l.Json_Text, J, by rw [e]⟩, by rw [e]; exact a, by rw [e]; exact b⟩

theorem ZoneLog.Same.typed {a b : ZoneLog} (h : a.Same b) (t : b.Typed) : a.Typed := by
  obtain ⟨J, X, rfl⟩ := h.eq
  exact ⟨t.strand, t.dim, t.real, t.max, t.skip, t.head, t.tail, t.realMax, t.data⟩

theorem FileLog.Same.typed {a b : FileLog} (h : a.Same b) (t : b.Typed) : a.Typed := by
  obtain ⟨zs, J, X, e⟩ := h.eq
  refine ⟨by have := t.type; rwa [e] at this, by have := t.vars; rwa [e] at this, fun z hz => ?_⟩
  obtain ⟨x, hx, s⟩ := h.back z hz
  exact s.typed (t.zones x hx)

/-- a log whose texts were generated has texts that fit -/
theorem texts_fit {F : Fmt} (hF : F.Short) {l m L : FileLog} (gj : l.gen_json F = .ok m) (gx : m.gen_xml F = .ok L) (t : L.Typed) : L.Fits F := by
  have s1 := json_same gj
  have s2 := xml_same gx
  have tm := s2.typed t
  have tl := s1.typed tm
  have fj := (fine_fileJson hF tl).1 ⟨_, gj⟩
  have fx := (fine_fileXml hF tm).1 ⟨_, gx⟩
  obtain ⟨zs1, J1, X1, e1⟩ := s1.eq
  obtain ⟨zs2, J2, X2, e2⟩ := s2.eq
  obtain ⟨-, -, -, -, -, -, g, i⟩ := fj
  obtain ⟨a', b', c', d', e', f', g', i'⟩ := fx
  have z1 : ∀ x ∈ L.Zones, x.Fits := by
    intro x hx
    obtain ⟨y, hy, sy⟩ := s2.there x hx
    obtain ⟨w, hw, sw⟩ := s1.there y hy
    obtain ⟨_, _, rfl⟩ := sy.eq
    obtain ⟨_, _, rfl⟩ := sw.eq
    exact ⟨(i' _ hy).1, fun e he => ⟨(i _ hw).2.1 e he, (i' _ hy).2.1 e he⟩, (i' _ hy).2.2⟩
  refine ⟨?_, ?_, ?_, ?_, ?_, ?_, ?_, z1⟩
  · rw [e2]; exact a'
  · rw [e2]; exact b'
  · rw [e2]; exact e'
  · rw [e2]; exact c'
  · rw [e2]; exact d'
  · rw [e2]; exact f'
  · rw [e2]
    refine fun e he => ⟨g e ?_, g' e he⟩
    rw [e1] at he; exact he

/-! ## The lines of the report -/

theorem each_ok {α : Type} {σ : Type} {f : Nat → α → M σ Unit} (l : List α) : ∀ n s t, eachIdx f n l s = .ok () t →
    ∀ i a, l[i]? = some a → ∃ s1 s2, f (n + i) a s1 = .ok () s2 := by
  induction l with
  | nil => intro n s t _ i a h; simp at h
  | cons x l ih =>
    intro n s t h i a hi
    obtain ⟨_, s1, h1, h2⟩ := M.bind_inv (show (f n x >>= fun _ => eachIdx f (n + 1) l) s = .ok () t from h)
    cases i with
    | zero => cases hi; exact ⟨s, s1, h1⟩
    | succ i =>
      obtain ⟨u, v, e⟩ := ih (n + 1) s1 t h2 i a (by simpa using hi)
      exact ⟨u, v, by rw [show n + (i + 1) = n + 1 + i by omega]; exact e⟩

theorem lift_bind_ok {α β : Type} {o : Out α} {f : α → M FSt β} {s t : FSt} {b : β} (h : ((liftM o : M FSt α) >>= f) s = .ok b t) : Fine o := by
  cases o with
  | ok a => exact ⟨a, rfl⟩
  | err e => cases h
  | ub u => cases h

theorem zoneLine_fits {echo : Bool} {i : Nat} (hi : i + 1 < 2147483648) {z : Zone} {s t : FSt} (h : TecFile.zoneLine echo i z s = .ok () t) :
    clen z.ZoneName + width (i + 1) ≤ 76 := by
  unfold TecFile.zoneLine at h
  have := fine_sprintf.1 (lift_bind_ok h)
  have h1 := width_dec (n := i + 1) hi
  have h2 : (cstr z.ZoneName).length = clen z.ZoneName := rfl
  simp only [List.length_append, h2] at this
  rw [show (lit "--   write zone ").length = 16 from rfl, show (lit ": ").length = 2 from rfl, show (lit "   --").length = 5 from rfl] at this
  omega

theorem ifB_ok {c : Bool} {m : M FSt Unit} {s t : FSt} (h : ifB c m s = .ok () t) (hc : c = true) : m s = .ok () t := by
  subst hc; exact h

theorem dataZone_fits {F : Fmt} {vars : List Str} {echo : Bool} {i : Nat} (hi : i + 1 < 2147483648) {z : Zone} {s t : FSt}
    (h : TecFile.dataZone F vars echo i z s = .ok () t) (hn : z.Echo_Mode.getD 0 false = true ∨ z.Echo_Mode.getD 1 false = true) :
    clen z.ZoneName + width (i + 1) ≤ 76 := by
  unfold TecFile.dataZone at h
  obtain ⟨_, s1, h1, h⟩ := M.bind_inv h
  obtain ⟨_, s2, -, h⟩ := M.bind_inv h
  obtain ⟨_, s3, -, h4⟩ := M.bind_inv h
  rcases hn with c | c
  · exact zoneLine_fits hi (ifB_ok h1 c)
  · exact zoneLine_fits hi (ifB_ok h4 c)

/-- the state up to the zones: the zones and the settings are those of the file -/
theorem body_lines {E : Env} {echo : Bool} {s s' : FSt} (hc : s.f.Zones.length < 2147483648)
    (r : TecFile.write_body E echo (s.checked E) = .ok () s') : TitlesFit s.f ∧ UsedFits E s.f := by
  unfold TecFile.write_body at r
  obtain ⟨_, s1, r1, r⟩ := M.bind_inv r
  have e1 : s1 = { s.checked E with fs := fun p => if p = cstr s.f.path then some [] else s.fs p, of := [], isOpen := true } := by
    unfold TecFile.openFile at r1
    simp only at r1
    split at r1
    · cases r1; rfl
    · cases r1
  rw [M.get_bind_run] at r
  generalize hm : s1.f.Echo_Mode = mode at r
  obtain ⟨_, s2, r2, r⟩ := M.bind_inv r
  have w2 := writes_fileLine _ _ _ r2
  obtain ⟨_, s3, r3, r⟩ := M.bind_inv r
  have w3 := head_inv r3
  obtain ⟨_, s4, r4, r⟩ := M.bind_inv r
  have w4 := Writes.file (W_FLOAT32_run f357) _ _ _ r4
  obtain ⟨_, s5, r5, r⟩ := M.bind_inv r
  have w5 := (Writes.ifB (.bindq (.print _ _) fun _ => .push _) : Writes [] _) _ _ _ r5
  have w := ((w2.trans w3).trans w4).trans w5
  obtain ⟨_, s6, r6, r⟩ := M.bind_inv r
  rw [M.get_bind_run] at r
  obtain ⟨_, s7, -, r⟩ := M.bind_inv r
  obtain ⟨_, s8, -, r⟩ := M.bind_inv r
  obtain ⟨_, s9, -, r⟩ := M.bind_inv r
  obtain ⟨_, s10, -, r⟩ := M.bind_inv r
  obtain ⟨_, s11, r11, -⟩ := M.bind_inv r
  have em : mode = s.f.Echo_Mode := by rw [← hm, e1]; rfl
  constructor
  · intro i z hz hn
    have z5 : s5.f.Zones = s.f.Zones.map Zone.gathered := by rw [w.f, e1]; rfl
    unfold TecFile.write_plt_data at r6
    rw [M.get_bind_run, z5] at r6
    obtain ⟨u, v, h⟩ := each_ok _ _ _ _ r6 i z.gathered (by rw [List.getElem?_map, hz]; rfl)
    rw [Nat.zero_add] at h
    have hl := (List.getElem?_eq_some_iff.mp hz).1
    exact dataZone_fits (by omega) h hn
  · intro c
    have h := ifB_ok r11 (by rw [em]; exact c)
    have := fine_sprintf.1 (lift_bind_ok h)
    simp only [List.length_append] at this
    rw [show (lit "     using time : ").length = 18 from rfl, show (lit " s").length = 2 from rfl] at this
    omega

/-- a successful `write_plt` had texts that fit -/
theorem snug_of_ok {E : Env} {echo : Bool} {s s' : FSt} (data : Nat → Nat → Str) (hf : ∀ z ∈ s.f.Zones, z.Fits) (fr : Fresh s.h)
    (hv : ∀ (i : Nat) (z : Zone) (j : Nat) (d : TecData), s.f.Zones[i]? = some z → z.Data[j]? = some d → z.VarOk s.h d ((data i j).map some))
    (T : s.f.Typed E) (hsz : s.f.lengthOf Zone.points < 9223372036854775808)
    (r : TecFile.write_plt E echo s = .ok () s') : s.f.Snug E := by
  obtain ⟨v, mm, c, W⟩ := write_plt_inv data hf fr hv r
  rw [write_plt_eq, M.bind_ok (pre_ok (fun z hz => (hf z hz).plain) v)] at r
  obtain ⟨b1, b2⟩ := body_lines T.count r
  obtain ⟨l, m, gj, gx, -, -⟩ := W.json
  obtain ⟨Z, L, Tx, hF, hZ, hL, hz⟩ := W.file
  have hlen : c.length = s.f.lengthOf Zone.points := by
    rw [W.bytes]
    exact file_length (E := E) (mm := mm) hf (fun i z j d hi hj => by have := (hv i z j d hi hj).len; rw [List.length_map] at this; exact this)
  have hlog : s'.f.last_log = { FileLog.ofFile s.f with
      Zones := L, Time_Begin := E.tBegin, Time_End := E.tEnd, UsingTime := some E.using_, Size := some c.length,
      Echo_Text := Tx, Json_Text := s'.f.last_log.Json_Text, Xml_Text := s'.f.last_log.Xml_Text } := by
    have := congrArg TecFile.last_log hF
    exact this
  have ty : s'.f.last_log.Typed := by
    refine ⟨by rw [hlog]; exact T.type, by rw [hlog]; exact T.vars, ?_⟩
    rw [hlog]
    intro x hx
    obtain ⟨i, hi⟩ := List.mem_iff_getElem?.mp hx
    change L[i]? = some x at hi
    have hil : i < s.f.Zones.length := by rw [← hL]; exact (List.getElem?_eq_some_iff.mp hi).1
    obtain ⟨z', l', l'', -, g2, D, J, X, g3⟩ := hz i _ (List.getElem?_eq_getElem hil)
    rw [hi] at g2; cases g2
    have hb := zoneBase_le ((s.checked E).f.headBytes ++ leBytes 4 f357).length (fun i => (s.f.Zones.getD i (Zone.new [] 0)).dataBytes (data i) (mm i)) hil
    have hb' : (s.f.Zones.getD i (Zone.new [] 0)) = s.f.Zones[i] := by rw [List.getD_eq_getElem?_getD, List.getElem?_eq_getElem hil]; rfl
    rw [hb', ← List.length_append, ← W.bytes, hlen] at hb
    rw [g3]
    have := done_typed (hf _ (List.getElem_mem hil)) D (T.strand _ (List.getElem_mem hil)) (by omega)
    exact ⟨this.strand, this.dim, this.real, this.max, this.skip, this.head, this.tail, this.realMax, this.data⟩
  have F := texts_fit T.fmt gj gx ty
  rw [hlog] at F
  refine ⟨b1, b2, F.name, F.path, F.title, F.time, ?_, F.vars, F.aux, ?_⟩
  · obtain ⟨u, hu, hl⟩ := F.used
    cases hu; exact hl
  · intro z hzm
    obtain ⟨i, hi⟩ := List.mem_iff_getElem?.mp hzm
    obtain ⟨z', l', l'', -, g2, D, J, X, g3⟩ := hz i z hi
    have Q := F.zones l'' (List.mem_of_getElem? g2)
    obtain ⟨T', q⟩ := D.log
    rw [g3, q] at Q
    exact ⟨Q.name, Q.aux⟩

end Verif.Tec
