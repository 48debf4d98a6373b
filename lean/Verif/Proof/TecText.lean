import Verif.Proof.TecLit
import Verif.Proof.TecLog
import Verif.Spec.TecText
import Mathlib.Data.Nat.Digits.Lemmas
/-!
# Lengths of the lines of a log
-/
namespace Verif.Tec

theorem sprintf_ok {n : Nat} {s : Str} (h : s.length + 1 ≤ n) : sprintf n s = .ok s := by unfold sprintf; rw [if_pos h]
theorem sprintf_long {n : Nat} {s : Str} (h : n ≤ s.length) : sprintf n s = .ub .oob := by unfold sprintf; rw [if_neg (by omega)]

theorem cstr_length (s : Str) : (cstr s).length ≤ s.length := by
  unfold cstr; exact (List.takeWhile_sublist _).length_le

theorem decNat_length {k n : Nat} (hk : 0 < k) (h : n < 10 ^ k) : (decNat n).length ≤ k := by
  unfold decNat
  split
  · simp; omega
  · rw [List.length_map, List.length_reverse, Nat.digits_length_le_iff (by decide)]; exact h

theorem dec_length {k : Nat} {x : Int} (hk : 0 < k) (h : x.natAbs < 10 ^ k) : (dec x).length ≤ k + 1 := by
  have := decNat_length hk h
  unfold dec
  split
  · rw [List.length_cons]; omega
  · omega

theorem dec_i32 {x : Int} (h : InI32 x) : (dec x).length ≤ 11 := by
  obtain ⟨h1, h2⟩ := h
  exact dec_length (k := 10) (by decide) (by omega)

theorem toI32_in (u : Nat) : InI32 (toI32 u) := by
  unfold toI32 InI32
  split <;> constructor <;> omega

theorem code_len (t : TecType) : (dec t.code).length ≤ 11 := dec_i32 (by cases t <;> decide)

theorem ok_bind {α β : Type} (a : α) (f : α → Out β) : ((Out.ok a : Out α) >>= f) = f a := rfl

theorem lines_ok {α : Type} {f : Nat → α → Bool → Out Str} (l : List α) (h : ∀ i, ∀ a ∈ l, ∀ b, ∃ t, f i a b = .ok t) : ∀ i, ∃ r, lines f i l = .ok r := by
  induction l with
  | nil => intro i; exact ⟨_, rfl⟩
  | cons a l ih =>
    intro i
    obtain ⟨t, ht⟩ := h i a (by simp) l.isEmpty
    obtain ⟨r, hr⟩ := ih (fun i a ha => h i a (by simp [ha])) (i + 1)
    refine ⟨t :: r, ?_⟩
    unfold lines
    rw [ht, ok_bind, hr]; rfl

theorem json3_ok {n : String} (hn : (lit ("\t\"" ++ n ++ "\" : [ ")).length ≤ 40) {a : I3} (h : a.Fit) : ∃ t, json3 n a = .ok t := by
  have h1 := dec_i32 h.1
  have h2 := dec_i32 h.2.1
  have h3 := dec_i32 h.2.2
  refine ⟨_, sprintf_ok ?_⟩
  lits; omega

theorem xml3_ok {n : String} (hn : (lit ("\t<" ++ n ++ "> <I>")).length ≤ 40) (hm : (lit ("</K> </" ++ n ++ ">")).length ≤ 40) {a : I3} (h : a.Fit) : ∃ t, xml3 n a = .ok t := by
  have h1 := dec_i32 h.1
  have h2 := dec_i32 h.2.1
  have h3 := dec_i32 h.2.2
  refine ⟨_, sprintf_ok ?_⟩
  lits; omega

theorem jsonAux_ok {m : AuxMap} (h : AuxShort m) : ∃ t, jsonAux m = .ok t := by
  unfold jsonAux
  split
  · obtain ⟨r, hr⟩ := lines_ok (f := fun _ (e : Str × Str) (last : Bool) => do
      let b ← sprintf 200 (lit "\t\t\"" ++ cstr e.1 ++ lit "\" : \"" ++ cstr e.2 ++ lit "\"")
      .ok (if last then b else b ++ lit ",")) m (by
      intro i e he b
      have h0 := h e he
      have h1 := cstr_length e.1
      have h2 := cstr_length e.2
      exact ⟨_, by rw [sprintf_ok (by lits; omega), ok_bind]⟩) 0
    rw [hr, ok_bind]; exact ⟨_, rfl⟩
  · exact ⟨_, rfl⟩

theorem xmlAux_ok {m : AuxMap} (h : AuxShort m) : ∃ t, xmlAux m = .ok t := by
  unfold xmlAux
  split
  · obtain ⟨r, hr⟩ := lines_ok (f := fun _ (e : Str × Str) _ =>
      sprintf 200 (lit "\t\t<" ++ cstr e.1 ++ lit ">" ++ cstr e.2 ++ lit "</" ++ cstr e.1 ++ lit ">")) m (by
      intro i e he b
      have h0 := h e he
      have h1 := cstr_length e.1
      have h2 := cstr_length e.2
      exact ⟨_, sprintf_ok (by lits; omega)⟩) 0
    rw [hr, ok_bind]; exact ⟨_, rfl⟩
  · exact ⟨_, rfl⟩

theorem known_some {α : Type} {o : Option α} (h : o.isSome) : ∃ a, known o = .ok a := by
  cases o with
  | some a => exact ⟨a, rfl⟩
  | none => cases h

theorem dataJson_ok {F : Fmt} (hF : F.Short) {d : DataLog} (h : d.Known) (last : Bool) : ∃ t, d.json F last = .ok t := by
  obtain ⟨⟨p, hp, hl⟩, h1, h2⟩ := h
  obtain ⟨mn, e1⟩ := known_some h1
  obtain ⟨mx, e2⟩ := known_some h2
  unfold DataLog.json
  have h3 := dec_length (k := 19) (by decide) hl
  have h4 := code_len d.type
  have h5 := dec_i32 (toI32_in d.size)
  have h6 := hF mn
  have h7 := hF mx
  rw [hp, show known (some p) = .ok p from rfl, ok_bind, e1, ok_bind, e2, ok_bind, sprintf_ok (by lits; omega), ok_bind]
  exact ⟨_, rfl⟩

theorem dataXml_ok {F : Fmt} (hF : F.Short) {d : DataLog} (h : d.Known) (i : Nat) : ∃ t, d.xml F i = .ok t := by
  obtain ⟨⟨p, hp, hl⟩, h1, h2⟩ := h
  obtain ⟨mn, e1⟩ := known_some h1
  obtain ⟨mx, e2⟩ := known_some h2
  unfold DataLog.xml
  have h3 := dec_length (k := 19) (by decide) hl
  have h4 := code_len d.type
  have h5 := dec_i32 (toI32_in d.size)
  have h6 := hF mn
  have h7 := hF mx
  have h8 := dec_i32 (toI32_in i)
  rw [hp, show known (some p) = .ok p from rfl, ok_bind, e1, ok_bind, e2, ok_bind, sprintf_ok (by lits; omega)]
  exact ⟨_, rfl⟩

theorem optLine_ok {c : Bool} {o : Out Str} (h : ∃ t, o = .ok t) : ∃ r, optLine c o = .ok r := by
  obtain ⟨t, rfl⟩ := h
  cases c
  · exact ⟨_, rfl⟩
  · exact ⟨_, rfl⟩

theorem zoneJson_ok {F : Fmt} (hF : F.Short) {l : ZoneLog} (h : l.Short) : ∃ l', l.gen_json F = .ok l' := by
  unfold ZoneLog.gen_json
  have h1 := cstr_length l.ZoneName
  have h2 := h.name
  have h3 := dec_i32 h.strand
  have h4 := dec_i32 h.dim
  have h5 := dec_i32 h.real
  have h6 := hF l.SolutionTime
  obtain ⟨t3, e3⟩ := optLine_ok (c := l.StrandId ≠ -1) (o := sprintf 200 (lit "\t\"SolutionTime\" : " ++ F.le l.SolutionTime ++ lit " ,"))
    ⟨_, sprintf_ok (by lits; omega)⟩
  obtain ⟨t6, e6⟩ := json3_ok (n := "Org_Max") (by decide) h.max
  obtain ⟨t7, e7⟩ := json3_ok (n := "Skip") (by decide) h.skip
  obtain ⟨t8, e8⟩ := json3_ok (n := "Begin") (by decide) h.head
  obtain ⟨t9, e9⟩ := json3_ok (n := "End") (by decide) h.tail
  obtain ⟨t10, e10⟩ := json3_ok (n := "Real_Max") (by decide) h.realMax
  obtain ⟨aux, ea⟩ := jsonAux_ok h.aux
  obtain ⟨data, ed⟩ := lines_ok (f := fun _ (d : DataLog) last => d.json F last) l.Data (fun i d hd b => dataJson_ok hF (h.data d hd) b) 0
  rw [sprintf_ok (by lits; omega), ok_bind, sprintf_ok (by lits; omega), ok_bind, e3, ok_bind, sprintf_ok (by lits; omega), ok_bind,
    sprintf_ok (by lits; omega), ok_bind, e6, ok_bind, e7, ok_bind, e8, ok_bind, e9, ok_bind, e10, ok_bind, ea, ok_bind, ed, ok_bind]
  exact ⟨_, rfl⟩

theorem zoneXml_ok {F : Fmt} (hF : F.Short) {l : ZoneLog} (h : l.Short) : ∃ l', l.gen_xml F = .ok l' := by
  unfold ZoneLog.gen_xml
  have h1 := cstr_length l.ZoneName
  have h2 := h.name
  have h3 := dec_i32 h.strand
  have h4 := dec_i32 h.dim
  have h5 := dec_i32 h.real
  have h6 := hF l.SolutionTime
  obtain ⟨t3, e3⟩ := optLine_ok (c := l.StrandId ≠ -1) (o := sprintf 200 (lit "\t<SolutionTime>" ++ F.le l.SolutionTime ++ lit "</SolutionTime>"))
    ⟨_, sprintf_ok (by lits; omega)⟩
  obtain ⟨t6, e6⟩ := xml3_ok (n := "Org_Max") (by decide) (by decide) h.max
  obtain ⟨t7, e7⟩ := xml3_ok (n := "Skip") (by decide) (by decide) h.skip
  obtain ⟨t8, e8⟩ := xml3_ok (n := "Begin") (by decide) (by decide) h.head
  obtain ⟨t9, e9⟩ := xml3_ok (n := "End") (by decide) (by decide) h.tail
  obtain ⟨t10, e10⟩ := xml3_ok (n := "Real_Max") (by decide) (by decide) h.realMax
  obtain ⟨aux, ea⟩ := xmlAux_ok h.aux
  obtain ⟨data, ed⟩ := lines_ok (f := fun i (d : DataLog) _ => d.xml F i) l.Data (fun i d hd b => dataXml_ok hF (h.data d hd) i) 0
  rw [sprintf_ok (by lits; omega), ok_bind, sprintf_ok (by lits; omega), ok_bind, sprintf_ok (by lits; omega), ok_bind, e3, ok_bind, sprintf_ok (by lits; omega), ok_bind,
    sprintf_ok (by lits; omega), ok_bind, e6, ok_bind, e7, ok_bind, e8, ok_bind, e9, ok_bind, e10, ok_bind, ea, ok_bind, ed, ok_bind]
  exact ⟨_, rfl⟩

theorem eachZone_ok {g : ZoneLog → Out ZoneLog} (l : List ZoneLog) (h : ∀ z ∈ l, ∃ z', g z = .ok z') : ∃ l', eachZone g l = .ok l' := by
  induction l with
  | nil => exact ⟨_, rfl⟩
  | cons a l ih =>
    obtain ⟨a', ha⟩ := h a (by simp)
    obtain ⟨l', hl⟩ := ih (fun z hz => h z (by simp [hz]))
    unfold eachZone
    rw [ha, ok_bind, hl]; exact ⟨_, rfl⟩

theorem jsonVars_ok {vars : List Str} (h : ∀ v ∈ vars, v.length ≤ 150) : ∃ t, jsonVars vars = .ok t := by
  unfold jsonVars
  obtain ⟨r, hr⟩ := lines_ok (f := fun _ (v : Str) (last : Bool) => do
    let b ← sprintf 200 (lit "\"" ++ cstr v ++ lit "\"")
    .ok (if last then b else b ++ lit ", ")) vars (by
      intro i e he b
      have h0 := h e he
      have h1 := cstr_length e
      exact ⟨_, by rw [sprintf_ok (by lits; omega), ok_bind]⟩) 0
  rw [hr, ok_bind]; exact ⟨_, rfl⟩

theorem xmlVars_ok {vars : List Str} (h : ∀ v ∈ vars, v.length ≤ 150) : ∃ t, xmlVars vars = .ok t := by
  unfold xmlVars
  obtain ⟨r, hr⟩ := lines_ok (f := fun i (v : Str) _ => sprintf 200 (lit " <" ++ cstr v ++ lit " i=\"" ++ dec (toI32 i) ++ lit "\"/>")) vars (by
      intro i e he b
      have h0 := h e he
      have h1 := cstr_length e
      have h2 := dec_i32 (toI32_in i)
      exact ⟨_, sprintf_ok (by lits; omega)⟩) 0
  rw [hr, ok_bind]; exact ⟨_, rfl⟩

theorem fileJson_ok {F : Fmt} (hF : F.Short) {l : FileLog} (h : l.Short F) : ∃ l', l.gen_json F = .ok l' := by
  unfold FileLog.gen_json
  have h1 := cstr_length (l.FileName ++ lit ".plt")
  rw [List.length_append, show (lit ".plt").length = 4 from rfl] at h1
  have h2 := h.name
  have h3 := cstr_length l.FilePath
  have h4 := h.path
  have h5 := cstr_length l.Time_Begin
  have h6 := h.time
  have h7 := cstr_length l.Title
  have h8 := h.title
  have h9 := dec_i32 h.type
  obtain ⟨u, hu, h10⟩ := h.used
  obtain ⟨t7, e7⟩ := jsonVars_ok h.vars
  obtain ⟨aux, ea⟩ := jsonAux_ok h.aux
  obtain ⟨zs, ez⟩ := eachZone_ok l.Zones (fun z hz => zoneJson_ok hF (h.zones z hz))
  rw [sprintf_ok (by lits; omega), ok_bind, sprintf_ok (by lits; omega), ok_bind, sprintf_ok (by lits; omega), ok_bind,
    hu, show known (some u) = .ok u from rfl, ok_bind, sprintf_ok (by lits; omega), ok_bind, sprintf_ok (by lits; omega), ok_bind,
    sprintf_ok (by lits; omega), ok_bind, e7, ok_bind, ea, ok_bind, ez, ok_bind]
  exact ⟨_, rfl⟩

theorem fileXml_ok {F : Fmt} (hF : F.Short) {l : FileLog} (h : l.Short F) : ∃ l', l.gen_xml F = .ok l' := by
  unfold FileLog.gen_xml
  have h1 := cstr_length (l.FileName ++ lit ".plt")
  rw [List.length_append, show (lit ".plt").length = 4 from rfl] at h1
  have h1' := cstr_length l.FileName
  have h2 := h.name
  have h3 := cstr_length l.FilePath
  have h4 := h.path
  have h5 := cstr_length l.Time_Begin
  have h6 := h.time
  have h7 := cstr_length l.Title
  have h8 := h.title
  have h9 := dec_i32 h.type
  obtain ⟨u, hu, h10⟩ := h.used
  obtain ⟨t7, e7⟩ := xmlVars_ok h.vars
  obtain ⟨aux, ea⟩ := xmlAux_ok h.aux
  obtain ⟨zs, ez⟩ := eachZone_ok l.Zones (fun z hz => zoneXml_ok hF (h.zones z hz))
  rw [sprintf_ok (by lits; omega), ok_bind, sprintf_ok (by lits; omega), ok_bind, sprintf_ok (by lits; omega), ok_bind, sprintf_ok (by lits; omega), ok_bind,
    hu, show known (some u) = .ok u from rfl, ok_bind, sprintf_ok (by lits; omega), ok_bind, sprintf_ok (by lits; omega), ok_bind,
    sprintf_ok (by lits; omega), ok_bind, sprintf_ok (by lits; omega), ok_bind, e7, ok_bind, ea, ok_bind, ez, ok_bind]
  exact ⟨_, rfl⟩

end Verif.Tec
