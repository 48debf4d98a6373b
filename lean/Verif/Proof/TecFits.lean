import Verif.Proof.TecText
import Verif.Spec.TecFits
/-!
# Generation of the texts of a log, exactly
-/
namespace Verif.Tec

/-- the outcome is a value -/
def Fine {α : Type} (o : Out α) : Prop := ∃ a, o = .ok a

/-- the outcome is a value, a line too long, or a read of something indeterminate -/
def Tame {α : Type} (o : Out α) : Prop := Fine o ∨ o = .ub .oob ∨ o = .ub .uninit

theorem fine_ok {α : Type} {a : α} : Fine (.ok a) ↔ True := ⟨fun _ => trivial, fun _ => ⟨_, rfl⟩⟩

theorem fine_bind {α β : Type} {x : Out α} {f : α → Out β} {P : Prop} (h : ∀ a, Fine (f a) ↔ P) : Fine (x >>= f) ↔ Fine x ∧ P := by
  cases x with
  | ok a => exact (h a).trans ⟨fun p => ⟨⟨_, rfl⟩, p⟩, fun p => p.2⟩
  | err e => exact ⟨fun ⟨_, c⟩ => by (cases c), fun ⟨⟨_, c⟩, _⟩ => by (cases c)⟩
  | ub u => exact ⟨fun ⟨_, c⟩ => by (cases c), fun ⟨⟨_, c⟩, _⟩ => by (cases c)⟩

theorem fine_sprintf {n : Nat} {s : Str} : Fine (sprintf n s) ↔ s.length + 1 ≤ n := by
  by_cases h : s.length + 1 ≤ n
  · rw [sprintf_ok h]; exact ⟨fun _ => h, fun _ => ⟨_, rfl⟩⟩
  · rw [sprintf_long (by omega)]; exact ⟨fun ⟨_, c⟩ => by (cases c), fun c => absurd c h⟩

theorem fine_known {α : Type} {o : Option α} : Fine (known o) ↔ o.isSome := by
  cases o with
  | some a => exact ⟨fun _ => rfl, fun _ => ⟨_, rfl⟩⟩
  | none => exact ⟨fun ⟨_, c⟩ => by (cases c), fun c => by (cases c)⟩

theorem fine_optLine {c : Bool} {o : Out Str} : Fine (optLine c o) ↔ (c = true → Fine o) := by
  unfold optLine
  cases c with
  | true => rw [if_pos rfl, fine_bind fun _ => fine_ok]; simp
  | false => simp [fine_ok]

theorem fine_lines {α : Type} {f : Nat → α → Bool → Out Str} {P : Nat → α → Prop} (h : ∀ i a b, Fine (f i a b) ↔ P i a) (l : List α) :
    ∀ i, Fine (lines f i l) ↔ ∀ j, ∀ hj : j < l.length, P (i + j) l[j] := by
  induction l with
  | nil => intro i; exact ⟨fun _ j hj => by (simp at hj), fun _ => ⟨_, rfl⟩⟩
  | cons a l ih =>
    intro i
    unfold lines
    rw [fine_bind fun _ => fine_bind fun _ => fine_ok, h, ih (i + 1)]
    constructor
    · rintro ⟨h0, h1, -⟩ j hj
      cases j with
      | zero => exact h0
      | succ j =>
        have := h1 j (by simpa using hj)
        rwa [show i + 1 + j = i + (j + 1) by omega] at this
    · intro h1
      refine ⟨h1 0 (by simp), fun j hj => ?_, trivial⟩
      have := h1 (j + 1) (by simpa using hj)
      rwa [show i + (j + 1) = i + 1 + j by omega] at this

theorem fine_lines' {α : Type} {f : Nat → α → Bool → Out Str} {P : α → Prop} {l : List α} (h : ∀ i, ∀ a ∈ l, ∀ b, Fine (f i a b) ↔ P a) :
    ∀ i, Fine (lines f i l) ↔ ∀ a ∈ l, P a := by
  induction l with
  | nil => intro i; exact ⟨fun _ j hj => by (simp at hj), fun _ => ⟨_, rfl⟩⟩
  | cons a l ih =>
    intro i
    unfold lines
    rw [fine_bind fun _ => fine_bind fun _ => fine_ok, h i a (by simp), ih (fun i a ha => h i a (by simp [ha])) (i + 1)]
    simp

theorem fine_eachZone {g : ZoneLog → Out ZoneLog} {P : ZoneLog → Prop} {l : List ZoneLog} (h : ∀ z ∈ l, (Fine (g z) ↔ P z)) :
    Fine (eachZone g l) ↔ ∀ z ∈ l, P z := by
  induction l with
  | nil => exact ⟨fun _ j hj => by (simp at hj), fun _ => ⟨_, rfl⟩⟩
  | cons a l ih =>
    unfold eachZone
    rw [fine_bind fun _ => fine_bind fun _ => fine_ok, h a (by simp), ih (fun z hz => h z (by simp [hz]))]
    simp

theorem fine_json3 {n : String} (hn : (lit ("\t\"" ++ n ++ "\" : [ ")).length ≤ 40) {a : I3} (h : a.Fit) : Fine (json3 n a) ↔ True :=
  ⟨fun _ => trivial, fun _ => json3_ok hn h⟩

theorem fine_xml3 {n : String} (hn : (lit ("\t<" ++ n ++ "> <I>")).length ≤ 40) (hm : (lit ("</K> </" ++ n ++ ">")).length ≤ 40) {a : I3} (h : a.Fit) :
    Fine (xml3 n a) ↔ True := ⟨fun _ => trivial, fun _ => xml3_ok hn hm h⟩

theorem clen_cstr (s : Str) : (cstr s).length = clen s := rfl

theorem fine_jsonAux {m : AuxMap} : Fine (jsonAux m) ↔ ∀ e ∈ m, clen e.1 + clen e.2 ≤ 190 := by
  unfold jsonAux
  split
  · rw [fine_bind fun _ => fine_ok, fine_lines' (P := fun e : Str × Str => clen e.1 + clen e.2 ≤ 190) (fun i e he b => ?_)]
    · simp
    · rw [fine_bind fun _ => fine_ok, fine_sprintf, and_true]
      lits
      rw [clen_cstr, clen_cstr]
      omega
  · rename_i h
    rw [Decidable.not_not, List.length_eq_zero_iff] at h
    subst h
    exact ⟨fun _ j hj => by (simp at hj), fun _ => ⟨_, rfl⟩⟩

theorem fine_xmlAux {m : AuxMap} : Fine (xmlAux m) ↔ ∀ e ∈ m, 2 * clen e.1 + clen e.2 ≤ 192 := by
  unfold xmlAux
  split
  · rw [fine_bind fun _ => fine_ok, fine_lines' (P := fun e : Str × Str => 2 * clen e.1 + clen e.2 ≤ 192) (fun i e he b => ?_)]
    · simp
    · rw [fine_sprintf]
      lits
      rw [clen_cstr, clen_cstr]
      omega
  · rename_i h
    rw [Decidable.not_not, List.length_eq_zero_iff] at h
    subst h
    exact ⟨fun _ j hj => by (simp at hj), fun _ => ⟨_, rfl⟩⟩

theorem width_dec {n : Nat} (h : n < 2147483648) : (dec (toI32 n)).length = width n := by
  have e : toI32 n = (n : Int) := by unfold toI32; split <;> omega
  rw [e]
  unfold dec
  rw [if_neg (by omega)]
  unfold width
  show (decNat n).length = _
  unfold decNat
  split
  · rfl
  · rename_i hn
    rw [List.length_map, List.length_reverse, Nat.length_digits 10 n (by decide) hn]

theorem fine_dataJson {F : Fmt} (hF : F.Short) {d : DataLog} (h : ∀ p, d.file_pt = some p → p.natAbs < 10 ^ 19) (b : Bool) :
    Fine (d.json F b) ↔ d.Written := by
  constructor
  · intro c
    unfold DataLog.json at c
    unfold DataLog.Written
    obtain ⟨ty, sz, p, mn, mx⟩ := d
    cases p with
    | none => obtain ⟨_, c⟩ := c; cases c
    | some p =>
      cases mn with
      | none => obtain ⟨_, c⟩ := c; cases c
      | some mn =>
        cases mx with
        | none => obtain ⟨_, c⟩ := c; cases c
        | some mx => exact ⟨rfl, rfl, rfl⟩
  · rintro ⟨h0, h1, h2⟩
    obtain ⟨p, hp⟩ := Option.isSome_iff_exists.1 h0
    exact dataJson_ok hF ⟨⟨p, hp, h p hp⟩, h1, h2⟩ b

theorem fine_dataXml {F : Fmt} (hF : F.Short) {d : DataLog} (h : ∀ p, d.file_pt = some p → p.natAbs < 10 ^ 19) (i : Nat) :
    Fine (d.xml F i) ↔ d.Written := by
  constructor
  · intro c
    unfold DataLog.xml at c
    unfold DataLog.Written
    obtain ⟨ty, sz, p, mn, mx⟩ := d
    cases p with
    | none => obtain ⟨_, c⟩ := c; cases c
    | some p =>
      cases mn with
      | none => obtain ⟨_, c⟩ := c; cases c
      | some mn =>
        cases mx with
        | none => obtain ⟨_, c⟩ := c; cases c
        | some mx => exact ⟨rfl, rfl, rfl⟩
  · rintro ⟨h0, h1, h2⟩
    obtain ⟨p, hp⟩ := Option.isSome_iff_exists.1 h0
    exact dataXml_ok hF ⟨⟨p, hp, h p hp⟩, h1, h2⟩ i

theorem fine_zoneJson {F : Fmt} (hF : F.Short) {l : ZoneLog} (h : l.Typed) :
    Fine (l.gen_json F) ↔ clen l.ZoneName ≤ 181 ∧ (∀ e ∈ l.Auxiliary, clen e.1 + clen e.2 ≤ 190) ∧ ∀ d ∈ l.Data, d.Written := by
  unfold ZoneLog.gen_json
  have h3 := dec_i32 h.strand
  have h4 := dec_i32 h.dim
  have h5 := dec_i32 h.real
  have h6 := hF l.SolutionTime
  rw [fine_bind fun _ => fine_bind fun _ => fine_bind fun _ => fine_bind fun _ => fine_bind fun _ => fine_bind fun _ => fine_bind fun _ =>
    fine_bind fun _ => fine_bind fun _ => fine_bind fun _ => fine_bind fun _ => fine_bind fun _ => fine_ok]
  rw [fine_sprintf, fine_sprintf, fine_optLine, fine_sprintf, fine_sprintf, fine_sprintf, fine_json3 (by decide) h.max, fine_json3 (by decide) h.skip,
    fine_json3 (by decide) h.head, fine_json3 (by decide) h.tail, fine_json3 (by decide) h.realMax, fine_jsonAux,
    fine_lines' (fun i d hd b => fine_dataJson hF (h.data d hd) b)]
  lits
  rw [clen_cstr]
  constructor
  · rintro ⟨a, -, -, -, -, -, -, -, -, -, b, c, -⟩
    exact ⟨by omega, b, c⟩
  · rintro ⟨a, b, c⟩
    exact ⟨by omega, by omega, fun _ => by omega, by omega, by omega, trivial, trivial, trivial, trivial, trivial, b, c, trivial⟩

theorem fine_zoneXml {F : Fmt} (hF : F.Short) {l : ZoneLog} (h : l.Typed) :
    Fine (l.gen_xml F) ↔ clen l.ZoneName ≤ 177 ∧ (∀ e ∈ l.Auxiliary, 2 * clen e.1 + clen e.2 ≤ 192) ∧ ∀ d ∈ l.Data, d.Written := by
  unfold ZoneLog.gen_xml
  have h3 := dec_i32 h.strand
  have h4 := dec_i32 h.dim
  have h5 := dec_i32 h.real
  have h6 := hF l.SolutionTime
  rw [fine_bind fun _ => fine_bind fun _ => fine_bind fun _ => fine_bind fun _ => fine_bind fun _ => fine_bind fun _ => fine_bind fun _ => fine_bind fun _ =>
    fine_bind fun _ => fine_bind fun _ => fine_bind fun _ => fine_bind fun _ => fine_bind fun _ => fine_ok]
  rw [fine_sprintf, fine_sprintf, fine_sprintf, fine_optLine, fine_sprintf, fine_sprintf, fine_sprintf, fine_xml3 (by decide) (by decide) h.max,
    fine_xml3 (by decide) (by decide) h.skip, fine_xml3 (by decide) (by decide) h.head, fine_xml3 (by decide) (by decide) h.tail,
    fine_xml3 (by decide) (by decide) h.realMax, fine_xmlAux,
    fine_lines' (fun i d hd b => fine_dataXml hF (h.data d hd) i)]
  lits
  rw [clen_cstr]
  constructor
  · rintro ⟨-, a, -, -, -, -, -, -, -, -, -, b, c, -⟩
    exact ⟨by omega, b, c⟩
  · rintro ⟨a, b, c⟩
    exact ⟨by omega, by omega, by omega, fun _ => by omega, by omega, by omega, trivial, trivial, trivial, trivial, trivial, b, c, trivial⟩

theorem fine_jsonVars {vars : List Str} : Fine (jsonVars vars) ↔ ∀ v ∈ vars, clen v ≤ 197 := by
  unfold jsonVars
  rw [fine_bind fun _ => fine_ok, fine_lines' (P := fun v : Str => clen v ≤ 197) (fun i e he b => ?_)]
  · simp
  · rw [fine_bind fun _ => fine_ok, fine_sprintf, and_true]
    lits
    rw [clen_cstr]
    omega

theorem fine_xmlVars {vars : List Str} (hv : vars.length ≤ 2147483648) :
    Fine (xmlVars vars) ↔ ∀ i, ∀ h : i < vars.length, clen vars[i] + width i ≤ 190 := by
  unfold xmlVars
  rw [fine_bind fun _ => fine_ok, fine_lines (P := fun i (v : Str) => clen v + (dec (toI32 i)).length ≤ 190) (fun i e b => ?_)]
  · constructor
    · rintro ⟨a, -⟩ i hi
      have := a i hi
      rwa [Nat.zero_add, width_dec (by omega)] at this
    · intro a
      refine ⟨fun i hi => ?_, trivial⟩
      rw [Nat.zero_add, width_dec (by omega)]
      exact a i hi
  · rw [fine_sprintf]
    lits
    rw [clen_cstr]
    omega

theorem width_pos (n : Nat) : 1 ≤ width n := by unfold width; split <;> omega

theorem clen_append (s t : Str) : clen s ≤ clen (s ++ t) := by
  unfold clen
  induction s with
  | nil => simp
  | cons a s ih =>
    rw [List.cons_append, List.takeWhile_cons, List.takeWhile_cons]
    split
    · simp only [List.length_cons]; omega
    · simp

theorem fine_fileJson {F : Fmt} (hF : F.Short) {l : FileLog} (h : l.Typed) :
    Fine (l.gen_json F) ↔ clen (l.FileName ++ lit ".plt") ≤ 181 ∧ clen l.FilePath ≤ 181 ∧ clen l.Time_Begin ≤ 185 ∧
      (∃ u, l.UsingTime = some u ∧ (F.f5 u).length ≤ 182) ∧ clen l.Title ≤ 184 ∧ (∀ v ∈ l.Variables, clen v ≤ 197) ∧
      (∀ e ∈ l.Auxiliary, clen e.1 + clen e.2 ≤ 190) ∧
      ∀ z ∈ l.Zones, clen z.ZoneName ≤ 181 ∧ (∀ e ∈ z.Auxiliary, clen e.1 + clen e.2 ≤ 190) ∧ ∀ d ∈ z.Data, d.Written := by
  have h9 := dec_i32 h.type
  unfold FileLog.gen_json
  rcases hu : l.UsingTime with _ | u
  · rw [fine_bind fun _ => fine_bind fun _ => fine_bind fun _ => (show _ ↔ False from ⟨fun ⟨_, c⟩ => by (cases c), False.elim⟩)]
    simp
  · simp only [show known (some u) = Out.ok u from rfl, ok_bind]
    rw [fine_bind fun _ => fine_bind fun _ => fine_bind fun _ => fine_bind fun _ =>
      fine_bind fun _ => fine_bind fun _ => fine_bind fun _ => fine_bind fun _ => fine_bind fun _ => fine_ok]
    rw [fine_sprintf, fine_sprintf, fine_sprintf, fine_sprintf, fine_sprintf, fine_sprintf, fine_jsonVars, fine_jsonAux,
      fine_eachZone (fun z hz => fine_zoneJson hF (h.zones z hz))]
    lits
    rw [clen_cstr, clen_cstr, clen_cstr, clen_cstr]
    constructor
    · rintro ⟨a, b, c, d, e, -, f, g, i, -⟩
      exact ⟨by omega, by omega, by omega, ⟨u, rfl, by omega⟩, by omega, f, g, i⟩
    · rintro ⟨a, b, c, ⟨v, hv, d⟩, e, f, g, i⟩
      obtain rfl := Option.some.inj hv
      exact ⟨by omega, by omega, by omega, by omega, by omega, by omega, f, g, i, trivial⟩

theorem fine_fileXml {F : Fmt} (hF : F.Short) {l : FileLog} (h : l.Typed) :
    Fine (l.gen_xml F) ↔ clen (l.FileName ++ lit ".plt") ≤ 177 ∧ clen l.FilePath ≤ 177 ∧ clen l.Time_Begin ≤ 185 ∧
      (∃ u, l.UsingTime = some u ∧ (F.f5 u).length ≤ 175) ∧ clen l.Title ≤ 183 ∧
      (∀ i, ∀ h : i < l.Variables.length, clen l.Variables[i] + width i ≤ 190) ∧
      (∀ e ∈ l.Auxiliary, 2 * clen e.1 + clen e.2 ≤ 192) ∧
      ∀ z ∈ l.Zones, clen z.ZoneName ≤ 177 ∧ (∀ e ∈ z.Auxiliary, 2 * clen e.1 + clen e.2 ≤ 192) ∧ ∀ d ∈ z.Data, d.Written := by
  have h9 := dec_i32 h.type
  have h0 := clen_append l.FileName (lit ".plt")
  unfold FileLog.gen_xml
  rcases hu : l.UsingTime with _ | u
  · rw [fine_bind fun _ => fine_bind fun _ => fine_bind fun _ => fine_bind fun _ => (show _ ↔ False from ⟨fun ⟨_, c⟩ => by (cases c), False.elim⟩)]
    simp
  · simp only [show known (some u) = Out.ok u from rfl, ok_bind]
    rw [fine_bind fun _ => fine_bind fun _ => fine_bind fun _ => fine_bind fun _ =>
      fine_bind fun _ =>
      fine_bind fun _ => fine_bind fun _ => fine_bind fun _ => fine_bind fun _ => fine_bind fun _ => fine_bind fun _ => fine_ok]
    rw [fine_sprintf, fine_sprintf, fine_sprintf, fine_sprintf, fine_sprintf, fine_sprintf, fine_sprintf, fine_sprintf, fine_xmlVars h.vars, fine_xmlAux,
      fine_eachZone (fun z hz => fine_zoneXml hF (h.zones z hz))]
    lits
    rw [clen_cstr, clen_cstr, clen_cstr, clen_cstr, clen_cstr]
    constructor
    · rintro ⟨-, a, b, c, d, e, -, -, f, g, i, -⟩
      exact ⟨by omega, by omega, by omega, ⟨u, rfl, by omega⟩, by omega, f, g, i⟩
    · rintro ⟨a, b, c, ⟨v, hv, d⟩, e, f, g, i⟩
      obtain rfl := Option.some.inj hv
      exact ⟨by omega, by omega, by omega, by omega, by omega, by omega, by omega, by omega, f, g, i, trivial⟩

theorem file_fits {F : Fmt} (hF : F.Short) {l : FileLog} (h : l.Typed) :
    (Fine (l.gen_json F) ∧ Fine (l.gen_xml F)) ↔ l.Fits F := by
  rw [fine_fileJson hF h, fine_fileXml hF h]
  constructor
  · rintro ⟨⟨-, -, -, -, -, -, g, i⟩, a', b', c', d', e', f', g', i'⟩
    exact ⟨a', b', e', c', d', f', fun e he => ⟨g e he, g' e he⟩,
      fun z hz => ⟨(i' z hz).1, fun e he => ⟨(i z hz).2.1 e he, (i' z hz).2.1 e he⟩, (i' z hz).2.2⟩⟩
  · rintro ⟨a, b, c, d, ⟨u, hu, e⟩, f, g, i⟩
    refine ⟨⟨by omega, by omega, d, ⟨u, hu, by omega⟩, by omega, fun v hv => ?_, fun e he => (g e he).1,
      fun z hz => ⟨by have := (i z hz).name; omega, fun e he => ((i z hz).aux e he).1, (i z hz).data⟩⟩,
      a, b, d, ⟨u, hu, e⟩, c, f, fun e he => (g e he).2, fun z hz => ⟨(i z hz).name, fun e he => ((i z hz).aux e he).2, (i z hz).data⟩⟩
    obtain ⟨j, hj, rfl⟩ := List.getElem_of_mem hv
    have := f j hj
    omega

theorem zone_fits {F : Fmt} (hF : F.Short) {l : ZoneLog} (h : l.Typed) :
    (Fine (l.gen_json F) ∧ Fine (l.gen_xml F)) ↔ l.Fits := by
  rw [fine_zoneJson hF h, fine_zoneXml hF h]
  constructor
  · rintro ⟨⟨-, g, -⟩, a', g', i'⟩
    exact ⟨a', fun e he => ⟨g e he, g' e he⟩, i'⟩
  · rintro ⟨a, g, i⟩
    exact ⟨⟨by omega, fun e he => (g e he).1, i⟩, a, fun e he => (g e he).2, i⟩

/-! ## Nothing else happens -/

theorem tame_ok {α : Type} (a : α) : Tame (.ok a) := .inl ⟨_, rfl⟩

theorem tame_bind {α β : Type} {x : Out α} {f : α → Out β} (hx : Tame x) (hf : ∀ a, Tame (f a)) : Tame (x >>= f) := by
  rcases hx with ⟨a, rfl⟩ | rfl | rfl
  · exact hf a
  · exact .inr (.inl rfl)
  · exact .inr (.inr rfl)

theorem tame_sprintf {n : Nat} {s : Str} : Tame (sprintf n s) := by
  unfold sprintf
  split
  · exact tame_ok _
  · exact .inr (.inl rfl)

theorem tame_known {α : Type} {o : Option α} : Tame (known o) := by
  cases o with
  | none => exact .inr (.inr rfl)
  | some a => exact tame_ok _

theorem tame_optLine {c : Bool} {o : Out Str} (h : Tame o) : Tame (optLine c o) := by
  unfold optLine
  split
  · exact tame_bind h fun _ => tame_ok _
  · exact tame_ok _

theorem tame_lines {α : Type} {f : Nat → α → Bool → Out Str} (h : ∀ i a b, Tame (f i a b)) (l : List α) : ∀ i, Tame (lines f i l) := by
  induction l with
  | nil => intro i; exact tame_ok _
  | cons a l ih => intro i; unfold lines; exact tame_bind (h _ _ _) fun _ => tame_bind (ih _) fun _ => tame_ok _

theorem tame_eachZone {g : ZoneLog → Out ZoneLog} (h : ∀ z, Tame (g z)) (l : List ZoneLog) : Tame (eachZone g l) := by
  induction l with
  | nil => exact tame_ok _
  | cons a l ih => unfold eachZone; exact tame_bind (h _) fun _ => tame_bind ih fun _ => tame_ok _

theorem tame_jsonAux {m : AuxMap} : Tame (jsonAux m) := by
  unfold jsonAux
  split
  · exact tame_bind (tame_lines (fun _ _ _ => tame_bind tame_sprintf fun _ => tame_ok _) _ _) fun _ => tame_ok _
  · exact tame_ok _

theorem tame_xmlAux {m : AuxMap} : Tame (xmlAux m) := by
  unfold xmlAux
  split
  · exact tame_bind (tame_lines (fun _ _ _ => tame_sprintf) _ _) fun _ => tame_ok _
  · exact tame_ok _

theorem tame_dataJson {F : Fmt} {d : DataLog} {b : Bool} : Tame (d.json F b) := by
  unfold DataLog.json
  exact tame_bind tame_known fun _ => tame_bind tame_known fun _ => tame_bind tame_known fun _ => tame_bind tame_sprintf fun _ => tame_ok _

theorem tame_dataXml {F : Fmt} {d : DataLog} {i : Nat} : Tame (d.xml F i) := by
  unfold DataLog.xml
  exact tame_bind tame_known fun _ => tame_bind tame_known fun _ => tame_bind tame_known fun _ => tame_sprintf

theorem tame_zoneJson (F : Fmt) (l : ZoneLog) : Tame (l.gen_json F) := by
  unfold ZoneLog.gen_json
  exact tame_bind tame_sprintf fun _ => tame_bind tame_sprintf fun _ => tame_bind (tame_optLine tame_sprintf) fun _ => tame_bind tame_sprintf fun _ =>
    tame_bind tame_sprintf fun _ => tame_bind tame_sprintf fun _ => tame_bind tame_sprintf fun _ => tame_bind tame_sprintf fun _ => tame_bind tame_sprintf fun _ =>
    tame_bind tame_sprintf fun _ => tame_bind tame_jsonAux fun _ => tame_bind (tame_lines (fun _ _ _ => tame_dataJson) _ _) fun _ => tame_ok _

theorem tame_zoneXml (F : Fmt) (l : ZoneLog) : Tame (l.gen_xml F) := by
  unfold ZoneLog.gen_xml
  exact tame_bind tame_sprintf fun _ => tame_bind tame_sprintf fun _ => tame_bind tame_sprintf fun _ => tame_bind (tame_optLine tame_sprintf) fun _ => tame_bind tame_sprintf fun _ =>
    tame_bind tame_sprintf fun _ => tame_bind tame_sprintf fun _ => tame_bind tame_sprintf fun _ => tame_bind tame_sprintf fun _ => tame_bind tame_sprintf fun _ =>
    tame_bind tame_sprintf fun _ => tame_bind tame_xmlAux fun _ => tame_bind (tame_lines (fun _ _ _ => tame_dataXml) _ _) fun _ => tame_ok _

theorem tame_jsonVars {v : List Str} : Tame (jsonVars v) := by
  unfold jsonVars
  exact tame_bind (tame_lines (fun _ _ _ => tame_bind tame_sprintf fun _ => tame_ok _) _ _) fun _ => tame_ok _

theorem tame_xmlVars {v : List Str} : Tame (xmlVars v) := by
  unfold xmlVars
  exact tame_bind (tame_lines (fun _ _ _ => tame_sprintf) _ _) fun _ => tame_ok _

theorem tame_fileJson (F : Fmt) (l : FileLog) : Tame (l.gen_json F) := by
  unfold FileLog.gen_json
  exact tame_bind tame_sprintf fun _ => tame_bind tame_sprintf fun _ => tame_bind tame_sprintf fun _ => tame_bind tame_known fun _ => tame_bind tame_sprintf fun _ =>
    tame_bind tame_sprintf fun _ => tame_bind tame_sprintf fun _ => tame_bind tame_jsonVars fun _ => tame_bind tame_jsonAux fun _ =>
    tame_bind (tame_eachZone (tame_zoneJson F) _) fun _ => tame_ok _

theorem tame_fileXml (F : Fmt) (l : FileLog) : Tame (l.gen_xml F) := by
  unfold FileLog.gen_xml
  exact tame_bind tame_sprintf fun _ => tame_bind tame_sprintf fun _ => tame_bind tame_sprintf fun _ => tame_bind tame_sprintf fun _ => tame_bind tame_known fun _ => tame_bind tame_sprintf fun _ =>
    tame_bind tame_sprintf fun _ => tame_bind tame_sprintf fun _ => tame_bind tame_sprintf fun _ => tame_bind tame_xmlVars fun _ => tame_bind tame_xmlAux fun _ =>
    tame_bind (tame_eachZone (tame_zoneXml F) _) fun _ => tame_ok _

end Verif.Tec
