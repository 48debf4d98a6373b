import Verif.Proof.XmlExact5
import Verif.Props.Xml
/-!
# C53: which logs load back
-/
namespace Verif.Props
open Spec Tec Xml

theorem gen_loads {F : Fmt} {l l' : FileLog} (h : l.gen_xml F = .ok l') : FileLoads l' ↔ FileLoads l := by
  rw [fileGen_inv h]
  constructor
  · intro t
    refine ⟨t.attr, t.name, t.path, t.time, t.title, t.vars, t.few, t.aux, fun z hz => ?_⟩
    have := t.zones _ (List.mem_map.2 ⟨z, hz, rfl⟩)
    exact ⟨this.attr, this.name, this.aux, this.data, this.few⟩
  · intro t
    refine ⟨t.attr, t.name, t.path, t.time, t.title, t.vars, t.few, t.aux, fun z hz => ?_⟩
    obtain ⟨y, hy, rfl⟩ := List.mem_map.1 hz
    have := t.zones y hy
    exact ⟨this.attr, this.name, this.aux, this.data, this.few⟩

/-- C53, for all logs: the xml written for a log is loaded as the tree of the log if and only if its texts are literal and its names are
xml names (`FileLoads` of Verif/Spec/XmlExact.lean) -/
theorem C53_exact {F : Fmt} (hF : PrintsNumbers F) {l l' : FileLog} (h0 : l.Xml_Text = []) (hz : ∀ z ∈ l.Zones, z.Xml_Text = [])
    (hg : l.gen_xml F = .ok l') {d : Int} (d0 : 0 ≤ d) (d1 : d + 2 ≤ 2147483647) :
    ∃ t, (∀ s, l'.write_xml d s = .ok () (s ++ t)) ∧ (loadFile (some t) = .ok [fileNode F l] ↔ FileLoads l) ∧
      (loadFile (some (lit "<?xml version=\"1.0\" encoding=\"UTF-8\"?>\n" ++ t)) = .ok [.decl declText, fileNode F l] ↔ FileLoads l) := by
  have ex := (exact_file hF d.toNat l').iff (gen_loads hg)
  rw [gen_node hg] at ex
  refine ⟨fileText F d.toNat l', fun s => write_xml_run (gen_ready hg h0 hz) d0 d1 s, ?_, ?_⟩
  · obtain ⟨q, hq⟩ := fileText_start F d.toNat l'
    rw [hq] at ex ⊢
    have := ex.parse (blank_tabs _)
    rw [← this]
    cases e : List.replicate d.toNat 9 ++ 60 :: (lit "File" ++ (32 :: (lit "FileName" ++ 61 :: 34 :: (cstr l'.FileName ++ 34 :: 62 :: q)))) with
    | nil => simp at e
    | cons a b => exact Iff.rfl
  · exact ex.parseDecl (v := declText) (w := lit "\n") (by decide) (by decide)

/-- the same with files: `write_xml()` always succeeds, and `load_xml` returns the tree of the log for these logs only; for any other
log it throws or returns a different tree -/
theorem C53_exact_file {F : Fmt} (hF : PrintsNumbers F) {l l' : FileLog} (h0 : l.Xml_Text = []) (hz : ∀ z ∈ l.Zones, z.Xml_Text = [])
    (hg : l.gen_xml F = .ok l') {canOpen : Str → Bool} (ho : canOpen (cstr (xmlPath l)) = true) {d : Int} (d0 : 0 ≤ d) (d1 : d + 2 ≤ 2147483647)
    (fs : Str → Option Str) :
    ∃ fs', l'.write_xml_file canOpen d fs = .ok () fs' ∧ (load_xml fs' (xmlPath l) (lit "File") = .ok (fileNode F l) ↔ FileLoads l) ∧
      ∀ p, p ≠ cstr (xmlPath l) → fs' p = fs p := by
  have ex := (exact_file hF d.toNat l').iff (gen_loads hg)
  rw [gen_node hg] at ex
  have hrun := write_xml_run (gen_ready hg h0 hz) d0 d1
  have hp : l'.FilePath ++ lit "/" ++ l'.FileName ++ lit ".xml" = xmlPath l := by rw [fileGen_inv hg]; rfl
  refine ⟨fun p => if p = cstr (xmlPath l) then some (lit "<?xml version=\"1.0\" encoding=\"UTF-8\"?>\n" ++ fileText F d.toNat l') else fs p, ?_, ?_, fun p hp => if_neg hp⟩
  · unfold FileLog.write_xml_file toFile
    rw [hp, if_pos ho, hrun]
  · unfold load_xml
    simp only
    rw [if_pos trivial]
    have hpd : loadFile (some (lit "<?xml version=\"1.0\" encoding=\"UTF-8\"?>\n" ++ fileText F d.toNat l')) =
      parse (lit "<?" ++ (declText ++ (lit "?>" ++ (lit "\n" ++ fileText F d.toNat l')))) := rfl
    rw [hpd]
    constructor
    · intro h
      obtain ⟨f, hf, e⟩ := decl_kids (v := declText) (t := lit "\n" ++ fileText F d.toNat l') (by decide) (noNul_append (by unfold NoNul; decide) ex.clean)
      cases ep : parse (lit "<?" ++ (declText ++ (lit "?>" ++ (lit "\n" ++ fileText F d.toNat l')))) with
      | error c => rw [ep] at h; cases c <;> cases h
      | ok L =>
        rw [ep] at h
        simp only at h
        have hk := (e L).1 ep
        cases ef : firstNamed (cstr (lit "File")) L with
        | none => rw [ef] at h; cases h
        | some x =>
          rw [ef] at h
          cases h
          obtain ⟨q, hq⟩ := fileText_start F d.toNat l'
          refine (ex.kids (w := lit "\n") (by decide) f true [.decl declText] hf).2 L hk ?_
          rw [hq, ← List.append_assoc] at hk
          exact Exact.load (n := lit "File") (k := lit "FileName") (w := lit "\n" ++ List.replicate d.toNat 9) (blank_append (by decide) (blank_tabs _)) (by decide) (by decide) (by rfl) hk ef
    · intro h
      rw [(ex.parseDecl (v := declText) (w := lit "\n") (by decide) (by decide)).2 h]
      rfl

/-- a text without NUL, carriage return and `&` is literal -/
theorem plain_literal {v : Str} (h : ∀ b ∈ v, b ≠ 0 ∧ b ≠ 13 ∧ b ≠ 38) : Literal v :=
  ⟨fun b hb => ⟨(h b hb).1, (h b hb).2.1⟩, fun a b e => absurd rfl (h 38 (by rw [e]; simp)).2.2⟩

theorem plain_loads {v : Str} (h : Plain v) : TextLoads v :=
  .inr ⟨fun hh => (h 60 hh).2.2.2 rfl, plain_literal fun b hb => ⟨(h b hb).1, (h b hb).2.1, (h b hb).2.2.1⟩⟩

theorem quotable_loads {v : Str} (h : Quotable v) : AttrLoads v :=
  ⟨fun hh => (h 34 hh).2.2.2 rfl, plain_literal fun b hb => ⟨(h b hb).1, (h b hb).2.1, (h b hb).2.2.1⟩⟩

/-- tidy logs are among them -/
theorem C53_tidy {l : FileLog} (h : FileTidy l) : FileLoads l := by
  refine ⟨quotable_loads h.name.2, plain_loads ?_, plain_loads h.path, plain_loads h.time, plain_loads h.title, h.vars, h.few,
    fun e he => ⟨(h.aux e he).1, plain_loads (h.aux e he).2⟩, fun z hz => ?_⟩
  · intro b hb
    rcases List.mem_append.1 hb with hb | hb
    · exact h.name.1 b hb
    · exact (by decide : Plain (lit ".plt")) b hb
  · have := h.zones z hz
    exact ⟨quotable_loads this.name.2, plain_loads this.name.1, fun e he => ⟨(this.aux e he).1, plain_loads (this.aux e he).2⟩, this.data, this.few⟩

/-- a text is literal if and only if tinyxml2 leaves it as it is: this decides it -/
theorem C53_literal (v : Str) : Literal v ↔ value true v = v := (value_literal v).symm

/-- titles that load: with `&`, with `>`, of blanks; titles that do not: with `<`, an entity, a number, the odd `&#` at the end and `&#!#65;`, a carriage return -/
example : (Literal (lit "AT&T & co; &amp &#65 a>b \"q\"") ∧ 60 ∉ lit "AT&T & co; &amp &#65 a>b \"q\"") ∧ Blank (lit " \t") ∧
    ¬ Literal (lit "R&amp;D") ∧ ¬ Literal (lit "&#65;") ∧ ¬ Literal (lit "a&#") ∧ ¬ Literal (lit "&#!#65;") ∧ ¬ Literal [97, 13] := by
  simp only [C53_literal]
  decide +kernel

/-- both sides of the equivalence occur -/
example : FileLoads { shortLog with Title := lit "AT&T" } ∧ ¬ FileLoads { shortLog with Title := lit "AT&amp;T" } ∧
    ¬ FileLoads { shortLog with Variables := [lit "rho u"] } := by
  have h := C53_tidy shortLog_tidy
  refine ⟨⟨h.attr, h.name, h.path, h.time, .inr ⟨by decide +kernel, ?_⟩, h.vars, h.few, h.aux, h.zones⟩, ?_, ?_⟩
  · rw [C53_literal]; decide +kernel
  · intro t
    rcases t.title with t | t
    · exact absurd t (by decide +kernel)
    · rw [C53_literal] at t
      exact absurd t.2 (by decide +kernel)
  · intro t
    exact absurd (t.vars (lit "rho u") (by simp)) (by decide)

end Verif.Props
