import Verif.Spec.TecMirror
import Verif.Proof.Xml10
import Verif.Proof.TecR5
/-!
# The log of a written file, as xml
-/
namespace Verif
open Spec Tec Xml

theorem logged_zone {E : Env} {p : Zone → Nat} {f : TecFile} {l : FileLog} (h : FileLogged E p f l) {k : ZoneLog} (hk : k ∈ l.Zones) :
    ∃ z ∈ f.Zones, ZoneLogged (f.lengthOf p) (p z) z k := by
  obtain ⟨i, hi⟩ := List.mem_iff_getElem?.1 hk
  have hil : i < f.Zones.length := by rw [← h.count]; exact (List.getElem?_eq_some_iff.1 hi).1
  exact ⟨f.Zones[i], List.getElem_mem hil, h.zones i _ k (List.getElem?_eq_getElem hil) hi⟩

theorem logged_data {n p : Nat} {z : Zone} {k : ZoneLog} (h : ZoneLogged n p z k) {d : DataLog} (hd : d ∈ k.Data) :
    ∃ e ∈ z.Data, DataLogged n p e d := by
  obtain ⟨i, hi⟩ := List.mem_iff_getElem?.1 hd
  have hil : i < z.Data.length := by rw [← h.count]; exact (List.getElem?_eq_some_iff.1 hi).1
  exact ⟨z.Data[i], List.getElem_mem hil, h.data i _ d (List.getElem?_eq_getElem hil) hi⟩

theorem logged_tidy {E : Env} {p : Zone → Nat} {f : TecFile} {l : FileLog} (h : FileLogged E p f l) (t : FileFair E f)
    (v : ∀ z ∈ f.Zones, z.Data.length = f.Variables.length) : FileTidy l := by
  refine ⟨by rw [h.name]; exact t.name, by rw [h.path]; exact t.path.1, by rw [h.begin_]; exact t.time.1, by rw [h.title]; exact t.title.1,
    by rw [h.vars]; exact t.vars, by rw [h.vars]; exact t.few, ?_, ?_⟩
  · intro e he
    rw [h.aux] at he
    exact ⟨(t.aux.2 e he).1, (t.aux.2 e he).2.1⟩
  · intro k hk
    obtain ⟨z, hz, L⟩ := logged_zone h hk
    have tz := t.zones z hz
    refine ⟨by rw [L.name]; exact ⟨tz.name.1, tz.name.2.1⟩, ?_, ?_, by rw [L.count, v z hz]; exact t.few⟩
    · intro e he
      rw [L.aux] at he
      exact ⟨(tz.aux.2 e he).1, (tz.aux.2 e he).2.1⟩
    · intro d hd
      obtain ⟨e, he, D⟩ := logged_data L hd
      rw [D.size]
      exact tz.sizes e he

theorem logged_seen {E : Env} {p : Zone → Nat} {f : TecFile} {l : FileLog} (h : FileLogged E p f l) (t : FileFair E f) : Seen l := by
  refine ⟨by rw [h.path]; exact t.path.2, by rw [h.begin_]; exact t.time.2, by rw [h.title]; exact t.title.2, ?_, ?_⟩
  · intro e he
    rw [h.aux] at he
    exact (t.aux.2 e he).2.2
  · intro k hk
    obtain ⟨z, hz, L⟩ := logged_zone h hk
    have tz := t.zones z hz
    refine ⟨by rw [L.name]; exact tz.name.2.2, ?_⟩
    intro e he
    rw [L.aux] at he
    exact (tz.aux.2 e he).2.2

theorem logged_nums {E : Env} {p : Zone → Nat} {f : TecFile} {l : FileLog} (h : FileLogged E p f l) (t : FileFair E f) (b : f.Brief E)
    (fits : ∀ z ∈ f.Zones, z.Fits) (n : f.lengthOf p < 9223372036854775808) : FileNums l := by
  refine ⟨by rw [h.type]; exact b.type, by rw [h.used]; rfl, by rw [h.aux]; exact t.aux.1, ?_⟩
  intro k hk
  obtain ⟨z, hz, L⟩ := logged_zone h hk
  have tz := t.zones z hz
  obtain ⟨g1, g2, g3, g4, g5⟩ := (fits z hz).ints
  obtain ⟨n1, n2⟩ := nonUnit_bound fun i => (z.sel i).count
  obtain ⟨m1, m2⟩ := nonUnit_bound fun i => (z.sel i).max
  refine ⟨by rw [L.strand]; exact (b.zones z hz).2.1, by rw [L.dim]; exact ⟨by omega, by omega⟩, by rw [L.real]; exact ⟨by omega, by omega⟩,
    by rw [L.max]; exact g1, by rw [L.skip]; exact g2, by rw [L.head]; exact g3, by rw [L.tail]; exact g4, by rw [L.realMax]; exact g5,
    by rw [L.aux]; exact tz.aux.1, ?_⟩
  intro d hd
  obtain ⟨e, he, D⟩ := logged_data L hd
  obtain ⟨q, q1, q2⟩ := D.pt
  exact ⟨by rw [D.size]; exact tz.sizes e he, ⟨_, q1, by omega, by omega⟩, D.min, D.max⟩

theorem logged_short {E : Env} {p : Zone → Nat} {f : TecFile} {l : FileLog} (h : FileLogged E p f l) (b : f.Brief E)
    (fits : ∀ z ∈ f.Zones, z.Fits) (n : f.lengthOf p < 9223372036854775808) : l.Short E.fmt := by
  refine ⟨by rw [h.name]; exact b.name, by rw [h.path]; exact b.path, by rw [h.title]; exact b.title, by rw [h.begin_]; exact b.time,
    ⟨_, h.used, Nat.le_trans b.used (by decide)⟩, by rw [h.type]; exact b.type, by rw [h.vars]; exact b.vars, by rw [h.aux]; exact b.aux, ?_⟩
  intro k hk
  obtain ⟨z, hz, L⟩ := logged_zone h hk
  obtain ⟨b1, b2, b3⟩ := b.zones z hz
  obtain ⟨g1, g2, g3, g4, g5⟩ := (fits z hz).ints
  obtain ⟨n1, n2⟩ := nonUnit_bound fun i => (z.sel i).count
  obtain ⟨m1, m2⟩ := nonUnit_bound fun i => (z.sel i).max
  refine ⟨by rw [L.name]; omega, by rw [L.strand]; exact b2, by rw [L.dim]; exact ⟨by omega, by omega⟩, by rw [L.real]; exact ⟨by omega, by omega⟩,
    by rw [L.max]; exact g1, by rw [L.skip]; exact g2, by rw [L.head]; exact g3, by rw [L.tail]; exact g4, by rw [L.realMax]; exact g5,
    by rw [L.aux]; exact b3, ?_⟩
  intro d hd
  obtain ⟨e, he, D⟩ := logged_data L hd
  obtain ⟨q, q1, q2⟩ := D.pt
  exact ⟨⟨_, q1, by omega⟩, D.min, D.max⟩

/-- the log that was read is as good for `read_plt` as the one that was written -/
theorem back_alike {le f5 : F64 → F64} {junk : Nat → Junk} {l l' : FileLog} (h : bare l' = fileBack le f5 junk l) {fs fs' : Str → Option Str}
    {root name : Str} {i : Nat} (hfs : fs' (cstr (ReadArgs.path ⟨fs, root, l, i, name⟩)) = fs (cstr (ReadArgs.path ⟨fs, root, l, i, name⟩))) :
    ArgsAlike ⟨fs', root, l', i, name⟩ ⟨fs, root, l, i, name⟩ := by
  have hn : (bare l').FileName = (fileBack le f5 junk l).FileName := by rw [h]
  change l'.FileName = l.FileName at hn
  have hv : (bare l').Variables = (fileBack le f5 junk l).Variables := by rw [h]
  change l'.Variables = l.Variables at hv
  have hz : l'.Zones.map zoneBare = l.Zones.zipIdx.map fun z => zoneBack le (junk z.2) z.1 := congrArg FileLog.Zones h
  refine ⟨rfl, rfl, rfl, hn, hv, ?_, ?_, ?_⟩
  · have := congrArg List.length hz
    simpa using this
  · intro j z z' h1 h2
    have e := congrArg (·[j]?) hz
    simp only [List.getElem?_map, List.getElem?_zipIdx] at e
    simp only at h1 h2
    rw [h1, h2] at e
    simp only [Option.map_some, Option.some.injEq, Nat.zero_add] at e
    have r : (zoneBare z).Real_Max = (zoneBack le (junk j) z').Real_Max := by rw [e]
    have d : z.Data = z'.Data.map (dataBack le) := congrArg ZoneLog.Data e
    refine ⟨r, ?_⟩
    rw [d, List.map_map]
    rfl
  · have p : ReadArgs.path ⟨fs', root, l', i, name⟩ = ReadArgs.path ⟨fs, root, l, i, name⟩ := by
      unfold ReadArgs.path; simp only [hn]
    simp only [p]
    exact hfs

/-- different ends make different names -/
theorem cstr_plain {s : Str} (h : ∀ b ∈ s, b ≠ 0) (t : Str) : cstr (s ++ t) = s ++ cstr t := by
  induction s with
  | nil => rfl
  | cons a s ih =>
    have := h a (by simp)
    rw [List.cons_append]
    unfold cstr at ih ⊢
    rw [List.takeWhile_cons_of_pos (by simpa using this), ih (fun b hb => h b (by simp [hb]))]
    rfl

end Verif
