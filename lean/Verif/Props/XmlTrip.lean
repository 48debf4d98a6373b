import Verif.Proof.Xml11
import Verif.Props.Xml
import Verif.Props.TecMirror
/-!
# C55: write a file and its log, read both again
-/
namespace Verif.Props
open Spec Tec Xml
variable {V V' : Type}

/-- the log of a written file can be written as xml, loaded and read: the result agrees with the log but for the real numbers, which went
through text, and what is not in the xml -/
theorem C55_log {E : Env} {echo : Bool} {s s' : FSt} {data : Nat → Nat → Str} (w : Writable E s data) (fair : FileFair E s.f)
    (r : TecFile.write_plt E echo s = .ok () s') (hF : PrintsNumbers E.fmt) {rd : Str → Option F64} {le f5 : F64 → F64} (hs : Scans E.fmt rd le f5)
    (hu : (E.fmt.f5 (f5 E.using_)).length ≤ 150) (ho : E.canOpen (cstr (xmlPath s'.f.last_log)) = true)
    {d : Int} (d0 : 0 ≤ d) (d1 : d + 2 ≤ 2147483647) (junk : Nat → Junk) :
    ∃ fs root l, s'.f.last_log.write_xml_file E.canOpen d s'.fs = .ok () fs ∧ load_xml fs (xmlPath s'.f.last_log) (lit "File") = .ok root ∧
      FileLog.read_xml E.fmt rd junk root FileLog.new = .ok l ∧ bare l = fileBack le f5 junk s'.f.last_log ∧
      ∀ p, p ≠ cstr (xmlPath s'.f.last_log) → fs p = s'.fs p := by
  have L := C58 w.ready r
  obtain ⟨v, mm, c, W⟩ := write_plt_inv data w.ready.zones w.ready.fresh w.ready.varOk r
  obtain ⟨l0, g, x0, xz⟩ := W.xml
  have e0 : ∀ F, fileNode F s'.f.last_log = fileNode F l0 ∧ xmlPath s'.f.last_log = xmlPath l0 := by
    intro F
    rw [fileGen_inv g]
    constructor
    · unfold fileNode
      simp only [List.map_map]
      rfl
    · rfl
  have tidy : FileTidy s'.f.last_log := logged_tidy L fair fun z hz => (v.each z hz).len
  have tidy0 : FileTidy l0 := by
    rw [fileGen_inv g] at tidy
    refine ⟨tidy.name, tidy.path, tidy.time, tidy.title, tidy.vars, tidy.few, tidy.aux, fun z hz => ?_⟩
    have := tidy.zones _ (List.mem_map.2 ⟨z, hz, rfl⟩)
    exact ⟨this.name, this.aux, this.data, this.few⟩
  obtain ⟨fs, f1, f2, f3⟩ := C53_partial_file hF tidy0 x0 xz g (by rw [← (e0 E.fmt).2]; exact ho) d0 d1 s'.fs
  rw [← (e0 E.fmt).2] at f2 f3
  rw [← (e0 E.fmt).1] at f2
  obtain ⟨l, g1, g2⟩ := C54_partial hF w.brief.fmt hs junk (logged_nums L fair w.brief w.ready.zones w.length) (logged_seen L fair)
    (logged_short L w.brief w.ready.zones w.length) (fun u e => by rw [L.used] at e; cases e; exact hu)
  exact ⟨fs, _, l, f1, f2, g1, g2, f3⟩

/-- C55: as C39, but `read_plt` is given a log that was written with `write_xml`, loaded with `load_xml` and read with `read_xml` -/
theorem C55 {E : Env} {echo : Bool} {s s' : FSt} {data : Nat → Nat → Str} (w : Writable E s data) (fair : FileFair E s.f)
    (r : TecFile.write_plt E echo s = .ok () s') (hF : PrintsNumbers E.fmt) {rd : Str → Option F64} {le f5 : F64 → F64} (hs : Scans E.fmt rd le f5)
    (hu : (E.fmt.f5 (f5 E.using_)).length ≤ 150) (ho : E.canOpen (cstr (xmlPath s'.f.last_log)) = true)
    {depth : Int} (d0 : 0 ≤ depth) (d1 : depth + 2 ≤ 2147483647) (junk : Nat → Junk)
    {i j : Nat} {z : Zone} {d : TecData} (hi : s.f.Zones[i]? = some z) (hj : z.Data[j]? = some d)
    {name : Str} (hv : s.f.Variables.idxOf? name = some j) (hd : d.size = d.type.bytes)
    {mem₁ : Nat → Nat → Bool} {chk₁ : Bool} {w₁ : World V} {aw₁ : AWorld V} (R₁ : Reach mem₁ chk₁ w₁ aw₁)
    {x₁ : Nat} {k₁ : Kind} {es₁ : List Ext} {val₁ : Nat → List Int → Option V} (hx₁ : aw₁.arr x₁ = some (k₁, .ready es₁ val₁)) {m : Nat}
    (zone : ZoneFor (mkShape es₁ k₁.locs) z) {enc : V → Str} (img : ImageOf (mkShape es₁ k₁.locs) d.size enc (val₁ m) (data i j))
    {C : Num V'} {conv : V → V'} (cd : Codec d.type enc C conv)
    {mem₂ : Nat → Nat → Bool} {chk₂ : Bool} {w₂ : World V'} {aw₂ : AWorld V'} (R₂ : Reach mem₂ chk₂ w₂ aw₂)
    {x₂ : Nat} {k₂ : Kind} {es₂ : List Ext} {val₂ : Nat → List Int → Option V'} (hx₂ : aw₂.arr x₂ = some (k₂, .ready es₂ val₂))
    {n : Nat} (hn : n < k₂.N) (same : List.Forall₂ (· ≤ ·) (es₁.map (·.i)) (es₂.map (·.i))) {b : Heap Byte} (fr : Fresh b)
    (room : b.mem b.next (prod (es₁.map fun e => (e.i : Int)) * d.size) = true) (c : Bool) :
    ∃ fs root l w' b', s'.f.last_log.write_xml_file E.canOpen depth s'.fs = .ok () fs ∧
      load_xml fs (xmlPath s'.f.last_log) (lit "File") = .ok root ∧
      FileLog.read_xml E.fmt rd junk root FileLog.new = .ok l ∧
      World.read_plt c C ⟨fs, l.FilePath, l, i, name⟩ x₂ n (w₂, b) = .ok () (w', b') ∧ b'.blk = b.blk ∧
      (∀ ys gs, Valid k₂ es₂ n ys gs → InBlock (es₁.map fun e => (e.i : Int)) (point ys gs) → ∀ ys₁ gs₁, Valid k₁ es₁ m ys₁ gs₁ →
        point ys₁ gs₁ = point ys gs → ∀ c', ∃ u, exec c' (.read x₁ m ys₁ gs₁) w₁ = .ok (.val (some u)) w₁ ∧
          exec c' (.read x₂ n ys gs) w' = .ok (.val (some (conv u))) w') ∧
      (∀ y k' es' val', aw₂.arr y = some (k', .ready es' val') → ∀ q ys gs, Valid k' es' q ys gs →
        ¬ (y = x₂ ∧ q = n ∧ InBlock (es₁.map fun e => (e.i : Int)) (point ys gs)) →
        ∀ c', ∃ b, exec c' (.read y q ys gs) w₂ = .ok (.val b) w₂ ∧ exec c' (.read y q ys gs) w' = .ok (.val b) w') ∧
      (∀ y k' a', aw₂.arr y = some (k', a') → ∀ c', ∃ l,
        exec c' (.size y) w₂ = .ok (.sizes l) w₂ ∧ exec c' (.size y) w' = .ok (.sizes l) w') := by
  obtain ⟨fs, root, l, f1, f2, f3, f4, f5'⟩ := C55_log w fair r hF hs hu ho d0 d1 junk
  have L := C58 w.ready r
  have hp : l.FilePath = s.f.FilePath := by
    have : (bare l).FilePath = (fileBack le f5 junk s'.f.last_log).FilePath := by rw [f4]
    rw [← L.path]; exact this
  obtain ⟨w', b', q⟩ := C39 w.ready r (fun z hz => (fair.zones z hz).sizes) hi hj hv hd R₁ hx₁ zone img cd R₂ hx₂ hn same fr room c
  refine ⟨fs, root, l, w', b', f1, f2, f3, ?_⟩
  have al : ArgsAlike ⟨fs, s.f.FilePath, l, i, name⟩ ⟨s'.fs, s.f.FilePath, s'.f.last_log, i, name⟩ := by
    refine back_alike f4 (f5' _ ?_)
    have z1 : ∀ b ∈ s.f.FilePath ++ lit "/" ++ s.f.FileName, b ≠ 0 := by
      intro b hb
      rcases List.mem_append.1 hb with hb | hb
      · rcases List.mem_append.1 hb with hb | hb
        · exact (fair.path.1 b hb).1
        · exact (by decide : ∀ b ∈ lit "/", b ≠ 0) b hb
      · exact (fair.name.1 b hb).1
    unfold ReadArgs.path xmlPath
    simp only [L.path, L.name]
    rw [cstr_plain z1, cstr_plain z1]
    intro e
    exact absurd (List.append_cancel_left e) (by decide)
  rw [hp, read_alike al]
  exact q

/-! ## The example of C39 -/

theorem tripWritable : Writable demoEnv tripState fun _ _ => sourceBytes := by
  refine ⟨tripReady, ?_, ?_, by decide +kernel⟩
  · refine ⟨fun _ => (by decide : (lit "0").length ≤ 30), by decide +kernel, by decide +kernel, by decide +kernel, by decide +kernel, by decide +kernel,
      by decide +kernel, by decide +kernel, by decide +kernel, by unfold AuxShort; decide +kernel, ?_⟩
    intro z hz
    obtain rfl : z = tripZone := by simpa [tripState] using hz
    exact ⟨by decide +kernel, by decide +kernel, by unfold AuxShort; decide +kernel⟩
  · intro z hz
    obtain rfl : z = tripZone := by simpa [tripState] using hz
    decide +kernel

theorem tripFair : FileFair demoEnv tripState.f := by
  have a : AuxFair [] := ⟨by unfold AuxMap.Ordered; decide +kernel, fun e he => absurd he (by simp)⟩
  refine ⟨by decide +kernel, by decide +kernel, by decide +kernel, by decide +kernel, by decide +kernel, by decide +kernel, a, fun z hz => ?_⟩
  obtain rfl : z = tripZone := by simpa [tripState] using hz
  exact ⟨by decide +kernel, a, by decide +kernel⟩

/-- the points of the target after writing the source and its log, and reading both again -/
def tripRunXml : Option (List (List (Option Int))) :=
  match TecFile.write_plt demoEnv true tripState, run true targetOps (World.init fun _ _ => true) with
  | .ok _ s', some (_, w) =>
    match s'.f.last_log.write_xml_file demoEnv.canOpen 0 s'.fs with
    | .ok _ fs =>
      match load_xml fs (lit "dir/name.xml") (lit "File") with
      | .ok root =>
        match FileLog.read_xml plainFmt plainScan (fun _ => ⟨7, true, false⟩) root FileLog.new with
        | .ok l =>
          match World.read_plt true bitsNum ⟨fs, l.FilePath, l, 0, lit "v"⟩ 0 0 (w, readHeap) with
          | .ok _ (w', _) => some <| [0, 1, 2].map fun i => [-2, -1, 0, 1, 2].map fun j =>
              match exec true (.read 0 0 [i, j] [.N, .C]) w' with
              | .ok (.val b) _ => b
              | _ => some 99
          | _ => none
        | _ => none
      | _ => none
    | _ => none
  | _, _ => none

/-- the hypotheses of C55 that are not hypotheses of C39 are met, and what is read -/
example : Writable demoEnv tripState (fun _ _ => sourceBytes) ∧ FileFair demoEnv tripState.f ∧ PrintsNumbers demoEnv.fmt ∧
    Scans demoEnv.fmt plainScan (fun _ => 0) (fun _ => 0) ∧
    tripRunXml = some [[none, some 77, some 10, some 11, some 12], [none, none, some 20, some 21, some 22], [none, none, none, none, none]] :=
  ⟨tripWritable, tripFair, plainFmt_prints, ⟨fun _ => (by decide : plainScan (lit "0") = some 0), fun _ => (by decide : plainScan (lit "0") = some 0)⟩,
    by decide +kernel⟩

end Verif.Props
