import Verif.Proof.TecR5
/-!
# The file written by `write_echo` after `write_plt`
-/
namespace Verif.Tec
open Spec

theorem notMark {p : Str} (x : Str) (h : 2 ≤ p.length) (hp : p.take 2 ≠ lit "#Z") : p ++ x ≠ lit "#ZONE#" := by
  intro e
  apply hp
  have := congrArg (List.take 2) e
  rw [List.take_append_of_le_length h] at this
  rw [this]; rfl

theorem mem_onFlag {e : List Bool} {k : Nat} {x : Line} {t : Str} (h : t ∈ keptLines (onFlag e k x)) : t = x.kept := by
  unfold onFlag at h
  split at h
  · simpa [keptLines] using h
  · simp [keptLines] at h

theorem splice_line (zone : ZoneLog → M Str Unit) {t : Str} (h : t ≠ lit "#ZONE#") (l : List Str) (zs : List ZoneLog) :
    splice zone putLine (t :: l) zs = (putLine t >>= fun _ => splice zone putLine l zs) := by
  rw [splice.eq_def]; simp only; rw [if_neg h]

theorem splice_plain (zone : ZoneLog → M Str Unit) (L : List Str) (R : List Str) (zs : List ZoneLog) (s : Str)
    (h : ∀ t ∈ L, t ≠ lit "#ZONE#") : splice zone putLine (L ++ R) zs s = splice zone putLine R zs (s ++ textFile L) := by
  induction L generalizing s with
  | nil => simp [textFile]
  | cons a L ih =>
    rw [List.cons_append, splice_line _ (h a (by simp)), M.bind_ok (show putLine a s = .ok () (s ++ (cstr a ++ lit "\n")) from rfl), ih _ (fun t ht => h t (by simp [ht]))]
    simp only [textFile, List.flatMap_cons, List.append_assoc]

theorem each_putLine (L : List Str) : ∀ s, each L putLine s = .ok () (s ++ textFile L) := by
  induction L with
  | nil => intro s; show Res.ok () s = _; simp [textFile]
  | cons a L ih =>
    intro s
    rw [each, M.bind_ok (show putLine a s = .ok () (s ++ (cstr a ++ lit "\n")) from rfl), ih]
    simp only [textFile, List.flatMap_cons, List.append_assoc]

theorem textFile_append (a b : List Str) : textFile (a ++ b) = textFile a ++ textFile b := List.flatMap_append

theorem splice_zones (K : Nat → Zone → List Str) (l : List Zone) : ∀ n (R : List Str) (zs rest : List ZoneLog) (s : Str),
    (∀ i z, l[i]? = some z → ∃ x, zs[i]? = some x ∧ x.Echo_Text = K (n + i) z) → zs.length = l.length →
    (∀ i z, ∀ t ∈ keptLines (onFlag z.Echo_Mode 0 (zoneTitle i z)), t ≠ lit "#ZONE#") →
    (∀ i z, ∀ t ∈ keptLines (onFlag z.Echo_Mode 1 (zoneTitle i z)), t ≠ lit "#ZONE#") →
    splice ZoneLog.write_echo putLine (((l.zipIdx n).flatMap fun x => zoneKept x.2 x.1) ++ R) (zs ++ rest) s =
      splice ZoneLog.write_echo putLine R rest (s ++ textFile ((l.zipIdx n).flatMap fun x =>
        keptLines (onFlag x.1.Echo_Mode 0 (zoneTitle x.2 x.1)) ++ K x.2 x.1 ++ keptLines (onFlag x.1.Echo_Mode 1 (zoneTitle x.2 x.1)))) := by
  induction l with
  | nil =>
    intro n R zs rest s _ hl _ _
    have : zs = [] := List.length_eq_zero_iff.mp (by simpa using hl)
    subst this; simp [textFile]
  | cons z l ih =>
    intro n R zs rest s H hl h0 h1
    cases zs with
    | nil => simp at hl
    | cons x zs =>
      rw [List.zipIdx_cons, List.flatMap_cons, List.flatMap_cons]
      simp only
      obtain ⟨x', hx, he⟩ := H 0 z rfl
      have : x = x' := by simpa using hx
      subst this
      have zk : zoneKept n z = keptLines (onFlag z.Echo_Mode 0 (zoneTitle n z)) ++ ([lit "#ZONE#"] ++ keptLines (onFlag z.Echo_Mode 1 (zoneTitle n z))) := by
        unfold zoneKept; rw [List.append_assoc]
      rw [zk, List.append_assoc, List.append_assoc, List.append_assoc, splice_plain _ _ _ _ _ (h0 n z), List.singleton_append, List.cons_append, splice, if_pos rfl]
      have ez : ZoneLog.write_echo x = each (K n z) putLine := by unfold ZoneLog.write_echo; rw [he]; rfl
      rw [ez, M.bind_ok (each_putLine _ _), splice_plain _ _ _ _ _ (h1 n z), ih (n + 1) R zs rest _ (by
        intro i y hy
        obtain ⟨w, a, b⟩ := H (i + 1) y (by simpa using hy)
        exact ⟨w, by simpa using a, by rw [b, show n + (i + 1) = n + 1 + i by omega]⟩) (by simpa using hl) h0 h1]
      simp only [textFile_append, List.append_assoc]

theorem title_notMark (i : Nat) (z : Zone) : (zoneTitle i z).kept ≠ lit "#ZONE#" := by
  unfold zoneTitle Line.same
  simp only [List.append_assoc]
  exact notMark _ (by decide) (by decide)

theorem fileTitle_notMark (f : TecFile) (time : Str) : (fileTitle f time).kept ≠ lit "#ZONE#" := by
  unfold fileTitle
  simp only
  split
  · simp only [List.append_assoc]
    intro e
    have := congrArg List.head? e
    simp [lit] at this
  · rw [List.nil_append]
    simp only [List.append_assoc]
    exact notMark _ (by decide) (by decide)

theorem before_notMark (E : Env) (f : TecFile) : ∀ t ∈ keptLines (linesBefore E f), t ≠ lit "#ZONE#" := by
  intro t ht
  unfold linesBefore at ht
  simp only [kept_append, List.mem_append] at ht
  rcases ht with (ht | ht) | ht
  · rw [mem_onFlag ht]; exact fileTitle_notMark _ _
  · rw [mem_onFlag ht]; exact notMark _ (by decide) (by decide)
  · rw [mem_onFlag ht]; decide

theorem after_notMark (E : Env) (f : TecFile) (mb : Str) : ∀ t ∈ keptLines (linesAfter E f mb), t ≠ lit "#ZONE#" := by
  intro t ht
  unfold linesAfter at ht
  simp only [kept_append, List.mem_append] at ht
  rcases ht with (ht | ht) | ht
  · rw [mem_onFlag ht]; unfold Line.same; simp only [List.append_assoc]; exact notMark _ (by decide) (by decide)
  · rw [mem_onFlag ht]; unfold Line.same; simp only [List.append_assoc]; exact notMark _ (by decide) (by decide)
  · rw [mem_onFlag ht]; exact fileTitle_notMark _ _

/-- the echo file of a log that `write_plt` made -/
theorem echo_file {E : Env} {f : TecFile} {l : FileLog} (hT : l.Echo_Text = allKept E f) (hl : l.Zones.length = f.Zones.length)
    (hz : ∀ (i : Nat) (z : Zone), f.Zones[i]? = some z → ∃ x : ZoneLog, l.Zones[i]? = some x ∧
      x.Echo_Text = keptLines (zoneLines E.fmt.le f.Variables z z.gathered.Real_Dim z.gathered.Real_Max z.mb)) :
    l.write_echo [] = .ok () (textFile (keptLines (allShown E f))) := by
  unfold FileLog.write_echo
  rw [hT]
  unfold allKept
  rw [List.append_assoc, splice_plain _ _ _ _ _ (before_notMark E f)]
  have := splice_zones (fun _ z => keptLines (zoneLines E.fmt.le f.Variables z z.gathered.Real_Dim z.gathered.Real_Max z.mb)) f.Zones 0
    (keptLines (linesAfter E f (fmtMB (f.lengthOf Zone.points)))) l.Zones [] ([] ++ textFile (keptLines (linesBefore E f))) (by
      intro i z h; exact hz i z h) hl (fun i z t ht => by rw [mem_onFlag ht]; exact title_notMark i z)
      (fun i z t ht => by rw [mem_onFlag ht]; exact title_notMark i z)
  rw [List.append_nil] at this
  rw [this]
  have e := splice_plain ZoneLog.write_echo (keptLines (linesAfter E f (fmtMB (f.lengthOf Zone.points)))) [] []
    ([] ++ textFile (keptLines (linesBefore E f)) ++ textFile (((f.Zones.zipIdx).flatMap fun x =>
        keptLines (onFlag x.1.Echo_Mode 0 (zoneTitle x.2 x.1)) ++
          keptLines (zoneLines E.fmt.le f.Variables x.1 x.1.gathered.Real_Dim x.1.gathered.Real_Max x.1.mb) ++ keptLines (onFlag x.1.Echo_Mode 1 (zoneTitle x.2 x.1)))))
    (after_notMark E f _)
  rw [List.append_nil] at e
  rw [e]
  show Res.ok () _ = _
  congr 1
  unfold allShown
  rw [kept_append, kept_append, textFile_append, textFile_append, List.nil_append]
  congr 3
  unfold keptLines
  rw [List.map_flatMap]
  unfold zoneShown
  simp only [List.map_append]

end Verif.Tec
