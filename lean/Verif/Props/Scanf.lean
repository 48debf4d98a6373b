import Verif.Props.Printf
/-!
# C64: the numbers of an xml log that was read again
-/
namespace Verif.Props
open Spec Tec Xml

/-- C64 for `%lf`: a decimal text is read as the `double` nearest to the number it shows, unless that is larger than all finite ones -/
theorem C64_nearest {s : Str} {v : ℚ} (h : Denotes s v) : ∃ r, scanLf s = some r ∧
    (IsFinite r → ∀ y, IsFinite y → |realVal r - v| ≤ |realVal y - v|) ∧ (∀ y, IsFinite y → |v| ≤ |realVal y| → IsFinite r) := scan_nearest h

/-- some texts: 0.1, the largest number, too large, the smallest number, half of it and a little more, white space and sign; what is not a number -/
example : scanLf (lit "0.1") = some 0x3FB999999999999A#64 ∧ scanLf (lit "1.7976931348623157e308") = some 0x7FEFFFFFFFFFFFFF#64 ∧
    scanLf (lit "1e309") = some 0x7FF0000000000000#64 ∧ scanLf (lit "4.940656e-324") = some 1#64 ∧ scanLf (lit "2.47e-324") = some 0#64 ∧
    scanLf (lit "2.48e-324") = some 1#64 ∧ scanLf (lit " \t-2.5E+1x") = some 0xC039000000000000#64 ∧ scanLf (lit "-inf") = some 0xFFF0000000000000#64 ∧
    scanLf (lit "abc") = none ∧ scanLf (lit "-.") = none ∧ scanLf (lit "1e") = none := by decide +kernel

/-- the number 25.0 with its text -/
example : Denotes (lit "2.50e+1") (25 : ℚ) :=
  ⟨false, lit "2", lit "50", lit "e+1", 1, by decide, by decide, by decide, Or.inr ⟨lit "1", by decide, Or.inl ⟨by decide, by decide⟩⟩, by
    have : Spec.digitsVal (lit "2" ++ lit "50") = 250 := by decide
    rw [this]
    norm_num [show (lit "50").length = 2 by decide]⟩

/-- C64 for printing and reading: a finite number comes back with a relative error of 1e-6 at most (`%le`), an absolute error of 1e-5 at most
(`%.5lf`); infinities come back, NaNs come back as NaNs -/
theorem C64_back (x : F64) : (∃ y, scanLf (glibc.le x) = some y ∧ (IsFinite y ↔ IsFinite x) ∧ (IsFinite x → |realVal y - realVal x| ≤ 1 / 10 ^ 6 * |realVal x|) ∧
      (x.special = true → (x.frac = 0 → y = x) ∧ (x.frac ≠ 0 → y.frac ≠ 0))) ∧
    ∃ y, scanLf (glibc.f5 x) = some y ∧ (IsFinite y ↔ IsFinite x) ∧ (IsFinite x → |realVal y - realVal x| ≤ 1 / 10 ^ 5) ∧
      (x.special = true → (x.frac = 0 → y = x) ∧ (x.frac ≠ 0 → y.frac ≠ 0)) := by
  cases h : x.special with
  | true =>
    obtain ⟨y, hy, h1, h2, h3⟩ := scan_special h
    have nf : ¬ IsFinite x := fun hf => by rw [F64.finite_iff, h] at hf; cases hf
    have ny : ¬ IsFinite y := fun hf => by rw [F64.finite_iff, h1] at hf; cases hf
    have e1 : glibc.le x = specialText x := by show printE x = _; unfold printE; rw [if_pos h]
    have e2 : glibc.f5 x = specialText x := by show printF 5 x = _; unfold printF; rw [if_pos h]
    exact ⟨⟨y, by rw [e1]; exact hy, ⟨fun h => absurd h ny, fun h => absurd h nf⟩, fun h => absurd h nf, fun _ => ⟨h2, h3⟩⟩,
      ⟨y, by rw [e2]; exact hy, ⟨fun h => absurd h ny, fun h => absurd h nf⟩, fun h => absurd h nf, fun _ => ⟨h2, h3⟩⟩⟩
  | false =>
    have hf : IsFinite x := (F64.finite_iff x).mpr h
    obtain ⟨a1, a2⟩ := backE_run x
    obtain ⟨b1, b2⟩ := backF_run x
    exact ⟨⟨_, a1, ⟨fun _ => hf, fun _ => (a2 hf).1⟩, fun _ => (a2 hf).2, fun h => by cases h⟩,
      ⟨_, b1, ⟨fun _ => hf, fun _ => (b2 hf).1⟩, fun _ => (b2 hf).2, fun h => by cases h⟩⟩

/-- a number with a text of at most 60 characters has a short text after reading, too -/
theorem back_short {x : F64} (h : (printF 5 x).length ≤ 60) : (printF 5 (backF x)).length ≤ 150 := by
  cases hs : x.special with
  | true =>
    obtain ⟨y, hy, h1, -⟩ := scan_special hs
    have e : backF x = y := by
      unfold backF printF
      rw [if_pos hs, hy]
      rfl
    rw [e]
    refine (printF_length (k := 0) y fun h => ?_).trans (by decide)
    rw [h1] at h; cases h
  | false =>
    have hx : IsFinite x := (F64.finite_iff x).mpr hs
    have sh := printF_shows (p := 5) (by decide) hs
    -- the number shown is less than 10^60
    have hD : roundEven (x.abs * 10 ^ 5) unit64 < 10 ^ 65 := by
      unfold printF at h
      rw [hs, if_neg (by decide)] at h
      simp only [List.length_append, List.length_cons] at h
      have h1 : (decNat (roundEven (x.abs * 10 ^ 5) unit64 / 10 ^ 5)).length ≤ 60 := by omega
      generalize roundEven (x.abs * 10 ^ 5) unit64 = D at *
      by_contra hc
      have h2 : D / 10 ^ 5 ≠ 0 := by omega
      have h3 := (decNat_length_bounds h2).2
      have h4 : 10 ^ (decNat (D / 10 ^ 5)).length ≤ 10 ^ 60 := Nat.pow_le_pow_right (by decide) h1
      have h5 := lt_of_lt_of_le h3 h4
      omega
    obtain ⟨r, r1, r2, r3⟩ := scan_nearest sh
    have rf := r3 maxF64 maxF64_finite (printF_le hs)
    have e : backF x = r := by unfold backF; rw [r1]; rfl
    rw [e]
    have z := r2 rf 0 (by unfold IsFinite finite; decide)
    have z0 : realVal 0 = 0 := by rw [F64.real_eq]; have : F64.abs 0 = 0 := by decide
                                  rw [this]; simp
    rw [z0] at z
    refine (printF_length (k := 62) r fun _ => ?_).trans (by decide)
    have hU : (0 : ℚ) < (unit64 : ℚ) := by exact_mod_cast unit64_pos
    have hsg : |x.sgn| = 1 := by rcases x.sgn_cases with h | h <;> rw [h] <;> simp
    have hv : |x.sgn * ((roundEven (x.abs * 10 ^ 5) unit64 : ℕ) : ℚ) * (10 : ℚ) ^ (0 - ((5 : ℕ) : Int))| ≤ 10 ^ 60 := by
      rw [abs_mul, abs_mul, hsg, one_mul, abs_of_nonneg (Nat.cast_nonneg _ : (0 : ℚ) ≤ _), abs_of_nonneg (zpow_nonneg (by norm_num) _)]
      generalize roundEven (x.abs * 10 ^ 5) unit64 = D at *
      have : (D : ℚ) ≤ 10 ^ 65 := by exact_mod_cast le_of_lt hD
      have e : (10 : ℚ) ^ (0 - ((5 : ℕ) : Int)) = 1 / 10 ^ 5 := by norm_num
      rw [e]
      linarith
    generalize x.sgn * ((roundEven (x.abs * 10 ^ 5) unit64 : ℕ) : ℚ) * (10 : ℚ) ^ (0 - ((5 : ℕ) : Int)) = v at *
    rw [zero_sub, abs_neg] at z
    have h2 : |realVal r| ≤ 2 * 10 ^ 60 := by
      have := abs_sub_le (realVal r) v 0
      rw [sub_zero, sub_zero] at this
      linarith
    rw [r.real_abs, div_le_iff₀ hU] at h2
    generalize r.abs = A at *
    have hp := unit64_pos
    generalize unit64 = U at *
    have h3 : A ≤ 2 * 10 ^ 60 * U := by exact_mod_cast h2
    refine lt_of_le_of_lt h3 ?_
    rw [Nat.mul_comm]
    exact Nat.mul_lt_mul_of_pos_left (by decide) hp

/-- C64: the log of a written file, written as xml, loaded and read: minimum and maximum are the smallest and the largest of the selected
values, if these are finite, but for a relative error of 1e-6; the same for the time of a zone; `UsingTime` but for an absolute error of 1e-5 -/
theorem C64 {E : Env} {echo : Bool} {s s' : FSt} {data : Nat → Nat → Str} (hE : E.fmt = glibc) (w : Writable E s data) (fair : FileFair E s.f)
    (r : TecFile.write_plt E echo s = .ok () s') (ho : E.canOpen (cstr (xmlPath s'.f.last_log)) = true)
    {depth : Int} (d0 : 0 ≤ depth) (d1 : depth + 2 ≤ 2147483647) (junk : Nat → Junk) :
    ∃ fs root l, s'.f.last_log.write_xml_file E.canOpen depth s'.fs = .ok () fs ∧ load_xml fs (xmlPath s'.f.last_log) (lit "File") = .ok root ∧
      FileLog.read_xml E.fmt scanLf junk root FileLog.new = .ok l ∧ l.Zones.length = s.f.Zones.length ∧
      (IsFinite E.using_ → ∃ u, l.UsingTime = some u ∧ |realVal u - realVal E.using_| ≤ 1 / 10 ^ 5) ∧
      ∀ i z, s.f.Zones[i]? = some z → ∃ k, l.Zones[i]? = some k ∧ k.Data.length = z.Data.length ∧
        (z.StrandId ≠ -1 → IsFinite z.SolutionTime → |realVal k.SolutionTime - realVal z.SolutionTime| ≤ 1 / 10 ^ 6 * |realVal z.SolutionTime|) ∧
        ∀ j d, z.Data[j]? = some d → d.type ≠ .null → d.size = d.type.bytes → (∀ n ∈ picked z d.size (data i j), Finite d.type n) →
          ∃ m lo hi a b, k.Data[j]? = some m ∧ Extremes d.type (picked z d.size (data i j)) lo hi ∧ m.min = some a ∧ m.max = some b ∧
            |realVal a - lo| ≤ 1 / 10 ^ 6 * |lo| ∧ |realVal b - hi| ≤ 1 / 10 ^ 6 * |hi| := by
  have hu : (E.fmt.f5 (backF E.using_)).length ≤ 150 := by
    have := w.brief.used
    rw [hE] at this ⊢
    exact back_short this
  obtain ⟨fs, root, l, h1, h2, h3, h4, -⟩ := C55_log w fair r (by rw [hE]; exact glibc_prints) (rd := scanLf) (le := backE) (f5 := backF)
    (by rw [hE]; exact glibc_scans) hu ho d0 d1 junk
  have L := C58 w.ready r
  refine ⟨fs, root, l, h1, h2, h3, ?_, ?_, ?_⟩
  · have : (bare l).Zones.length = (fileBack backE backF junk s'.f.last_log).Zones.length := by rw [h4]
    unfold bare fileBack at this
    simpa [L.count] using this
  · intro hf
    have : (bare l).UsingTime = (fileBack backE backF junk s'.f.last_log).UsingTime := by rw [h4]
    refine ⟨backF E.using_, ?_, ((backF_run _).2 hf).2⟩
    have : l.UsingTime = s'.f.last_log.UsingTime.map backF := this
    rw [this, L.used]; rfl
  · intro i z hi
    have hil : i < s.f.Zones.length := (List.getElem?_eq_some_iff.mp hi).1
    have hk : s'.f.last_log.Zones[i]? = some (s'.f.last_log.Zones[i]'(by rw [L.count]; exact hil)) := List.getElem?_eq_getElem _
    generalize s'.f.last_log.Zones[i]'(by rw [L.count]; exact hil) = k at hk
    have Z := L.zones i z k hi hk
    have hz : (bare l).Zones[i]? = (fileBack backE backF junk s'.f.last_log).Zones[i]? := by rw [h4]
    unfold bare fileBack at hz
    simp only [List.getElem?_map, List.getElem?_zipIdx, hk, Option.map_some, Nat.zero_add] at hz
    obtain ⟨k', q1, q2⟩ := Option.map_eq_some_iff.mp hz
    have qd : k'.Data = k.Data.map (dataBack backE) := by
      have : (zoneBare k').Data = (zoneBack backE (junk i) k).Data := by rw [q2]
      exact this
    refine ⟨k', q1, by rw [qd, List.length_map, Z.count], fun hst hf => ?_, fun j d hj ht hs hf => ?_⟩
    · have : (zoneBare k').SolutionTime = (zoneBack backE (junk i) k).SolutionTime := by rw [q2]
      have this : k'.SolutionTime = if k.StrandId = -1 then (junk i).time else backE k.SolutionTime := this
      rw [this, if_neg (by rw [Z.strand]; exact hst), Z.time]
      exact ((backE_run _).2 hf).2
    · obtain ⟨k2, m, lo, hi', p1, p2, p3, p4, f1, f2, ex⟩ := log_range w.ready r hi hj ht hs hf
      obtain rfl : k = k2 := Option.some.inj (hk.symm.trans p1)
      refine ⟨dataBack backE m, _, _, backE lo, backE hi', by rw [qd, List.getElem?_map, p2]; rfl, ex, ?_, ?_, ((backE_run _).2 f1).2, ((backE_run _).2 f2).2⟩
      · unfold dataBack; rw [p3]; rfl
      · unfold dataBack; rw [p4]; rfl

/-- the hypotheses are met -/
example : glibcEnv.fmt = glibc ∧ Writable glibcEnv tripState (fun _ _ => sourceBytes) ∧ FileFair glibcEnv tripState.f ∧ IsFinite glibcEnv.using_ ∧
    (∃ s', TecFile.write_plt glibcEnv true tripState = .ok () s') ∧ (∀ n ∈ picked tripZone 4 sourceBytes, Tec.Finite .float n) ∧
    glibcEnv.canOpen (lit "dir/name.xml") = true := by
  refine ⟨rfl, glibcWritable, ⟨tripFair.name, tripFair.path, tripFair.time, tripFair.title, tripFair.vars, tripFair.few, tripFair.aux, tripFair.zones⟩, ?_,
    glibcRun, ?_, rfl⟩
  · unfold IsFinite finite; decide +kernel
  · unfold Tec.Finite finite; decide +kernel

/-- the errors are not zero: 1/3 comes back as another number -/
theorem C64_exact_false : ∃ x, IsFinite x ∧ scanLf (glibc.le x) ≠ some x :=
  ⟨0x3FD5555555555555#64, by unfold IsFinite finite; decide +kernel, by decide +kernel⟩

end Verif.Props
