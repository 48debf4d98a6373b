import Verif.Proof.Scanf3
import Verif.Proof.LogRange
import Verif.Props.Json
import Verif.Props.XmlTrip
/-!
# C63: the numbers in the texts of the log
-/
namespace Verif.Props
open Spec Tec Json

/-- a text shows one number at most -/
theorem C63_unique {s : Str} {v w : ℚ} (h : Denotes s v) (h' : Denotes s w) : v = w := denotes_unique h h'

/-- C63 for `%le` and `%.5lf`: the text of a finite number shows a number that differs from it by a relative error of 5e-7 at most,
and by an absolute error of 5e-6 at most; the text is a JSON number exactly if the number is finite -/
theorem C63_print (x : F64) :
    (IsFinite x → ∃ v, Denotes (glibc.le x) v ∧ |v - realVal x| ≤ 5 / 10 ^ 7 * |realVal x|) ∧
    (IsFinite x → ∃ v, Denotes (glibc.f5 x) v ∧ |v - realVal x| ≤ 5 / 10 ^ 6) ∧
    (JNumber (glibc.le x) ↔ IsFinite x) ∧ (JNumber (glibc.f5 x) ↔ IsFinite x) ∧ (glibc.le x).length ≤ 14 := by
  refine ⟨fun h => ?_, fun h => ?_, ?_, ?_, printE_length x⟩
  · obtain ⟨v, h1, h2, -⟩ := printE_read ((F64.finite_iff x).mp h)
    exact ⟨v, h1, h2⟩
  · refine ⟨_, printF_shows (p := 5) (by decide) ((F64.finite_iff x).mp h), (printF_error x).trans (le_of_eq ?_)⟩
    rw [zpow_neg]
    norm_num
  · rw [F64.finite_iff]; exact printE_json
  · rw [F64.finite_iff]; exact printF_json (by decide)

/-- the smallest positive number, 1/3, -2, 9999999.5 (a tie and a carry), the largest number; 0.000015 (a tie in decimal, not in binary), 2.5 -/
example : glibc.le 0x0000000000000001#64 = lit "4.940656e-324" ∧ glibc.le 0x3FD5555555555555#64 = lit "3.333333e-01" ∧
    glibc.le 0xC000000000000000#64 = lit "-2.000000e+00" ∧ glibc.le 0x416312CFF0000000#64 = lit "1.000000e+07" ∧
    glibc.le 0x7FEFFFFFFFFFFFFF#64 = lit "1.797693e+308" ∧ glibc.le 0x8000000000000000#64 = lit "-0.000000e+00" ∧
    glibc.le 0xFFF0000000000000#64 = lit "-inf" ∧ glibc.f5 0x3EEF75104D551D69#64 = lit "0.00002" ∧
    glibc.f5 0x4004000000000000#64 = lit "2.50000" := by decide +kernel

/-- C63: the texts of minimum and maximum in the log of a written file show the smallest and the largest of the selected values, if
these are finite, but for a relative error of 5e-7 -/
theorem C63 {E : Env} {echo : Bool} {s s' : FSt} {data : Nat → Nat → Str} (hE : E.fmt = glibc) (h : Ready s data)
    (r : TecFile.write_plt E echo s = .ok () s') {i j : Nat} {z : Zone} {d : TecData} (hi : s.f.Zones[i]? = some z) (hj : z.Data[j]? = some d)
    (ht : d.type ≠ .null) (hs : d.size = d.type.bytes) (hf : ∀ n ∈ picked z d.size (data i j), Finite d.type n) :
    ∃ k l lo hi' a b, s'.f.last_log.Zones[i]? = some k ∧ k.Data[j]? = some l ∧ Extremes d.type (picked z d.size (data i j)) lo hi' ∧
      Denotes (E.fmt.le (l.min.getD 0)) a ∧ |a - lo| ≤ 5 / 10 ^ 7 * |lo| ∧ Denotes (E.fmt.le (l.max.getD 0)) b ∧ |b - hi'| ≤ 5 / 10 ^ 7 * |hi'| := by
  obtain ⟨k, l, lo, hi', h1, h2, h3, h4, f1, f2, ex⟩ := log_range h r hi hj ht hs hf
  obtain ⟨a, a1, a2⟩ := (C63_print lo).1 f1
  obtain ⟨b, b1, b2⟩ := (C63_print hi').1 f2
  refine ⟨k, l, _, _, a, b, h1, h2, ex, ?_, a2, ?_, b2⟩
  · rw [hE, h3]; exact a1
  · rw [hE, h4]; exact b1

/-- C63 for the json: if the texts of the file need no escaping and its numbers are finite, `write_json` writes a JSON text with the content of the log -/
theorem C63_json {E : Env} {echo : Bool} {s s' : FSt} {data : Nat → Nat → Str} (hE : E.fmt = glibc) (h : Ready s data)
    (r : TecFile.write_plt E echo s = .ok () s')
    (name : Legible s.f.FileName) (path : Legible s.f.FilePath) (time : Legible E.tBegin) (title : Legible s.f.Title) (vars : ∀ v ∈ s.f.Variables, Legible v)
    (aux : AuxLegible s.f.Auxiliary) (zones : ∀ z ∈ s.f.Zones, Legible z.ZoneName ∧ AuxLegible z.Auxiliary ∧ ∀ d ∈ z.Data, d.type ≠ .null ∧ d.size = d.type.bytes)
    (used : IsFinite E.using_) (times : ∀ z ∈ s.f.Zones, z.StrandId ≠ -1 → IsFinite z.SolutionTime)
    (finite : ∀ i z j d, s.f.Zones[i]? = some z → z.Data[j]? = some d → ∀ n ∈ picked z d.size (data i j), Finite d.type n)
    {depth : Int} (d0 : 0 ≤ depth) (d1 : depth + 2 ≤ 2147483647) :
    ∃ t, (∀ o, s'.f.last_log.write_json depth o = .ok () (o ++ t)) ∧ IsJson (fileValue E.fmt s'.f.last_log) t := by
  have L := C58 h r
  refine C59_partial_written h r ?_ d0 d1
  refine ⟨by rw [L.name]; exact name, by rw [L.path]; exact path, by rw [L.begin_]; exact time, ?_, by rw [L.title]; exact title, by rw [L.vars]; exact vars,
    by rw [L.aux]; exact aux, fun k hk => ?_⟩
  · rw [L.used, hE]; exact (C63_print _).2.2.2.1.mpr used
  · obtain ⟨i, hik⟩ := List.mem_iff_getElem?.mp hk
    have hil : i < s.f.Zones.length := by rw [← L.count]; exact (List.getElem?_eq_some_iff.mp hik).1
    have hz : s.f.Zones[i]? = some s.f.Zones[i] := List.getElem?_eq_getElem hil
    generalize s.f.Zones[i] = z at hz
    have Z := L.zones i z k hz hik
    obtain ⟨z1, z2, z3⟩ := zones z (List.mem_of_getElem? hz)
    refine ⟨by rw [Z.name]; exact z1, fun hst => ?_, by rw [Z.aux]; exact z2, fun l hl => ?_⟩
    · rw [Z.time, hE]; exact (C63_print _).2.2.1.mpr (times z (List.mem_of_getElem? hz) (by rw [← Z.strand]; exact hst))
    · obtain ⟨j, hjl⟩ := List.mem_iff_getElem?.mp hl
      have hjz : j < z.Data.length := by rw [← Z.count]; exact (List.getElem?_eq_some_iff.mp hjl).1
      have hd : z.Data[j]? = some z.Data[j] := List.getElem?_eq_getElem hjz
      generalize z.Data[j] = d at hd
      obtain ⟨d1, d2⟩ := z3 d (List.mem_of_getElem? hd)
      obtain ⟨k', l', lo, hi', q1, q2, q3, q4, f1, f2, -⟩ := log_range h r hz hd d1 d2 (finite i z j d hz hd)
      obtain rfl : k = k' := Option.some.inj (hik.symm.trans q1)
      obtain rfl : l = l' := Option.some.inj (hjl.symm.trans q2)
      refine ⟨?_, ?_, ?_⟩
      · rw [(Z.data j d l hd hjl).size, d2]
        cases d.type <;> decide
      · rw [q3, hE]; exact (C63_print _).2.2.1.mpr f1
      · rw [q4, hE]; exact (C63_print _).2.2.1.mpr f2

/-- the environment of the examples with the conversions of glibc; 2.5 seconds were used -/
def glibcEnv : Env := { demoEnv with fmt := glibc, using_ := 0x4004000000000000#64 }

theorem glibcUsed : (glibcEnv.fmt.f5 glibcEnv.using_).length ≤ 60 := by decide +kernel

theorem glibcWritable : Writable glibcEnv tripState fun _ _ => sourceBytes :=
  ⟨tripReady, { tripWritable.brief with fmt := glibc_short, used := glibcUsed },
    tripWritable.elems, tripWritable.length⟩

theorem glibcRun : ∃ s', TecFile.write_plt glibcEnv true tripState = .ok () s' := by
  have v : tripState.f.Valid := by
    generalize hr : TecFile.write_plt demoEnv true tripState = r
    have : (Res.state r).isSome = true := by rw [← hr]; decide +kernel
    cases r with
    | ok a s' => exact (write_plt_inv (fun _ _ => sourceBytes) tripReady.zones tripReady.fresh tripReady.varOk hr).1
    | err e s' => cases this
    | ub u => cases this
  rcases C50 glibcEnv true tripState _ glibcWritable v rfl with h | ⟨⟨k, n, h⟩, -⟩
  · exact h
  · cases h

/-- the example: one zone of `float`s, six points selected; the texts of the smallest and of the largest number -/
example : Ready tripState (fun _ _ => sourceBytes) ∧ glibcEnv.fmt = glibc ∧ IsFinite glibcEnv.using_ ∧
    (∃ s', TecFile.write_plt glibcEnv true tripState = .ok () s') ∧
    (∀ n ∈ picked tripZone 4 sourceBytes, Tec.Finite .float n) ∧ picked tripZone 4 sourceBytes = [10, 11, 12, 20, 21, 22] ∧
    glibc.le (TecType.float.toF64 10) = lit "1.401298e-44" ∧ glibc.le (TecType.float.toF64 22) = lit "3.082857e-44" := by
  refine ⟨tripReady, rfl, ?_, glibcRun, ?_, by decide +kernel, by decide +kernel, by decide +kernel⟩
  · unfold IsFinite finite; decide +kernel
  · unfold Tec.Finite finite; decide +kernel

end Verif.Props
