import Verif.Proof.TecBody
import Verif.Props.TecHead
/-!
# A whole file can be read back: C60

The reader is `Spec.readWhole` (Verif/Spec/TecBody.lean).
-/
namespace Verif.Props
open Spec Tec

/-- every variable has one of the five types and elements of that size (what `TEC_DATA(T *)` gives: C61) -/
def Typed (f : TecFile) : Prop := ∀ z ∈ f.Zones, ∀ d ∈ z.Data, d.type ≠ .null ∧ d.size = d.type.bytes

/-- what a reader must find in the data section of zone `z` -/
structure BodyOf (z : Zone) (data : Nat → Str) (b : ZoneBody) : Prop where
  types : b.types = z.Data.map fun d => d.type.code.toNat
  ranges : b.ranges.length = z.Data.length
  values : b.values.length = z.Data.length
  /-- the values of the selected points, in the order first index fastest -/
  value : ∀ (j : Nat) (d : TecData), z.Data[j]? = some d → b.values[j]? = some ((selection (z.sel 0) (z.sel 1) (z.sel 2)).map fun p =>
    little (item d.size (data j) (place (z.sel 0) (z.sel 1) p)))
  /-- if all of them are finite, the two numbers of the range are the smallest and the largest of them -/
  range : ∀ (j : Nat) (d : TecData) (v : List Nat), z.Data[j]? = some d → b.values[j]? = some v → (∀ n ∈ v, Finite d.type n) → ∃ lo hi : Nat, b.ranges[j]? = some (lo, hi) ∧
    (∃ n ∈ v, scaled 64 52 lo = Tec.value d.type n) ∧ (∃ n ∈ v, scaled 64 52 hi = Tec.value d.type n) ∧
    ∀ n ∈ v, scaled 64 52 lo ≤ Tec.value d.type n ∧ Tec.value d.type n ≤ scaled 64 52 hi

/-- C60: the file written by `write_plt` is a file of the format and nothing else; a reader finds in it exactly
the texts, the sizes, the types and the values of the selected points of every variable of every zone -/
theorem C60 {E : Env} {echo : Bool} {s s' : FSt} {data : Nat → Nat → Str} (h : Ready s data) (t : FileTexts s.f) (ty : Typed s.f)
    (r : TecFile.write_plt E echo s = .ok () s') :
    ∃ c B, s'.fs (cstr s.f.path) = some c ∧
      readWhole c = some (headOf s.f (fun z => ((z.sel 0).picks.length, (z.sel 1).picks.length, (z.sel 2).picks.length)), B) ∧
      B.length = s.f.Zones.length ∧ ∀ i z, s.f.Zones[i]? = some z → ∃ b, B[i]? = some b ∧ BodyOf z (data i) b := by
  obtain ⟨v, mm, c, w⟩ := write_plt_inv data h.zones h.fresh h.varOk r
  obtain ⟨c', rest, e1, e2⟩ := C42 h t r
  have ec : c' = c := by
    rw [w.fs] at e1; simpa using e1.symm
  subst ec
  let ZZ : Nat → Zone := fun i => s.f.Zones.getD i (Zone.new [] 0)
  -- the rest is the data section
  have er : rest = (List.range s.f.Zones.length).flatMap fun i => (ZZ i).dataBytes (data i) (mm i) := by
    have hb := w.bytes
    rw [List.append_assoc] at hb
    rw [hb, readHead_read (checked_clean h t)] at e2
    exact (congrArg Prod.snd (Option.some.inj e2)).symm
  let H := headOf s.f (fun z => (((z.sel 0).picks.length : Int), ((z.sel 1).picks.length : Int), ((z.sel 2).picks.length : Int)))
  have typed : ∀ i z j d, s.f.Zones[i]? = some z → z.Data[j]? = some d →
      (data i j).length = z.total d.size ∧ d.type ≠ .null ∧ d.size = d.type.bytes := fun i z j d hi hj =>
    ⟨(h.vars i z j d hi hj).2.1, ty z (List.mem_of_getElem? hi) d (List.mem_of_getElem? hj)⟩
  have hl : H.zones.length = s.f.Zones.length := List.length_map ..
  have hB := bodies_read (n := H.vars.length) H.zones (fun i => (ZZ i).dataBytes (data i) (mm i)) (fun i => (ZZ i).body (data i) (mm i)) (by
    intro i zh hi r
    have hi : (s.f.Zones.map _)[i]? = some zh := hi
    rw [List.getElem?_map] at hi
    obtain ⟨z, hz, rfl⟩ := Option.map_eq_some_iff.mp hi
    have hzi : ZZ i = z := getD_some hz
    have fit := h.zones z (List.mem_of_getElem? hz)
    have hn : H.vars.length = z.Data.length := (v.each z (List.mem_of_getElem? hz)).len.symm
    have hp : ((((z.sel 0).picks.length : Nat) : Int) * ((z.sel 1).picks.length : Nat) * ((z.sel 2).picks.length : Nat)).toNat = z.points := by
      unfold Zone.points
      rw [length_selection z fit.sane]
      unfold DimSel.count
      simp only [Int.toNat_natCast]
      rw [← Int.natCast_mul, ← Int.natCast_mul, Int.toNat_natCast]
    show zoneBody _ ((((z.sel 0).picks.length : Nat) : Int) * ((z.sel 1).picks.length : Nat) * ((z.sel 2).picks.length : Nat)).toNat _ = _
    rw [hp, hn]
    simp only [hzi]
    exact zoneBody_read fit (mm i) (fun j d hj => typed i z j d hz hj) r) []
  rw [List.append_nil, hl, ← er] at hB
  refine ⟨c', (List.range s.f.Zones.length).map fun i => (ZZ i).body (data i) (mm i), e1, ?_, (List.length_map ..).trans (List.length_range ..), ?_⟩
  · unfold readWhole
    rw [e2]
    simp only [Option.bind_eq_bind, Option.bind_some]
    show (bodies H.vars.length H.zones rest).bind _ = _
    rw [hB]
    simp only [Option.bind_some, if_true]
  · intro i z hi
    have hil : i < s.f.Zones.length := (List.getElem?_eq_some_iff.mp hi).1
    have hzi : ZZ i = z := getD_some hi
    have fit := h.zones z (List.mem_of_getElem? hi)
    refine ⟨(ZZ i).body (data i) (mm i), by rw [List.getElem?_map, List.getElem?_range hil]; rfl, ?_⟩
    rw [hzi]
    have val : ∀ j d, z.Data[j]? = some d → (z.body (data i) (mm i)).values[j]? = some (z.column d.size (data i j)) := by
      intro j d hj
      have hjl : j < z.Data.length := (List.getElem?_eq_some_iff.mp hj).1
      show ((List.range z.Data.length).map _)[j]? = _
      rw [List.getElem?_map, List.getElem?_range hjl, Option.map_some, getD_some hj]
    refine ⟨rfl, (List.length_map ..).trans (List.length_range ..), (List.length_map ..).trans (List.length_range ..), val, ?_⟩
    intro j d x hj hx hf
    rw [val j d hj] at hx
    obtain rfl := Option.some.inj hx
    have hjl : j < z.Data.length := (List.getElem?_eq_some_iff.mp hj).1
    obtain ⟨k1, k2, k3⟩ := typed i z j d hi hj
    obtain ⟨Z, L, T, hf', hZ, hL, hz⟩ := w.file
    obtain ⟨z', l', l'', -, -, dn, -⟩ := hz i z hi
    obtain ⟨a, b, c⟩ := range_of fit k1 k2 k3 hf (dn.minmax j d hj)
    refine ⟨(mm i j).1.toNat, (mm i j).2.toNat, ?_, a, b, c⟩
    show ((List.range z.Data.length).map _)[j]? = _
    rw [List.getElem?_map, List.getElem?_range hjl]
    rfl

/-- the hypotheses hold for the example, and what a reader finds in its file: two zones, in each one variable of
bytes and one of 16-bit integers -/
example : Ready demoState demoBytes ∧ FileTexts demoState.f ∧ Typed demoState.f ∧
    (((Res.state (TecFile.write_plt demoEnv true demoState)).bind (fun s => s.fs (lit "dir/name.plt"))).bind readWhole).map Prod.snd =
    (let b : ZoneBody := ⟨[5, 4], [(4607182418800017408, 4631811479262199808), (13897367654106136576, 4668853476246159360)],
      [[1, 4, 7, 21, 24, 27, 41, 44, 47], [4623, 9249, 13875, 35463, 40089, 44715, 767, 5137, 9763]]⟩
     some [b, b]) := by
  refine ⟨demoReady, demoTexts, ?_, by decide +kernel⟩
  intro z hz d hd
  have : z = demoVars ∨ z = demoSecond := by simpa [demoState, demoFile] using hz
  have hd : d ∈ demoVars.Data := by rcases this with rfl | rfl <;> exact hd
  have : d = { type := .byte, size := 1, DataP := .at 0 0 } ∨ d = { type := .shortint, size := 2, DataP := .at 1 3 } := by
    simpa [demoVars] using hd
  rcases this with rfl | rfl <;> decide

/-- With a size that does not belong to the type — `type` and `size` are public — the file is not one of the format. -/
theorem C60_untyped :
    ((Res.state (TecFile.write_plt demoEnv true { demoState with f := { demoFile with Zones := [{ demoVars with
      Data := [{ type := .byte, size := 1, DataP := .at 0 0 }, { type := .byte, size := 2, DataP := .at 1 3 }] }] } })).bind
      (fun s => s.fs (lit "dir/name.plt"))).map (fun c => ((readHead c).isSome, readWhole c)) = some (true, none) := by decide +kernel

end Verif.Props
