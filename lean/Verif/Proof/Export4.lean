import Verif.Proof.Export3
/-!
# Arrays described to a zone: the file can be written
-/
set_option linter.unusedSimpArgs false
namespace Verif
open Spec Tec Props
variable {V : Type} {mem : Nat → Nat → Bool} {chk : Bool} {w₀ w₁ : World V} {aw₀ aw₁ : AWorld V}

/-- the bytes of the variables, and that all `write_plt` asks for is there -/
theorem export_ready {E : Env} {s : FSt} (R₀ : Reach mem chk w₀ aw₀) (R₁ : Reach mem chk w₁ aw₁) (same : w₁.objs = w₀.objs)
    {es : List Ext} {locs : List Loc} {z : Zone} (hz : ZoneFor (mkShape es locs) z) {T : CType} {t : TecType} (hT : (T, t) ∈ tecTypes)
    {vs : List (Nat × Nat)} (hv : VarsAre chk w₀ t T.size vs z.Data) {F : Nat → List Int → V} (fill : Filled aw₀ aw₁ es locs vs F)
    (pos : ∀ e ∈ es, 1 ≤ e.i) (pts : points (mkShape es locs) ≤ 2147483647)
    (one : OneZone s.f z) {enc : V → Str} (bytes : ByteView T.size enc w₁.h s.h)
    (brief : s.f.Brief E) (len : s.f.lengthOf Zone.selectedPoints < 9223372036854775808) :
    ∃ data : Nat → Str, Writable E s (fun _ => data) ∧ s.f.Valid ∧ Props.Typed s.f ∧ es.length = locs.length ∧
      ∀ (j y n : Nat), vs[j]? = some (y, n) → ∃ p, z.Data[j]? = some { type := t, size := T.size, DataP := p, buf := .null } ∧
        (data j).length = points (mkShape es locs) * T.size ∧ Holds s.h p ((data j).map some) ∧
        ∀ q ∈ blockPts (es.map fun e => e.i), item T.size (data j) (offset (mkShape es locs) q : Nat) = enc (F j q) := by
  obtain ⟨L₀, Q₀⟩ := R₀.rel
  obtain ⟨L₁, Q₁⟩ := R₁.rel
  obtain ⟨-, hnull, hsize⟩ := C61 (T := ⟨T, false, false⟩) .null hT rfl
  simp only at hsize
  -- a variable
  have hne : vs ≠ [] := by
    intro e
    have := one.names
    rw [hv.1, e] at this
    exact one.vars (List.length_eq_zero_iff.1 this.symm)
  have each : ∀ (j y n : Nat), vs[j]? = some (y, n) → ∃ data : Str, ∃ p, z.Data[j]? = some { type := t, size := T.size, DataP := p, buf := .null } ∧
      data.length = points (mkShape es locs) * T.size ∧ Holds s.h p (data.map some) ∧
      ∀ q ∈ blockPts (es.map fun e => e.i), item T.size data (offset (mkShape es locs) q : Nat) = enc (F j q) := by
    intro j y n hj
    obtain ⟨k, v₀, v₁, h0, h1, rfl, hn, hF⟩ := fill j y n hj
    obtain ⟨p, hp, hd⟩ := hv.2 j y n hj
    obtain ⟨data, d1, d2, d3⟩ := var_bytes Q₀ Q₁ same h0 h1 hn bytes hp
    exact ⟨data, p, hd, d1, d2, fun q hq => d3 q _ (blockPts_has (Q₀.rank h0).1 hq) (hF q hq)⟩
  obtain ⟨data, hdata⟩ : ∃ data : Nat → Str, ∀ (j y n : Nat), vs[j]? = some (y, n) → ∃ p, z.Data[j]? = some { type := t, size := T.size, DataP := p, buf := .null } ∧
      (data j).length = points (mkShape es locs) * T.size ∧ Holds s.h p ((data j).map some) ∧
      ∀ q ∈ blockPts (es.map fun e => e.i), item T.size (data j) (offset (mkShape es locs) q : Nat) = enc (F j q) := by
    classical
    have : ∀ j, ∃ data : Str, ∀ (y n : Nat), vs[j]? = some (y, n) → ∃ p, z.Data[j]? = some { type := t, size := T.size, DataP := p, buf := .null } ∧
      data.length = points (mkShape es locs) * T.size ∧ Holds s.h p (data.map some) ∧
      ∀ q ∈ blockPts (es.map fun e => e.i), item T.size data (offset (mkShape es locs) q : Nat) = enc (F j q) := by
      intro j
      cases hj : vs[j]? with
      | none => exact ⟨[], fun y n h => by cases h⟩
      | some v =>
        obtain ⟨d, h⟩ := each j v.1 v.2 hj
        exact ⟨d, fun y n e => by cases e; exact h⟩
    choose data h using this
    exact ⟨data, fun j y n hj => h j y n hj⟩
  have entry : ∀ (j : Nat) (d : TecData), z.Data[j]? = some d → ∃ y n, vs[j]? = some (y, n) := by
    intro j d hj
    have : j < vs.length := by rw [← hv.1]; exact (List.getElem?_eq_some_iff.1 hj).1
    exact ⟨_, _, List.getElem?_eq_getElem this⟩
  obtain ⟨⟨y0, n0⟩, vs', hvs⟩ := List.exists_cons_of_ne_nil hne
  obtain ⟨k, v₀, v₁, h0, h1, hk, hn, -⟩ := fill 0 y0 n0 (by rw [hvs]; rfl)
  obtain ⟨hlen, -, -, fits⟩ := Q₀.rank h0
  rw [hk] at hlen fits
  have hp : ∀ d ∈ mkShape es locs, 1 ≤ d.ext.i := fun d hd => pos _ (mkShape_ext hd)
  have zf : z.Fits := zoneFor_fits hz hp fits.1 pts
  have fine := zoneFor_fine hz hp fits.1
  have hmax := zoneFor_max hz
  have zmem : ∀ y, y ∈ s.f.Zones ↔ y = z := by intro y; rw [one.zones]; simp
  have zget : ∀ i y, s.f.Zones[i]? = some y → i = 0 ∧ y = z := by
    intro i y h
    rw [one.zones] at h
    cases i with
    | zero => cases h; exact ⟨rfl, rfl⟩
    | succ i => simp at h
  have dataEq : ∀ d ∈ z.Data, d.type = t ∧ d.size = T.size ∧ d.DataP ≠ .null := by
    intro d hd
    obtain ⟨j, hj⟩ := List.getElem?_of_mem hd
    obtain ⟨y, n, hyn⟩ := entry j d hj
    obtain ⟨p, h, -, hh, -⟩ := hdata j y n hyn
    rw [hj] at h; cases h
    refine ⟨rfl, rfl, ?_⟩
    obtain ⟨b, o, l, c, rfl, -⟩ := hh
    simp
  have tsmall : T.size ≤ 8 := by
    simp only [tecTypes, List.mem_cons, List.not_mem_nil, or_false, Prod.mk.injEq] at hT
    rcases hT with ⟨rfl, -⟩ | ⟨rfl, -⟩ | ⟨rfl, -⟩ | ⟨rfl, -⟩ | ⟨rfl, -⟩ <;> decide
  have tpos : 0 < T.size := by
    simp only [tecTypes, List.mem_cons, List.not_mem_nil, or_false, Prod.mk.injEq] at hT
    rcases hT with ⟨rfl, -⟩ | ⟨rfl, -⟩ | ⟨rfl, -⟩ | ⟨rfl, -⟩ | ⟨rfl, -⟩ <;> decide
  have ready : Ready s (fun _ => data) := by
    refine ⟨fun y hy => by rw [(zmem y).1 hy]; exact zf, bytes.fresh, ?_⟩
    intro i y j d hi hj
    obtain ⟨rfl, rfl⟩ := zget i y hi
    obtain ⟨y', n, hyn⟩ := entry j d hj
    obtain ⟨p, h, hl, hh, -⟩ := hdata j y' n hyn
    rw [hj] at h; cases h
    refine ⟨?_, ?_, hh⟩
    · rw [hmax]
      show ((points (mkShape es locs) : Nat) : Int) * ((T.size : Nat) : Int) < _
      have : points (mkShape es locs) * T.size ≤ 2147483647 * 8 := Nat.mul_le_mul pts tsmall
      omega
    · rw [hl]
      unfold wholeBytes
      show _ = (y.Max.x * y.Max.y * y.Max.z).toNat * _
      rw [hmax, Int.toNat_natCast]
  have valid : s.f.Valid := by
    refine ⟨one.vars, by rw [one.zones]; simp, ?_⟩
    intro y hy
    rw [(zmem y).1 hy]
    refine ⟨fun i hi => by rw [(fine i hi).2.2.1]; decide, zf.acc, one.names, ?_⟩
    intro d hd
    obtain ⟨a, b, c⟩ := dataEq d hd
    refine ⟨c, by rw [a]; exact hnull, by rw [b]; omega⟩
  have wr : Writable E s (fun _ => data) := by
    refine ⟨ready, brief, ?_, len⟩
    intro y hy d hd
    rw [(zmem y).1 hy] at hd
    obtain ⟨a, b, c⟩ := dataEq d hd
    rw [a, b, hsize]
  have typed : Props.Typed s.f := by
    intro y hy d hd
    rw [(zmem y).1 hy] at hd
    obtain ⟨a, b, c⟩ := dataEq d hd
    rw [a, b]
    exact ⟨hnull, hsize⟩
  exact ⟨data, wr, valid, typed, hlen, hdata⟩

end Verif
