import Verif.Proof.Export2
/-!
# Arrays in a Tecplot file: the bytes of an array
-/
set_option linter.unusedSimpArgs false
namespace Verif
open Spec Tec
variable {V : Type} {mem : Nat → Nat → Bool} {chk : Bool} {w w₀ w₁ : World V} {aw aw₀ aw₁ : AWorld V} {L L₀ L₁ : List Nat}

theorem window_length {α : Type} (c : Nat → α) (o n : Nat) : (window c o n).length = n := by simp [window]

theorem window_map {α β : Type} (c : Nat → α) (f : α → β) (o n : Nat) : (window c o n).map f = window (fun i => f (c i)) o n := by
  simp [window, Function.comp_def]

theorem window_item {α : Type} (c : Nat → α) (o n size m : Nat) (h : (m + 1) * size ≤ n) :
    item size (window c o n) (m : Int) = window c (o + m * size) size := by
  unfold item window
  rw [Int.toNat_natCast, ← List.map_drop, ← List.map_take, List.drop_range', List.take_range'_of_length_ge]
  · rw [Nat.mul_one, Nat.mul_comm]
  · have : (m + 1) * size = m * size + size := Nat.succ_mul ..
    rw [Nat.mul_comm size m]; omega

theorem dataPt_move (R₀ : Rel mem w₀ aw₀ L₀) (R₁ : Rel mem w₁ aw₁ L₁) (same : w₁.objs = w₀.objs) {y n : Nat} {k : Kind} {es : List Ext}
    {v₀ v₁ : Nat → List Int → Option V} (h₀ : aw₀.arr y = some (k, .ready es v₀)) (h₁ : aw₁.arr y = some (k, .ready es v₁)) (hn : n < k.N)
    {size : Nat} {p : Ptr} (hp : IsDataPt chk w₀ size y n p) :
    ∃ B cell, p = .at B (n * points (mkShape es k.locs) * size) ∧ w₁.h.blk B = some (.vals (k.N * points (mkShape es k.locs)) cell) ∧
      ∀ ys, HasPt (mkShape es k.locs) ys → cell (n * points (mkShape es k.locs) + offset (mkShape es k.locs) ys) = v₁ n ys := by
  obtain ⟨k', o', q, ho', hq, rfl⟩ := hp
  obtain ⟨o, ho, -, -, r⟩ := R₀.arr_some h₀
  rw [ho] at ho'; cases ho'
  obtain ⟨o1, ho1, -, -, r1⟩ := R₁.arr_some h₁
  rw [same, ho] at ho1; cases ho1
  cases r with
  | @ready _ _ B c r fits pos vals =>
    cases r1 with
    | @ready _ _ B1 c1 r1 fits1 pos1 vals1 =>
      have e : B1 = B := by
        cases r with
        | d1 r => cases r1 with | d1 r1 => have := r.data.symm.trans r1.data; cases this; rfl
        | d2 r => cases r1 with | d2 r1 => have := r.data.symm.trans r1.data; cases this; rfl
        | d3 r => cases r1 with | d3 r1 => have := r.data.symm.trans r1.data; cases this; rfl
      subst e
      rw [Obj.data_pt_eq chk r fits pos hn] at hq
      cases hq
      exact ⟨B1, c1, rfl, r1.blk, fun ys h => vals1 n hn ys h⟩

/-- the bytes of a component -/
theorem var_bytes (R₀ : Rel mem w₀ aw₀ L₀) (R₁ : Rel mem w₁ aw₁ L₁) (same : w₁.objs = w₀.objs) {y n : Nat} {k : Kind} {es : List Ext}
    {v₀ v₁ : Nat → List Int → Option V} (h₀ : aw₀.arr y = some (k, .ready es v₀)) (h₁ : aw₁.arr y = some (k, .ready es v₁)) (hn : n < k.N)
    {size : Nat} {enc : V → Str} {b : Heap Byte} (bv : ByteView size enc w₁.h b) {p : Ptr} (hp : IsDataPt chk w₀ size y n p) :
    ∃ bytes : Str, bytes.length = points (mkShape es k.locs) * size ∧ Holds b p (bytes.map some) ∧
      ∀ ys v, HasPt (mkShape es k.locs) ys → v₁ n ys = some v → item size bytes (offset (mkShape es k.locs) ys : Nat) = enc v := by
  obtain ⟨B, cell, rfl, hb, hc⟩ := dataPt_move R₀ R₁ same h₀ h₁ hn hp
  generalize mkShape es k.locs = sh at *
  obtain ⟨d, hd, he⟩ := bv.vals _ _ _ hb
  have hN : n * points sh + points sh ≤ k.N * points sh := by
    rw [← Nat.succ_mul]; exact Nat.mul_le_mul_right _ hn
  refine ⟨window d (n * points sh * size) (points sh * size), window_length .., ?_, ?_⟩
  · refine ⟨B, _, _, _, rfl, hd, ?_, ?_⟩
    · rw [List.length_map, window_length, ← Nat.add_mul]
      exact Nat.mul_le_mul_right _ hN
    · rw [List.length_map, window_length, window_map]
  · intro ys v hy hv
    have ho := offset_lt hy
    rw [window_item _ _ _ _ _ (Nat.mul_le_mul_right _ ho), ← Nat.add_mul]
    exact he _ (by omega) v (by rw [hc ys hy, hv])

/-! ## The zone -/

theorem zoneFor_max {sh : Shape} {z : Zone} (h : ZoneFor sh z) : z.Max.x * z.Max.y * z.Max.z = (points sh : Int) := by
  match sh, h with
  | [d0], h =>
    have a := congrArg DimSel.max h.1
    have b := congrArg DimSel.max h.2.1
    have c := congrArg DimSel.max h.2.2
    simp only [Zone.sel, interiorSel, unitSel] at a b c
    rw [a, b, c]; simp [points]
  | [d0, d1], h =>
    have a := congrArg DimSel.max h.1
    have b := congrArg DimSel.max h.2.1
    have c := congrArg DimSel.max h.2.2
    simp only [Zone.sel, interiorSel, unitSel] at a b c
    rw [a, b, c]; simp [points]; ring
  | [d0, d1, d2], h =>
    have a := congrArg DimSel.max h.1
    have b := congrArg DimSel.max h.2.1
    have c := congrArg DimSel.max h.2.2
    simp only [Zone.sel, interiorSel, unitSel] at a b c
    rw [a, b, c]; simp [points]; ring

/-- a selection of the interior is fine -/
def SelFine (d : DimSel) : Prop := d.Sane ∧ d.Accepted ∧ d.skip = 1 ∧ d.max ≤ 2147483647

theorem interior_fine {d : Dim} (h1 : 1 ≤ d.ext.i) (h2 : d.ext.n + d.ext.i + d.ext.p + 1 < 2147483648) : SelFine (interiorSel d) := by
  have : d.loc.toNat ≤ 1 := by cases d.loc <;> simp [Loc.toNat]
  refine ⟨⟨?_, ?_, ?_, ?_, ?_, ?_⟩, ?_, rfl, ?_⟩ <;> simp only [interiorSel, InI32, Dim.width, DimSel.Accepted] <;> omega

theorem unit_fine : SelFine unitSel := by
  refine ⟨⟨?_, ?_, ?_, ?_, ?_, ?_⟩, ?_, rfl, ?_⟩ <;> simp only [unitSel, InI32, DimSel.Accepted] <;> omega

theorem zoneFor_fine {sh : Shape} {z : Zone} (h : ZoneFor sh z) (h1 : ∀ d ∈ sh, 1 ≤ d.ext.i) (h2 : ∀ d ∈ sh, d.ext.n + d.ext.i + d.ext.p + 1 < 2147483648) :
    ∀ i < 3, SelFine (z.sel i) := by
  intro i hi
  match sh, h with
  | [d0], h =>
    have a := interior_fine (h1 d0 (by simp)) (h2 d0 (by simp))
    match i, hi with
    | 0, _ => rw [h.1]; exact a
    | 1, _ => rw [h.2.1]; exact unit_fine
    | 2, _ => rw [h.2.2]; exact unit_fine
  | [d0, d1], h =>
    have a := interior_fine (h1 d0 (by simp)) (h2 d0 (by simp))
    have b := interior_fine (h1 d1 (by simp)) (h2 d1 (by simp))
    match i, hi with
    | 0, _ => rw [h.1]; exact b
    | 1, _ => rw [h.2.1]; exact a
    | 2, _ => rw [h.2.2]; exact unit_fine
  | [d0, d1, d2], h =>
    have a := interior_fine (h1 d0 (by simp)) (h2 d0 (by simp))
    have b := interior_fine (h1 d1 (by simp)) (h2 d1 (by simp))
    have c := interior_fine (h1 d2 (by simp)) (h2 d2 (by simp))
    match i, hi with
    | 0, _ => rw [h.1]; exact c
    | 1, _ => rw [h.2.1]; exact b
    | 2, _ => rw [h.2.2]; exact a

theorem zoneFor_fits {sh : Shape} {z : Zone} (h : ZoneFor sh z) (h1 : ∀ d ∈ sh, 1 ≤ d.ext.i)
    (h2 : ∀ d ∈ sh, d.ext.n + d.ext.i + d.ext.p + 1 < 2147483648) (h3 : points sh ≤ 2147483647) : z.Fits := by
  have F := zoneFor_fine h h1 h2
  refine ⟨fun i hi => (F i hi).1, fun i hi => (F i hi).2.1, ?_, ?_⟩
  · rw [zoneFor_max h]; omega
  · intro i hi s hs
    obtain ⟨a, b, c, e⟩ := F i hi
    obtain ⟨q1, q2, -⟩ := mem_picks.1 hs
    rw [c]
    have := a.head
    have := a.tail
    unfold InI32
    omega

/-- rank and bounds of an allocated array -/
theorem Rel.rank (R : Rel mem w aw L) {x : Nat} {k : Kind} {es : List Ext} {val : Nat → List Int → Option V}
    (hx : aw.arr x = some (k, .ready es val)) : es.length = k.locs.length ∧ 1 ≤ es.length ∧ es.length ≤ 3 ∧ ShapeFits k.N (mkShape es k.locs) := by
  obtain ⟨o, ho, hk, h0, r⟩ := R.arr_some hx
  cases r with
  | ready r fits pos vals =>
    refine ⟨r.len, ?_, ?_, fits⟩ <;> cases r <;> simp

theorem mkShape_ext {es : List Ext} {ls : List Loc} {d : Dim} (h : d ∈ mkShape es ls) : d.ext ∈ es := by
  induction es generalizing ls with
  | nil => simp [mkShape] at h
  | cons e es ih =>
    cases ls with
    | nil => simp [mkShape] at h
    | cons l ls =>
      simp only [mkShape, List.mem_cons] at h
      rcases h with rfl | h
      · simp
      · simp [ih h]

theorem mkShape_map {es : List Ext} {ls : List Loc} (hl : es.length = ls.length) :
    ((mkShape es ls).map fun d => d.ext.i) = es.map fun e => e.i := by
  induction es generalizing ls with
  | nil => simp [mkShape]
  | cons e es ih =>
    cases ls with
    | nil => simp at hl
    | cons l ls => simp [mkShape, ih (by simpa using hl)]

end Verif
