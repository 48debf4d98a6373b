import Verif.Spec.RoundTrip
import Verif.Proof.ReadPlt4
import Verif.Proof.TecW6
import Mathlib.Data.List.Forall2
/-!
# The round trip
-/
set_option linter.unusedSimpArgs false
namespace Verif
open Spec Tec
variable {V V' : Type}

theorem flatMap_get {α β : Type} (f : α → List β) (m : Nat) (l : List α) (h : ∀ a ∈ l, (f a).length = m) {i j : Nat} (hj : j < m) :
    (l.flatMap f)[i * m + j]? = l[i]?.bind fun a => (f a)[j]? := by
  induction l generalizing i with
  | nil => simp
  | cons a l ih =>
    have ha := h a (by simp)
    rw [List.flatMap_cons]
    cases i with
    | zero =>
      rw [Nat.zero_mul, Nat.zero_add, List.getElem?_append_left (by omega)]
      simp
    | succ i =>
      rw [List.getElem?_append_right (by rw [ha, Nat.add_mul, Nat.one_mul]; omega), ha,
        show (i + 1) * m + j - m = i * m + j by rw [Nat.add_mul, Nat.one_mul]; omega, ih (fun b hb => h b (by simp [hb]))]
      simp

theorem flatMap_item {α β : Type} (f : α → List β) (m : Nat) (l : List α) (h : ∀ a ∈ l, (f a).length = m) {i : Nat} {a : α}
    (hi : l[i]? = some a) : ((l.flatMap f).drop (i * m)).take m = f a := by
  induction l generalizing i with
  | nil => simp at hi
  | cons b l ih =>
    have hb := h b (by simp)
    rw [List.flatMap_cons]
    cases i with
    | zero =>
      simp at hi; subst hi
      rw [Nat.zero_mul, List.drop_zero, List.take_left' hb]
    | succ i =>
      rw [Nat.add_mul, Nat.one_mul, Nat.add_comm, ← List.drop_drop, List.drop_left' hb]
      exact ih (fun b hb => h b (by simp [hb])) (by simpa using hi)

theorem selection_get {x y z : DimSel} {i j k : Nat} {a b c : Int} (ha : x.picks[i]? = some a) (hb : y.picks[j]? = some b)
    (hc : z.picks[k]? = some c) :
    (selection x y z)[k * (y.picks.length * x.picks.length) + (j * x.picks.length + i)]? = some (a, b, c) := by
  have hi : i < x.picks.length := (List.getElem?_eq_some_iff.1 ha).1
  have hj : j < y.picks.length := (List.getElem?_eq_some_iff.1 hb).1
  have inner : ∀ c : Int, (y.picks.flatMap fun j => x.picks.map fun i => (i, j, c)).length = y.picks.length * x.picks.length := by
    intro c
    rw [List.length_flatMap]
    simp
  have h1 := mul_lt_of_idx hj (Nat.le_refl (y.picks.length * x.picks.length))
  unfold selection
  rw [flatMap_get _ _ _ (fun c _ => inner c) (by omega), hc, Option.bind_some,
    flatMap_get _ x.picks.length _ (fun c _ => by simp) hi, hb, Option.bind_some, List.getElem?_map, ha]
  rfl

theorem picks_one {d : DimSel} (h : d.skip = 1) {t : Nat} (ht : (t : Int) < d.max - d.tail - d.head) :
    d.picks[t]? = some (d.head + t) := by
  have hl : d.head ≤ d.max - d.tail := by omega
  have := length_picks (b := d.head) (e := d.max - d.tail) (k := 1) (by omega) hl
  unfold DimSel.picks
  rw [h]
  have ht' : t < (picks d.head (d.max - d.tail) 1).length := by omega
  rw [List.getElem?_eq_getElem ht', picks_getElem (by omega) ht']
  congr 1; omega

theorem count_one {d : DimSel} (h : d.skip = 1) (hl : d.head ≤ d.max - d.tail) : d.count = d.max - d.tail - d.head := by
  have := length_picks (b := d.head) (e := d.max - d.tail) (k := 1) (by omega) hl
  unfold DimSel.count DimSel.picks
  rw [h]; omega

theorem interiorSel_count (d : Dim) : (interiorSel d).count = d.ext.i := by
  rw [count_one rfl (by simp only [interiorSel, Dim.width]; omega)]
  simp only [interiorSel, Dim.width]; omega

theorem unitSel_count : unitSel.count = 1 := by
  rw [count_one rfl (by simp only [unitSel]; omega)]; rfl

theorem interiorSel_get (d : Dim) {y : Int} (h0 : 0 ≤ y) (h1 : y < d.ext.i) : (interiorSel d).picks[y.toNat]? = some (d.ext.n + y) := by
  rw [picks_one rfl (by simp only [interiorSel, Dim.width]; omega)]
  simp only [interiorSel]; congr 1; omega

theorem unitSel_get : unitSel.picks[0]? = some 0 := by
  rw [picks_one rfl (by simp only [unitSel]; omega)]; rfl

theorem picks_length (d : Dim) : (interiorSel d).picks.length = d.ext.i := by
  have := interiorSel_count d
  unfold DimSel.count at this
  omega

theorem unit_length : unitSel.picks.length = 1 := rfl

/-- the numbers of points the log tells are those of the interior -/
theorem zoneFor_sizes {sh : Shape} {z : Zone} (h : ZoneFor sh z) {l : ZoneLog}
    (hl : l.Real_Max = ⟨(z.sel 0).count, (z.sel 1).count, (z.sel 2).count⟩) :
    fileSizes sh.length l = sh.map fun d => (d.ext.i : Int) := by
  match sh, h with
  | [d0], h => simp only [fileSizes, List.length_cons, List.length_nil, Nat.zero_add, hl, h.1, interiorSel_count, List.map_cons, List.map_nil]
  | [d0, d1], h =>
    simp only [fileSizes, List.length_cons, List.length_nil, Nat.zero_add, hl, h.1, h.2.1, interiorSel_count, List.map_cons, List.map_nil]
  | [d0, d1, d2], h =>
    simp only [fileSizes, List.length_cons, List.length_nil, Nat.zero_add, hl, h.1, h.2.1, h.2.2, interiorSel_count, List.map_cons, List.map_nil]

/-- the selected point with the number `rowOf` is the point of the array -/
theorem zoneFor_get {sh : Shape} {z : Zone} (h : ZoneFor sh z) {ys : List Int} (hy : InBlock (sh.map fun d => (d.ext.i : Int)) ys) :
    ∃ p, (selection (z.sel 0) (z.sel 1) (z.sel 2))[rowOf (sh.map fun d => (d.ext.i : Int)) ys]? = some p ∧
      place (z.sel 0) (z.sel 1) p = offset sh ys := by
  match sh, h, ys, hy with
  | [d0], h, [y0], hy =>
    obtain ⟨a0, a1, -⟩ := hy
    have g := selection_get (interiorSel_get d0 a0 a1) unitSel_get unitSel_get
    rw [h.1, h.2.1, h.2.2]
    refine ⟨_, by rw [← g]; congr 1; simp only [rowOf, prod, List.map_cons, List.map_nil, picks_length]; omega, ?_⟩
    simp only [place, offset, points, unitSel]; omega
  | [d0, d1], h, [y0, y1], hy =>
    obtain ⟨a0, a1, b0, b1, -⟩ := hy
    have g := selection_get (interiorSel_get d1 b0 b1) (interiorSel_get d0 a0 a1) unitSel_get
    rw [h.1, h.2.1, h.2.2]
    refine ⟨_, by
      rw [← g]; congr 1
      simp only [rowOf, prod, List.map_cons, List.map_nil, picks_length, Int.toNat_natCast, Nat.mul_one, Nat.zero_mul, Nat.zero_add, Nat.add_zero], ?_⟩
    simp only [place, offset, points, interiorSel, Nat.mul_one, Nat.add_zero, Int.mul_zero, Int.add_zero]
    rw [Int.natCast_add, Int.natCast_mul, Int.toNat_of_nonneg (by omega), Int.toNat_of_nonneg (by omega)]
    ring
  | [d0, d1, d2], h, [y0, y1, y2], hy =>
    obtain ⟨a0, a1, b0, b1, c0, c1, -⟩ := hy
    have g := selection_get (interiorSel_get d2 c0 c1) (interiorSel_get d1 b0 b1) (interiorSel_get d0 a0 a1)
    rw [h.1, h.2.1, h.2.2]
    refine ⟨_, by
      rw [← g]; congr 1
      simp only [rowOf, prod, List.map_cons, List.map_nil, picks_length, Int.toNat_natCast, Nat.mul_one, Nat.add_zero], ?_⟩
    simp only [place, offset, points, interiorSel, Nat.mul_one, Nat.add_zero, Int.mul_zero, Int.add_zero]
    rw [Int.natCast_add, Int.natCast_add, Int.natCast_mul, Int.natCast_mul, Int.natCast_mul, Int.toNat_of_nonneg (by omega),
      Int.toNat_of_nonneg (by omega), Int.toNat_of_nonneg (by omega)]
    ring

/-- the bytes of a point of the array in the block of selected points -/
theorem selected_item {sh : Shape} {z : Zone} (h : ZoneFor sh z) (f : z.Fits) {size : Nat} {data : Str}
    (hl : data.length = wholeBytes (z.sel 0) (z.sel 1) (z.sel 2) size) {ys : List Int}
    (hy : InBlock (sh.map fun d => (d.ext.i : Int)) ys) :
    ((selectedBytes (z.sel 0) (z.sel 1) (z.sel 2) size data).drop (rowOf (sh.map fun d => (d.ext.i : Int)) ys * size)).take size =
      item size data (offset sh ys) := by
  obtain ⟨p, g1, g2⟩ := zoneFor_get h hy
  unfold selectedBytes
  rw [flatMap_item _ size _ ?_ g1, g2]
  rintro ⟨i, j, k⟩ hp
  rw [mem_selection] at hp
  obtain ⟨b0, b1⟩ := place_bound f.geo hp.1 hp.2.1 hp.2.2
  have : size * (place (z.sel 0) (z.sel 1) (i, j, k)).toNat + size ≤ z.total size := item_bound b0 b1
  have hl' : data.length = z.total size := hl
  unfold item
  rw [List.length_take, List.length_drop, hl']
  omega

theorem within_le {as bs : List Ext} (h : Within (as.map fun e => (e.i : Int)) (as.map fun e => (e.i : Int)))
    (le : List.Forall₂ (· ≤ ·) (as.map (·.i)) (bs.map (·.i))) : Within (as.map fun e => (e.i : Int)) (bs.map fun e => (e.i : Int)) := by
  induction as generalizing bs with
  | nil =>
    cases bs with
    | nil => trivial
    | cons b bs => cases le
  | cons a as ih =>
    cases bs with
    | nil => cases le
    | cons b bs =>
      simp only [List.map_cons, List.forall₂_cons] at le
      simp only [List.map_cons, Within] at h ⊢
      exact ⟨h.1, by have := le.1; omega, ih h.2.2 le.2⟩

theorem zoneFor_within {sh : Shape} {z : Zone} (h : ZoneFor sh z) (f : z.Fits) :
    Within (sh.map fun d => (d.ext.i : Int)) (sh.map fun d => (d.ext.i : Int)) := by
  have p0 := Sane.count_pos (f.sane 0 (by decide)) (f.acc 0 (by decide))
  have p1 := Sane.count_pos (f.sane 1 (by decide)) (f.acc 1 (by decide))
  have p2 := Sane.count_pos (f.sane 2 (by decide)) (f.acc 2 (by decide))
  match sh, h with
  | [d0], h =>
    rw [h.1, interiorSel_count] at p0
    simp only [List.map_cons, List.map_nil, Within]
    exact ⟨by omega, Int.le_refl _, trivial⟩
  | [d0, d1], h =>
    rw [h.1, interiorSel_count] at p0
    rw [h.2.1, interiorSel_count] at p1
    simp only [List.map_cons, List.map_nil, Within]
    exact ⟨by omega, Int.le_refl _, by omega, Int.le_refl _, trivial⟩
  | [d0, d1, d2], h =>
    rw [h.1, interiorSel_count] at p0
    rw [h.2.1, interiorSel_count] at p1
    rw [h.2.2, interiorSel_count] at p2
    simp only [List.map_cons, List.map_nil, Within]
    exact ⟨by omega, Int.le_refl _, by omega, Int.le_refl _, by omega, Int.le_refl _, trivial⟩

theorem zoneFor_prod {sh : Shape} {z : Zone} (h : ZoneFor sh z) :
    ((z.sel 0).count * (z.sel 1).count * (z.sel 2).count).toNat = prod (sh.map fun d => (d.ext.i : Int)) := by
  match sh, h with
  | [d0], h =>
    rw [h.1, h.2.1, h.2.2, interiorSel_count, unitSel_count]
    simp [prod]
  | [d0, d1], h =>
    rw [h.1, h.2.1, h.2.2, interiorSel_count, interiorSel_count, unitSel_count, Int.mul_one, ← Int.natCast_mul, Int.toNat_natCast]
    simp [prod, Nat.mul_comm]
  | [d0, d1, d2], h =>
    rw [h.1, h.2.1, h.2.2, interiorSel_count, interiorSel_count, interiorSel_count, ← Int.natCast_mul, ← Int.natCast_mul, Int.toNat_natCast]
    simp only [prod, List.map_cons, List.map_nil, Int.toNat_natCast, Nat.mul_one]
    ring

theorem count_int {z : Zone} (f : z.Fits) {i : Nat} (hi : i < 3) : InI32 (z.sel i).count := by
  have a := Sane.count_pos (f.sane i hi) (f.acc i hi)
  have b := Sane.count_le (f.sane i hi)
  have c := (f.sane i hi).max
  unfold InI32 at *
  omega

theorem mkShape_ins {es : List Ext} {ls : List Loc} (h : es.length = ls.length) :
    ((mkShape es ls).map fun d => (d.ext.i : Int)) = es.map fun e => (e.i : Int) := by
  induction es generalizing ls with
  | nil => cases ls <;> rfl
  | cons e es ih =>
    cases ls with
    | nil => simp at h
    | cons l ls => simp only [mkShape, List.map_cons]; rw [ih (by simpa using h)]

theorem rowOf_lt {rs ys : List Int} (h : InBlock rs ys) : rowOf rs ys < prod rs := by
  obtain ⟨xs, g, rfl⟩ := inBlock_iff.1 h
  rw [rowOf_nat]; exact rowIdx_lt g

theorem rowOf_surj {rs : List Int} {a : Nat} (h : a < prod rs) : ∃ ys, InBlock rs ys ∧ rowOf rs ys = a := by
  induction rs generalizing a with
  | nil => exact ⟨[], trivial, by simp only [prod] at h; simp only [rowOf]; omega⟩
  | cons r rs ih =>
    simp only [prod] at h
    have hp : 0 < prod rs := by
      rcases Nat.eq_zero_or_pos (prod rs) with h0 | h0
      · rw [h0, Nat.mul_zero] at h; omega
      · exact h0
    obtain ⟨ys, i1, i2⟩ := ih (Nat.mod_lt a hp)
    have hq : a / prod rs < r.toNat := Nat.div_lt_of_lt_mul (by rwa [Nat.mul_comm])
    have e := Nat.div_add_mod' a (prod rs)
    generalize a / prod rs = q at hq e
    refine ⟨(q : Int) :: ys, ⟨Int.natCast_nonneg _, by omega, i1⟩, ?_⟩
    simp only [rowOf, Int.toNat_natCast, i2]
    exact e

/-- the number the file has at a position depends on the bytes there only -/
theorem fileVal_bytes {C : Num V} {t : TecType} (ht : t = .float ∨ t = .double) {l e : Str} (he : e.length = t.bytes) {a : Nat}
    (h : (l.drop (a * t.bytes)).take t.bytes = e) : fileVal C t l a = fileVal C t e 0 := by
  unfold fileVal elem
  rcases ht with rfl | rfl
  · simp only [TecType.bytes] at h he
    rw [if_neg (by decide), if_neg (by decide), h, Nat.zero_mul, List.drop_zero, List.take_of_length_le (by omega)]
  · simp only [TecType.bytes] at h he
    rw [if_pos rfl, if_pos rfl, h, Nat.zero_mul, List.drop_zero, List.take_of_length_le (by omega)]

/-- the `a`-th item of a part of the file -/
theorem take_item {c b : Str} {pt n size a : Nat} (h : (c.drop pt).take (n * size) = b) (ha : a < n) :
    ((c.drop pt).drop (a * size)).take size = (b.drop (a * size)).take size := by
  have : a * size + size ≤ n * size := by
    calc a * size + size = (a + 1) * size := by rw [Nat.add_mul, Nat.one_mul]
      _ ≤ n * size := Nat.mul_le_mul_right _ ha
  rw [← h, List.drop_take, List.take_take, Nat.min_eq_left (by omega)]

end Verif
