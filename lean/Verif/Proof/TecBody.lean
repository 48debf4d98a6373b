import Verif.Proof.TecHead
import Verif.Proof.TecValue
import Verif.Proof.TecW6
import Verif.Spec.TecBody
/-!
# The data section can be read back
-/
namespace Verif.Tec
open Spec

theorem leVal_little (l : Str) : leVal l = little l := by
  induction l with
  | nil => rfl
  | cons b l ih => show _ + 256 * leVal l = _ + 256 * little l; rw [ih]

theorem times_read {α β : Type} {item : Bytes → Option (β × Bytes)} (g : α → Bytes) (v : α → β) (l : List α) (r : Bytes)
    (hi : ∀ a ∈ l, ∀ r, item (g a ++ r) = some (v a, r)) : times item l.length (l.flatMap g ++ r) = some (l.map v, r) := by
  induction l with
  | nil => rfl
  | cons a l ih =>
    rw [List.flatMap_cons, List.append_assoc, List.length_cons]
    unfold times
    rw [hi a (by simp)]
    simp only [Option.bind_eq_bind, Option.bind_some]
    rw [ih (fun b hb => hi b (by simp [hb]))]
    rfl

theorem number_read {w : Nat} {a : Bytes} (h : a.length = w) (r : Bytes) : number w (a ++ r) = some (little a, r) := by
  unfold number; rw [next_append h]; rfl

theorem range_read (mm : F64 × F64) (r : Bytes) : Spec.range (mmBytes mm ++ r) = some ((mm.1.toNat, mm.2.toNat), r) := by
  unfold Spec.range mmBytes
  simp only [List.append_assoc, bits64_le, Option.bind_eq_bind, Option.bind_some]

theorem type_read (t : TecType) (r : Bytes) : word (int4 t.code ++ r) = some (t.code.toNat, r) := by
  have : t.code = (t.code.toNat : Int) := by cases t <;> rfl
  rw [this, word_int (by cases t <;> decide)]
  rfl

theorem width_type {t : TecType} (h : t ≠ .null) : width t.code.toNat = some t.bytes := by
  cases t <;> first | rfl | exact absurd rfl h

theorem range_flatMap_succ (n : Nat) (b : Nat → Bytes) : (List.range (n + 1)).flatMap b = b 0 ++ (List.range n).flatMap fun i => b (i + 1) := by
  rw [List.range_succ_eq_map, List.flatMap_cons, List.flatMap_map]

theorem range_map_succ {α : Type} (n : Nat) (v : Nat → α) : (List.range (n + 1)).map v = v 0 :: (List.range n).map fun i => v (i + 1) := by
  rw [List.range_succ_eq_map, List.map_cons, List.map_map]; rfl

theorem columns_read {N : Nat} (D : List TecData) (b : Nat → Bytes) (v : Nat → List Nat) (r : Bytes)
    (h : ∀ j d, D[j]? = some d → ∃ w, width d.type.code.toNat = some w ∧ ∀ r, times (number w) N (b j ++ r) = some (v j, r)) :
    columns N (D.map fun d => d.type.code.toNat) ((List.range D.length).flatMap b ++ r) = some ((List.range D.length).map v, r) := by
  induction D generalizing b v with
  | nil => rfl
  | cons d D ih =>
    rw [List.length_cons, range_flatMap_succ, range_map_succ, List.map_cons, List.append_assoc]
    unfold columns
    obtain ⟨w, e1, e2⟩ := h 0 d rfl
    rw [e1]
    simp only [Option.bind_eq_bind, Option.bind_some]
    rw [e2]
    simp only [Option.bind_some]
    rw [ih (fun i => b (i + 1)) (fun i => v (i + 1)) (fun j d hj => h (j + 1) d hj)]
    rfl

theorem bodies_read {n : Nat} (H : List ZoneHead) (b : Nat → Bytes) (v : Nat → ZoneBody)
    (h : ∀ i z, H[i]? = some z → ∀ r, zoneBody n (z.size.1 * z.size.2.1 * z.size.2.2).toNat (b i ++ r) = some (v i, r)) (r : Bytes) :
    bodies n H ((List.range H.length).flatMap b ++ r) = some ((List.range H.length).map v, r) := by
  induction H generalizing b v with
  | nil => rfl
  | cons z H ih =>
    rw [List.length_cons, range_flatMap_succ, range_map_succ, List.append_assoc]
    unfold bodies
    rw [h 0 z rfl]
    simp only [Option.bind_eq_bind, Option.bind_some]
    rw [ih (fun i => b (i + 1)) (fun i => v (i + 1)) (fun j d hj => h (j + 1) d hj)]
    rfl

/-- the values of a variable in the file -/
def Zone.column (z : Zone) (size : Nat) (data : Str) : List Nat :=
  (selection (z.sel 0) (z.sel 1) (z.sel 2)).map fun p => little (item size data (place (z.sel 0) (z.sel 1) p))

theorem Zone.item_length {z : Zone} (f : z.Fits) {size : Nat} {data : Str} (hl : data.length = z.total size) {p : Int × Int × Int}
    (hp : p ∈ selection (z.sel 0) (z.sel 1) (z.sel 2)) : (item size data (place (z.sel 0) (z.sel 1) p)).length = size := by
  obtain ⟨i, j, k⟩ := p
  rw [mem_selection] at hp
  obtain ⟨b0, b1⟩ := place_bound f.geo hp.1 hp.2.1 hp.2.2
  have : size * (place (z.sel 0) (z.sel 1) (i, j, k)).toNat + size ≤ z.total size := item_bound b0 b1
  unfold item
  rw [List.length_take, List.length_drop, hl]
  omega

theorem column_read {z : Zone} (f : z.Fits) {size : Nat} {data : Str} (hl : data.length = z.total size) (r : Bytes) :
    times (number size) z.points (z.block size data ++ r) = some (z.column size data, r) := by
  unfold Zone.points Zone.block selectedBytes Zone.column
  exact times_read _ _ _ r fun p hp r => number_read (Zone.item_length f hl hp) r

/-- what a reader finds in the data section of a zone -/
def Zone.body (z : Zone) (data : Nat → Str) (mm : Nat → F64 × F64) : ZoneBody where
  types := z.Data.map fun d => d.type.code.toNat
  ranges := (List.range z.Data.length).map fun j => ((mm j).1.toNat, (mm j).2.toNat)
  values := (List.range z.Data.length).map fun j => z.column (z.Data.getD j {}).size (data j)

theorem zoneBody_read {z : Zone} (f : z.Fits) {data : Nat → Str} (mm : Nat → F64 × F64)
    (hv : ∀ j d, z.Data[j]? = some d → (data j).length = z.total d.size ∧ d.type ≠ .null ∧ d.size = d.type.bytes) (r : Bytes) :
    zoneBody z.Data.length z.points (z.dataBytes data mm ++ r) = some (z.body data mm, r) := by
  unfold zoneBody Zone.dataBytes Zone.dataHead
  simp only [List.append_assoc, Option.bind_eq_bind]
  rw [show (0x43958000 : Nat) = f299 from rfl, expect_le (by decide), if_pos rfl]
  simp only [Option.bind_some]
  rw [times_read (fun d : TecData => int4 d.type.code) (fun d => d.type.code.toNat) z.Data _ (fun d _ r => type_read d.type r)]
  have e0 : toU32 0 = 0 := rfl
  have e1 : toU32 (-1) = 4294967295 := rfl
  simp only [Option.bind_some, expect_int, e0, e1, if_true]
  have hr := times_read (fun i => mmBytes (mm i)) (fun i => ((mm i).1.toNat, (mm i).2.toNat)) (List.range z.Data.length)
    ((List.range z.Data.length).flatMap (z.blockAt data) ++ r) (fun i _ r => range_read (mm i) r)
  rw [List.length_range] at hr
  rw [hr]
  simp only [Option.bind_some]
  rw [columns_read z.Data (z.blockAt data) (fun j => z.column (z.Data.getD j {}).size (data j)) r ?_]
  · rfl
  · intro j d hj
    obtain ⟨h1, h2, h3⟩ := hv j d hj
    refine ⟨d.size, by rw [h3]; exact width_type h2, fun r => ?_⟩
    have e : z.blockAt data j = z.block d.size (data j) := by unfold Zone.blockAt; rw [hj]
    have e' : (z.Data.getD j {}) = d := by rw [List.getD_eq_getElem?_getD, hj]; rfl
    rw [e, e', column_read f h1]

theorem chunk {α : Type} {w : Nat} (g : α → Bytes) (l : List α) (h : ∀ a ∈ l, (g a).length = w) {i : Nat} {a : α} (hi : l[i]? = some a) :
    ((l.flatMap g).drop (i * w)).take w = g a := by
  induction l generalizing i with
  | nil => simp at hi
  | cons b l ih =>
    have hb := h b (by simp)
    rw [List.flatMap_cons]
    cases i with
    | zero =>
      have : b = a := by simpa using hi
      rw [Nat.zero_mul, List.drop_zero, ← this, ← hb, List.take_left]
    | succ i =>
      have e : (i + 1) * w = (g b).length + i * w := by rw [hb, Nat.add_mul, Nat.one_mul, Nat.add_comm]
      rw [e, ← List.drop_drop, List.drop_left, ih (fun a ha => h a (by simp [ha])) (by simpa using hi)]

theorem column_elem {z : Zone} (f : z.Fits) {size : Nat} {data : Str} (hl : data.length = z.total size) {i : Nat} {n : Nat}
    (hi : (z.column size data)[i]? = some n) : elem size (z.block size data) i = n := by
  unfold Zone.column at hi
  rw [List.getElem?_map] at hi
  obtain ⟨p, hp, rfl⟩ := Option.map_eq_some_iff.mp hi
  unfold elem Zone.block selectedBytes
  rw [chunk _ _ (fun p hp => Zone.item_length f hl hp) hp, leVal_little]

theorem column_length (z : Zone) (size : Nat) (data : Str) : (z.column size data).length = z.points := by
  unfold Zone.column Zone.points; rw [List.length_map]

theorem column_lt {z : Zone} (f : z.Fits) {size : Nat} {data : Str} (hl : data.length = z.total size) {n : Nat}
    (hn : n ∈ z.column size data) : n < 2 ^ (8 * size) := by
  unfold Zone.column at hn
  obtain ⟨p, hp, rfl⟩ := List.mem_map.mp hn
  have := leVal_lt (item size data (place (z.sel 0) (z.sel 1) p))
  rw [Zone.item_length f hl hp, leVal_little] at this
  exact this

/-- the numbers stored as minimum and maximum of a variable with finite values -/
theorem range_of {z : Zone} (f : z.Fits) {d : TecData} {data : Str} {mm : F64 × F64} (hl : data.length = z.total d.size)
    (ht : d.type ≠ .null) (hs : d.size = d.type.bytes) (hf : ∀ n ∈ z.column d.size data, Finite d.type n)
    (m : MinMaxOf d z.points (z.block d.size data) mm) :
    (∃ n ∈ z.column d.size data, scaled 64 52 mm.1.toNat = value d.type n) ∧
    (∃ n ∈ z.column d.size data, scaled 64 52 mm.2.toNat = value d.type n) ∧
    ∀ n ∈ z.column d.size data, scaled 64 52 mm.1.toNat ≤ value d.type n ∧ value d.type n ≤ scaled 64 52 mm.2.toNat := by
  have el : ∀ i < z.points, ∃ n ∈ z.column d.size data, (z.column d.size data)[i]? = some n ∧ elem d.type.bytes (z.block d.size data) i = n := by
    intro i hi
    rw [← column_length z d.size data] at hi
    have e : (z.column d.size data)[i]? = some (z.column d.size data)[i] := List.getElem?_eq_getElem hi
    exact ⟨_, List.getElem_mem hi, e, by rw [← hs]; exact column_elem f hl e⟩
  obtain ⟨k, e, mn⟩ := m ht hs (fun i hi => by
    obtain ⟨n, hn, -, en⟩ := el i hi
    rw [en]; exact (hf n hn).key)
  obtain ⟨i1, l1, h1⟩ := mn.min_mem
  obtain ⟨i2, l2, h2⟩ := mn.max_mem
  obtain ⟨n1, m1, -, e1⟩ := el i1 l1
  obtain ⟨n2, m2, -, e2⟩ := el i2 l2
  have k1 : k.1 = n1 := by rw [← h1, e1]
  have k2 : k.2 = n2 := by rw [← h2, e2]
  have ex : ∀ n ∈ z.column d.size data, scaled 64 52 (d.type.toF64 n).toNat = value d.type n := fun n hn =>
    toF64_exact ht (by rw [← hs]; exact column_lt f hl hn) (hf n hn)
  rw [e]
  simp only
  rw [k1, k2, ex n1 m1, ex n2 m2]
  refine ⟨⟨n1, m1, rfl⟩, ⟨n2, m2, rfl⟩, fun n hn => ?_⟩
  obtain ⟨i, hi, en⟩ := List.getElem_of_mem hn
  have hb := mn.bound i (by rw [← column_length z d.size data]; exact hi)
  have ee : elem d.type.bytes (z.block d.size data) i = n := by
    rw [← hs]; exact column_elem f hl (by rw [List.getElem?_eq_getElem hi, en])
  rw [ee, k1, k2] at hb
  exact ⟨value_mono (hf n1 m1) (hf n hn) hb.1, value_mono (hf n hn) (hf n2 m2) hb.2⟩

end Verif.Tec
