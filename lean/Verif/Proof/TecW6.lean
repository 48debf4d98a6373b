import Verif.Proof.TecW5
/-!
# Where the variables are in a written file
-/
namespace Verif.Tec
open Spec

theorem range_flatMap_split {α : Type} (g : Nat → List α) {i n : Nat} (h : i < n) :
    (List.range n).flatMap g = (List.range i).flatMap g ++ (g i ++ (List.range' (i + 1) (n - i - 1)).flatMap g) := by
  have e : List.range n = List.range i ++ (i :: List.range' (i + 1) (n - i - 1)) := by
    rw [List.range_eq_range', List.range_eq_range', ← List.range'_succ]
    have := List.range'_append (s := 0) (m := i) (n := n - i - 1 + 1) (step := 1)
    simp only [Nat.one_mul, Nat.zero_add] at this
    rw [this]; congr 1; omega
  rw [e, List.flatMap_append, List.flatMap_cons]

theorem range_flatMap_mono {α : Type} (g : Nat → List α) {i n : Nat} (h : i ≤ n) :
    ((List.range i).flatMap g).length ≤ ((List.range n).flatMap g).length := by
  rcases Nat.lt_or_eq_of_le h with h | rfl
  · rw [range_flatMap_split g h, List.length_append]; omega
  · exact le_refl _

theorem range_flatMap_step {α : Type} (g : Nat → List α) {i n : Nat} (h : i < n) :
    ((List.range i).flatMap g).length + (g i).length ≤ ((List.range n).flatMap g).length := by
  rw [range_flatMap_split g h, List.length_append, List.length_append]; omega

theorem cut {α : Type} {c a b r : List α} (h : c = a ++ (b ++ r)) : (c.drop a.length).take b.length = b ∧ a.length + b.length ≤ c.length := by
  subst h
  constructor
  · rw [List.drop_left, List.take_left]
  · rw [List.length_append, List.length_append]; omega

theorem dataBytes_cut (z : Zone) (data : Nat → Str) (mm : Nat → F64 × F64) {j : Nat} (hj : j < z.Data.length) :
    ∃ a r, z.dataBytes data mm = a ++ (z.blockAt data j ++ r) ∧ a.length = z.preLen + ((List.range j).flatMap (z.blockAt data)).length := by
  refine ⟨z.dataHead ++ (List.range z.Data.length).flatMap (fun i => mmBytes (mm i)) ++ (List.range j).flatMap (z.blockAt data),
    (List.range' (j + 1) (z.Data.length - j - 1)).flatMap (z.blockAt data), ?_, ?_⟩
  · unfold Zone.dataBytes
    rw [range_flatMap_split (z.blockAt data) hj]
    simp only [List.append_assoc]
  · rw [List.length_append, List.length_append, mm_length]
    unfold Zone.preLen; omega

section
variable (pre : Str) (sec : Nat → Str)

theorem zoneBase_zero (i : Nat) : zoneBase pre.length sec 0 i = (pre ++ (List.range i).flatMap sec).length := by
  unfold zoneBase
  rw [List.length_append, List.range_eq_range']; rfl

theorem zoneBase_mono {i k : Nat} (h : i ≤ k) : zoneBase pre.length sec 0 i ≤ zoneBase pre.length sec 0 k := by
  rw [zoneBase_zero, zoneBase_zero, List.length_append, List.length_append]
  have := range_flatMap_mono sec h; omega

theorem zoneBase_step {i k : Nat} (h : i < k) : zoneBase pre.length sec 0 i + (sec i).length ≤ zoneBase pre.length sec 0 k := by
  rw [zoneBase_zero, zoneBase_zero, List.length_append, List.length_append]
  have := range_flatMap_step sec h; omega

end

/-- a variable of a zone of a file -/
theorem file_cut {pre c : Str} {n : Nat} (Z : Nat → Zone) (data : Nat → Nat → Str) (mm : Nat → Nat → F64 × F64)
    (hc : c = pre ++ (List.range n).flatMap fun i => (Z i).dataBytes (data i) (mm i)) {i j : Nat} (hi : i < n) (hj : j < (Z i).Data.length) :
    let pt := (Z i).start (data i) (zoneBase pre.length (fun i => (Z i).dataBytes (data i) (mm i)) 0 i) j
    (c.drop pt).take ((Z i).blockAt (data i) j).length = (Z i).blockAt (data i) j ∧ pt + ((Z i).blockAt (data i) j).length ≤ c.length := by
  intro pt
  obtain ⟨a, r, e, hl⟩ := dataBytes_cut (Z i) (data i) (mm i) hj
  rw [range_flatMap_split _ hi, e] at hc
  have hp : pt = (pre ++ ((List.range i).flatMap fun i => (Z i).dataBytes (data i) (mm i)) ++ a).length := by
    rw [List.length_append, hl, ← zoneBase_zero]
    show Zone.start _ _ _ _ = _
    unfold Zone.start; omega
  rw [hp]
  apply cut (r := r ++ (List.range' (i + 1) (n - i - 1)).flatMap fun i => (Z i).dataBytes (data i) (mm i))
  rw [hc]
  simp only [List.append_assoc]

theorem file_order {pre : Str} (Z : Nat → Zone) (data : Nat → Nat → Str) (mm : Nat → Nat → F64 × F64) {i j k l : Nat}
    (hj : j < (Z i).Data.length) (h : i < k ∨ (i = k ∧ j < l)) :
    let pt := fun i j => (Z i).start (data i) (zoneBase pre.length (fun i => (Z i).dataBytes (data i) (mm i)) 0 i) j
    pt i j + ((Z i).blockAt (data i) j).length ≤ pt k l := by
  intro pt
  show Zone.start _ _ _ _ + _ ≤ Zone.start _ _ _ _
  rcases h with h | ⟨rfl, h⟩
  · have := zoneBase_step pre (fun i => (Z i).dataBytes (data i) (mm i)) h
    have hb : (Z i).preLen + ((List.range j).flatMap ((Z i).blockAt (data i))).length + ((Z i).blockAt (data i) j).length ≤
        ((Z i).dataBytes (data i) (mm i)).length := by
      obtain ⟨a, r, e, hl⟩ := dataBytes_cut (Z i) (data i) (mm i) hj
      rw [e, List.length_append, List.length_append, hl]; omega
    unfold Zone.start
    omega
  · have := range_flatMap_step ((Z i).blockAt (data i)) h
    unfold Zone.start
    omega

end Verif.Tec
