import Mathlib.Data.List.Basic
import Verif.Spec.Tec
import Verif.Model.Tec.Zone
/-!
# Lemmas about zone sizes
-/
namespace Verif.Tec
open Spec

theorem upto_nil {b e : Int} (h : e ≤ b) : upto b e = [] := by
  unfold upto; rw [Int.toNat_of_nonpos (by omega)]; rfl

theorem upto_cons {b e : Int} (h : b < e) : upto b e = b :: upto (b + 1) e := by
  unfold upto
  have : (e - b).toNat = (e - (b + 1)).toNat + 1 := by omega
  rw [this, List.range_succ_eq_map, List.map_cons, List.map_map]
  congr 1
  · simp
  · apply List.map_congr_left; intro a _; simp only [Function.comp]; push_cast; omega

theorem upto_append {b c e : Int} (h1 : b ≤ c) (h2 : c ≤ e) : upto b e = upto b c ++ upto c e := by
  obtain ⟨n, hn⟩ : ∃ n : Nat, c = b + n := ⟨(c - b).toNat, by omega⟩
  subst hn
  clear h1
  induction n generalizing b with
  | zero => rw [upto_nil (b := b) (e := b + (0 : Nat)) (by simp)]; simp
  | succ n ih =>
    push_cast at h2 ⊢
    rw [upto_cons (b := b) (e := e) (by omega), upto_cons (b := b) (e := b + ((n : Int) + 1)) (by omega)]
    have := ih (b := b + 1) (by omega)
    rw [show b + 1 + (n : Int) = b + (n + 1) by omega] at this
    rw [this]; rfl

theorem mem_upto {b e s : Int} : s ∈ upto b e ↔ b ≤ s ∧ s < e := by
  unfold upto
  simp only [List.mem_map, List.mem_range]
  constructor
  · rintro ⟨t, h, rfl⟩; omega
  · intro h; exact ⟨(s - b).toNat, by omega, by omega⟩

theorem picks_nil {b e k : Int} (h : e ≤ b) : picks b e k = [] := by
  unfold picks; rw [upto_nil h]; rfl

/-- the selected indices, one stride at a time -/
theorem picks_cons {b e k : Int} (hk : 0 < k) (h : b < e) : picks b e k = b :: picks (b + k) e k := by
  have tail : ∀ c, (upto (b + k) c).filter (fun s => (s - b) % k = 0) = picks (b + k) c k := by
    intro c
    unfold picks
    apply List.filter_congr
    intro s _
    have : (s - (b + k)) % k = (s - b) % k := by
      rw [show s - (b + k) = s - b - k by omega, Int.sub_emod_right]
    rw [this]
  have head : ∀ c, b < c → c ≤ b + k → (upto b c).filter (fun s => (s - b) % k = 0) = [b] := by
    intro c h1 h2
    rw [upto_cons h1, List.filter_cons]
    simp only [Int.sub_self, Int.zero_emod, decide_true, if_true]
    congr 1
    rw [List.filter_eq_nil_iff]
    intro s hs
    rw [mem_upto] at hs
    rw [Int.emod_eq_of_lt (by omega) (by omega)]
    simp; omega
  by_cases hc : e ≤ b + k
  · rw [picks_nil hc]; exact head e h hc
  · unfold picks
    rw [upto_append (b := b) (c := b + k) (e := e) (by omega) (by omega), List.filter_append, head (b + k) (by omega) (by omega), tail]
    rfl

theorem mem_picks {b e k s : Int} : s ∈ picks b e k ↔ b ≤ s ∧ s < e ∧ (s - b) % k = 0 := by
  unfold picks; rw [List.mem_filter, mem_upto]; simp [and_assoc]

/-- number of selected indices: division rounded up -/
theorem length_picks {b e k : Int} (hk : 0 < k) (h : b ≤ e) : ((picks b e k).length : Int) = (e - b + k - 1) / k := by
  obtain ⟨n, hn⟩ : ∃ n : Nat, (e - b).toNat ≤ n := ⟨_, le_refl _⟩
  induction n generalizing b with
  | zero =>
    have : e = b := by omega
    subst this
    rw [picks_nil (le_refl _)]
    simp only [List.length_nil, Int.sub_self, Int.zero_add]
    rw [Int.ediv_eq_zero_of_lt (by omega) (by omega)]; rfl
  | succ n ih =>
    by_cases hb : b < e
    · rw [picks_cons hk hb, List.length_cons]
      push_cast
      by_cases hc : e ≤ b + k
      · rw [picks_nil hc]
        have : (e - b + k - 1) / k = 1 := by
          rw [show e - b + k - 1 = (e - b - 1) + 1 * k by omega, Int.add_mul_ediv_right _ _ (by omega),
            Int.ediv_eq_zero_of_lt (by omega) (by omega)]
          rfl
        rw [this]; rfl
      · have := ih (b := b + k) (by omega) (by omega)
        rw [this]
        rw [show e - b + k - 1 = (e - (b + k) + k - 1) + 1 * k by omega, Int.add_mul_ediv_right _ _ (by omega)]
    · exact ih (by omega) (by omega)

/-- the `t`-th selected index -/
theorem picks_getElem {b e k : Int} (hk : 0 < k) {t : Nat} (ht : t < (picks b e k).length) :
    (picks b e k)[t] = b + k * t := by
  induction t generalizing b with
  | zero =>
    have hb : b < e := by
      rcases Int.lt_or_le b e with h | h
      · exact h
      · rw [picks_nil h] at ht; simp at ht
    have := picks_cons hk hb
    simp only [this, List.getElem_cons_zero]; simp
  | succ t ih =>
    have hb : b < e := by
      rcases Int.lt_or_le b e with h | h
      · exact h
      · rw [picks_nil h] at ht; simp at ht
    have := picks_cons hk hb
    simp only [this, List.getElem_cons_succ]
    rw [ih (by rw [this] at ht; simpa using ht)]
    push_cast; ring_nf

/-! ## `gather_real_size` -/

/-- the settings of dimension `i` -/
def Zone.sel (z : Zone) : Nat → DimSel
  | 0 => ⟨z.Max.x, z.Skip.x, z.Begin.x, z.End.x⟩
  | 1 => ⟨z.Max.y, z.Skip.y, z.Begin.y, z.End.y⟩
  | _ => ⟨z.Max.z, z.Skip.z, z.Begin.z, z.End.z⟩

theorem I3.set_get (a : I3) {i : Nat} (hi : i < 3) (v : Int) : (a.set i v).get i = .ok v := by
  match i, hi with
  | 0, _ => rfl
  | 1, _ => rfl
  | 2, _ => rfl

theorem I3.set_set (a : I3) (i : Nat) (v w : Int) : (a.set i v).set i w = a.set i w := by
  match i with
  | 0 => rfl
  | 1 => rfl
  | n + 2 => rfl

theorem Zone.get_Max (z : Zone) {i : Nat} (hi : i < 3) : z.Max.get i = .ok (z.sel i).max := by
  match i, hi with
  | 0, _ => rfl
  | 1, _ => rfl
  | 2, _ => rfl
theorem Zone.get_Skip (z : Zone) {i : Nat} (hi : i < 3) : z.Skip.get i = .ok (z.sel i).skip := by
  match i, hi with
  | 0, _ => rfl
  | 1, _ => rfl
  | 2, _ => rfl
theorem Zone.get_Begin (z : Zone) {i : Nat} (hi : i < 3) : z.Begin.get i = .ok (z.sel i).head := by
  match i, hi with
  | 0, _ => rfl
  | 1, _ => rfl
  | 2, _ => rfl
theorem Zone.get_End (z : Zone) {i : Nat} (hi : i < 3) : z.End.get i = .ok (z.sel i).tail := by
  match i, hi with
  | 0, _ => rfl
  | 1, _ => rfl
  | 2, _ => rfl

theorem Sane.count_eq {d : DimSel} (s : d.Sane) (a : d.Accepted) :
    d.count = (d.max - d.head - d.tail).tdiv d.skip + (if (d.max - d.head - d.tail).tmod d.skip ≠ 0 then 1 else 0) := by
  unfold DimSel.Accepted at a
  have hp := s.pos
  unfold DimSel.count DimSel.picks
  rw [length_picks hp (by omega)]
  have hx : 0 ≤ d.max - d.head - d.tail := by omega
  rw [Int.tdiv_eq_ediv_of_nonneg hx, Int.tmod_eq_emod_of_nonneg hx]
  generalize hA : d.max - d.head - d.tail = A at *
  rw [show d.max - d.tail - d.head + d.skip - 1 = A + d.skip - 1 by omega]
  have h1 := Int.mul_ediv_add_emod A d.skip
  have h2 := Int.emod_nonneg A (b := d.skip) (by omega)
  have h3 := Int.emod_lt_of_pos A hp
  generalize A / d.skip = q at *
  generalize A % d.skip = r at *
  rw [show A + d.skip - 1 = (r + d.skip - 1) + q * d.skip by rw [Int.mul_comm q]; omega, Int.add_mul_ediv_right _ _ (by omega)]
  by_cases hr : r = 0
  · subst hr
    rw [if_neg (by simp), Int.ediv_eq_zero_of_lt (by omega) (by omega)]; omega
  · rw [if_pos hr, show r + d.skip - 1 = (r - 1) + 1 * d.skip by omega, Int.add_mul_ediv_right _ _ (by omega),
      Int.ediv_eq_zero_of_lt (by omega) (by omega)]; omega

theorem Sane.count_pos {d : DimSel} (s : d.Sane) (a : d.Accepted) : 1 ≤ d.count := by
  unfold DimSel.Accepted at a
  unfold DimSel.count DimSel.picks
  rw [picks_cons s.pos (by omega), List.length_cons]; omega

theorem Sane.count_le {d : DimSel} (s : d.Sane) : d.count ≤ max 0 d.max := by
  unfold DimSel.count DimSel.picks picks upto
  have h := List.length_filter_le (fun s => decide ((s - d.head) % d.skip = 0)) ((List.range (d.max - d.tail - d.head).toNat).map fun t : Nat => d.head + (t : Int))
  rw [List.length_map, List.length_range] at h
  have := s.head; have := s.tail
  omega

theorem Zone.checkDim_ok {z : Zone} {i : Nat} (hi : i < 3) (s : (z.sel i).Sane) (a : (z.sel i).Accepted) :
    z.checkDim i = .ok () := by
  unfold Zone.checkDim DimSel.Accepted at *
  have := s.head; have := s.tail; have := s.pos
  rw [z.get_Max hi, z.get_Skip hi, z.get_Begin hi, z.get_End hi]
  simp only [Out.ok_bind]
  rw [if_neg (by omega), if_neg (by omega), i32_ok s.sum]
  simp only [Out.ok_bind]
  rw [if_neg (by omega)]

theorem Zone.checkDim_err {z : Zone} {i : Nat} (hi : i < 3) (s : (z.sel i).Sane) (a : ¬(z.sel i).Accepted) :
    ∃ m, z.checkDim i = .err (.text m) := by
  unfold Zone.checkDim DimSel.Accepted at *
  have := s.head; have := s.tail; have := s.pos
  rw [z.get_Max hi, z.get_Skip hi, z.get_Begin hi, z.get_End hi]
  simp only [Out.ok_bind]
  by_cases h0 : (z.sel i).max = 0
  · exact ⟨_, if_pos h0⟩
  · rw [if_neg h0, if_neg (by omega), i32_ok s.sum]
    simp only [Out.ok_bind]
    exact ⟨_, if_pos (by omega)⟩

theorem Zone.realDim_eq {z : Zone} {i : Nat} (hi : i < 3) (s : (z.sel i).Sane) (a : (z.sel i).Accepted) :
    Zone.realDim i z = .ok () { z with
      Real_Max := z.Real_Max.set i (z.sel i).count
      Real_Dim := if (z.sel i).count = 1 then z.Real_Dim - 1 else z.Real_Dim
      noskip := z.noskip && (z.sel i).skip == 1
      noexc := z.noexc && (z.sel i).head == 0 && (z.sel i).tail == 0 } := by
  have c := Sane.count_eq s a
  have cp := Sane.count_pos s a
  have cl := Sane.count_le s
  have hm := s.max; have := s.head; have := s.tail; have := s.pos; have hs := s.sum
  unfold DimSel.Accepted InI32 at *
  unfold Zone.realDim
  rw [M.bind_ok (M.get_run z), z.get_Max hi, z.get_Skip hi, z.get_Begin hi, z.get_End hi]
  simp only [M.liftM_eq, M.lift_ok, pure_bind]
  generalize z.sel i = d at *
  rw [i32_ok (by unfold InI32; omega)]
  simp only [M.lift_ok, pure_bind]
  rw [i32_ok (by unfold InI32; omega)]
  simp only [M.lift_ok, pure_bind]
  have hA : 0 ≤ d.max - d.head - d.tail := by omega
  have hq0 : 0 ≤ (d.max - d.head - d.tail).tdiv d.skip := Int.tdiv_nonneg hA (by omega)
  have hq1 : InI32 ((d.max - d.head - d.tail).tdiv d.skip) := by
    unfold InI32; split at c <;> omega
  unfold cdiv cmod
  rw [if_neg (by omega), if_neg (by omega), i32_ok hq1, if_pos hq1]
  simp only [M.lift_ok, pure_bind]
  rw [M.modify_bind_run]
  by_cases hr : (d.max - d.head - d.tail).tmod d.skip ≠ 0
  · rw [if_pos hr] at c
    rw [if_pos hr, ← c, i32_ok (by unfold InI32; omega)]
    simp only [M.lift_ok, pure_bind, M.modify_bind_run, M.get_bind_run, I3.set_set, I3.set_get _ hi]
    split <;> rename_i h <;> simp [h, M.bind_run]
  · rw [if_neg hr, Int.add_zero] at c
    rw [if_neg hr, ← c]
    simp only [M.lift_ok, pure_bind, M.get_bind_run, I3.set_get _ hi]
    split <;> rename_i h <;> simp [h, M.bind_run]

/-- the result of `gather_real_size` on accepted settings -/
def Zone.gathered (z : Zone) : Zone := { z with
  Dim := nonUnit fun i => (z.sel i).max
  Real_Max := ⟨(z.sel 0).count, (z.sel 1).count, (z.sel 2).count⟩
  Real_Dim := nonUnit fun i => (z.sel i).count
  noskip := (z.sel 0).skip == 1 && (z.sel 1).skip == 1 && (z.sel 2).skip == 1
  noexc := ((z.sel 0).head == 0 && (z.sel 0).tail == 0) && ((z.sel 1).head == 0 && (z.sel 1).tail == 0) &&
    ((z.sel 2).head == 0 && (z.sel 2).tail == 0) }

theorem Zone.orgDim_eq {z : Zone} {i : Nat} (hi : i < 3) :
    Zone.orgDim i z = .ok () { z with Dim := if (z.sel i).max = 1 then z.Dim - 1 else z.Dim } := by
  unfold Zone.orgDim
  rw [M.get_bind_run, z.get_Max hi]
  simp only [M.liftM_eq, M.lift_ok, pure_bind]
  split <;> rfl

theorem Zone.gather_ok {z : Zone} (s : ∀ i < 3, (z.sel i).Sane) (a : ∀ i < 3, (z.sel i).Accepted) :
    Zone.gather_real_size z = .ok () z.gathered := by
  unfold Zone.gather_real_size
  rw [M.get_bind_run, Zone.checkDim_ok (by decide) (s 0 (by decide)) (a 0 (by decide)),
    Zone.checkDim_ok (by decide) (s 1 (by decide)) (a 1 (by decide)),
    Zone.checkDim_ok (by decide) (s 2 (by decide)) (a 2 (by decide))]
  simp only [M.liftM_eq, M.lift_ok, pure_bind, M.modify_bind_run]
  simp only [each]
  rw [M.bind_run, M.bind_ok (Zone.orgDim_eq (by decide)), M.bind_ok (Zone.orgDim_eq (by decide)),
    M.bind_ok (Zone.orgDim_eq (by decide))]
  simp only [M.pure_run, M.modify_bind_run]
  rw [M.bind_ok (Zone.realDim_eq (by decide) (by exact s 2 (by decide)) (by exact a 2 (by decide)))]
  rw [M.bind_ok (Zone.realDim_eq (by decide) (by exact s 1 (by decide)) (by exact a 1 (by decide)))]
  rw [M.bind_ok (Zone.realDim_eq (by decide) (by exact s 0 (by decide)) (by exact a 0 (by decide)))]
  rw [M.pure_run]
  congr 1
  unfold Zone.gathered nonUnit
  simp only [Zone.sel, Bool.true_and]
  congr 1
  · simp only [List.filter_cons, List.filter_nil]
    generalize z.Max.x = A; generalize z.Max.y = B; generalize z.Max.z = C
    by_cases h0 : A = 1 <;> by_cases h1 : B = 1 <;> by_cases h2 : C = 1 <;> simp [h0, h1, h2]
  · simp only [List.filter_cons, List.filter_nil]
    generalize DimSel.count _ = A; generalize DimSel.count _ = B; generalize DimSel.count _ = C
    by_cases h0 : A = 1 <;> by_cases h1 : B = 1 <;> by_cases h2 : C = 1 <;> simp [h0, h1, h2]
  · generalize (z.Skip.x == 1) = A; generalize (z.Skip.y == 1) = B; generalize (z.Skip.z == 1) = C
    cases A <;> cases B <;> cases C <;> rfl
  · generalize (z.Begin.x == 0) = A; generalize (z.Begin.y == 0) = B; generalize (z.Begin.z == 0) = C
    generalize (z.End.x == 0) = A'; generalize (z.End.y == 0) = B'; generalize (z.End.z == 0) = C'
    cases A <;> cases B <;> cases C <;> cases A' <;> cases B' <;> cases C' <;> rfl

theorem Zone.gather_err {z : Zone} (s : ∀ i < 3, (z.sel i).Sane) (a : ¬∀ i < 3, (z.sel i).Accepted) :
    ∃ m, Zone.gather_real_size z = .err (.text m) z := by
  unfold Zone.gather_real_size
  rw [M.get_bind_run]
  by_cases a0 : (z.sel 0).Accepted
  · rw [Zone.checkDim_ok (by decide) (s 0 (by decide)) a0]
    by_cases a1 : (z.sel 1).Accepted
    · rw [Zone.checkDim_ok (by decide) (s 1 (by decide)) a1]
      by_cases a2 : (z.sel 2).Accepted
      · exfalso; apply a; intro i hi
        match i, hi with
        | 0, _ => exact a0
        | 1, _ => exact a1
        | 2, _ => exact a2
      · obtain ⟨m, h⟩ := Zone.checkDim_err (by decide) (s 2 (by decide)) a2
        exact ⟨m, by rw [h]; rfl⟩
    · obtain ⟨m, h⟩ := Zone.checkDim_err (by decide) (s 1 (by decide)) a1
      exact ⟨m, by rw [h]; rfl⟩
  · obtain ⟨m, h⟩ := Zone.checkDim_err (by decide) (s 0 (by decide)) a0
    exact ⟨m, by rw [h]; rfl⟩

theorem Zone.checkDim_skip {z : Zone} {i : Nat} (hi : i < 3) (h : (z.sel i).skip = 0) :
    ∃ m, z.checkDim i = .err (.text m) := by
  unfold Zone.checkDim
  rw [z.get_Max hi, z.get_Skip hi]
  simp only [Out.ok_bind]
  by_cases h0 : (z.sel i).max = 0
  · exact ⟨_, if_pos h0⟩
  · rw [if_neg h0]; exact ⟨_, if_pos h⟩

theorem Zone.gather_skip {z : Zone} {i : Nat} (hi : i < 3) (h0 : (z.sel i).skip = 0)
    (hb : ∀ j < i, (z.sel j).Sane ∧ (z.sel j).Accepted) : ∃ m, Zone.gather_real_size z = .err (.text m) z := by
  obtain ⟨m, h⟩ := Zone.checkDim_skip hi h0
  unfold Zone.gather_real_size
  rw [M.get_bind_run]
  refine ⟨m, ?_⟩
  match i, hi with
  | 0, _ => rw [h]; rfl
  | 1, _ => rw [Zone.checkDim_ok (by decide) (hb 0 (by decide)).1 (hb 0 (by decide)).2, h]; rfl
  | 2, _ => rw [Zone.checkDim_ok (by decide) (hb 0 (by decide)).1 (hb 0 (by decide)).2,
      Zone.checkDim_ok (by decide) (hb 1 (by decide)).1 (hb 1 (by decide)).2, h]; rfl

end Verif.Tec
