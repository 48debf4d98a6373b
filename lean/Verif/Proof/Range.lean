import Verif.Proof.Acc
/-!
# `RangeT` in closed form
-/
namespace Verif

namespace D1.RangeT
theorem tran_eq_ok (r q : RangeT) (i : Int) : r.tran i = .ok q ↔
    (InI32 (r.b + i)) ∧ q = ⟨r.b + i, r.s⟩ := by
  simp only [tran, Out.bind_eq_ok, i32_eq_ok]
  constructor
  · rintro ⟨_, ⟨c0, rfl⟩, h⟩
    cases h; exact ⟨c0, rfl⟩
  · rintro ⟨c0, rfl⟩
    exact ⟨_, ⟨c0, rfl⟩, rfl⟩

theorem tran_total (r : RangeT) (i : Int) :
    (∃ q, r.tran i = .ok q) ∨ r.tran i = .ub .overflow := by
  simp only [tran, i32]
  repeat' split
  all_goals simp

theorem cut_tail_eq_ok (r q : RangeT) (i : Int) : r.cut_tail i = .ok q ↔
    (InI32 (r.s - i)) ∧ q = ⟨r.b, r.s - i⟩ := by
  simp only [cut_tail, Out.bind_eq_ok, i32_eq_ok]
  constructor
  · rintro ⟨_, ⟨c0, rfl⟩, h⟩
    cases h; exact ⟨c0, rfl⟩
  · rintro ⟨c0, rfl⟩
    exact ⟨_, ⟨c0, rfl⟩, rfl⟩

theorem cut_tail_total (r : RangeT) (i : Int) :
    (∃ q, r.cut_tail i = .ok q) ∨ r.cut_tail i = .ub .overflow := by
  simp only [cut_tail, i32]
  repeat' split
  all_goals simp

theorem cut_head_eq_ok (r q : RangeT) (i : Int) : r.cut_head i = .ok q ↔
    (InI32 (r.b + i) ∧ InI32 (r.s - i)) ∧ q = ⟨r.b + i, r.s - i⟩ := by
  simp only [cut_head, Out.bind_eq_ok, i32_eq_ok]
  constructor
  · rintro ⟨_, ⟨c0, rfl⟩, _, ⟨c1, rfl⟩, h⟩
    cases h; exact ⟨⟨c0, c1⟩, rfl⟩
  · rintro ⟨⟨c0, c1⟩, rfl⟩
    exact ⟨_, ⟨c0, rfl⟩, _, ⟨c1, rfl⟩, rfl⟩

theorem cut_head_total (r : RangeT) (i : Int) :
    (∃ q, r.cut_head i = .ok q) ∨ r.cut_head i = .ub .overflow := by
  simp only [cut_head, i32]
  repeat' split
  all_goals simp

theorem is_overlap_eq (chk : Bool) (a r : RangeT) (ha : a.EndsFit) (hr : r.EndsFit) :
    a.is_overlap chk r = .ok (decide (a.b < r.b + r.s ∧ r.b < a.b + a.s)) := by
  have ha0 := ha; have hr0 := hr; unfold EndsFit at ha0 hr0
  simp only [is_overlap, begin_0, end_0, i32_ok ha0, i32_ok hr0, Out.ok_bind]
  repeat' split
  all_goals (congr 1; symm; simp; try omega)

theorem overlap_rest_eq_ok (chk : Bool) (a r o : RangeT) : overlap.rest chk a r = .ok o ↔
    a.EndsFit ∧ r.EndsFit ∧
    (InI32 (min (a.b + a.s) (r.b + r.s) - max (a.b) (r.b))) ∧
    o = ⟨max (a.b) (r.b), min (a.b + a.s) (r.b + r.s) - max (a.b) (r.b)⟩ := by
  have m0 : (if a.b > r.b then a.b else r.b) = max (a.b) (r.b) := by
    rw [Int.max_def]; split <;> split <;> omega
  have n0 : (if a.b + a.s < r.b + r.s then a.b + a.s else r.b + r.s) = min (a.b + a.s) (r.b + r.s) := by
    rw [Int.min_def]; split <;> split <;> omega
  simp only [overlap.rest, begin_0, end_0, Out.ok_bind, Out.bind_eq_ok, i32_eq_ok, EndsFit, RangeT.new]
  constructor
  · rintro ⟨_, ⟨ca0, rfl⟩, _, ⟨cr0, rfl⟩, _, ⟨w0, rfl⟩, h⟩
    rw [m0, n0] at *
    rw [toI32_toU32 w0] at h
    cases h; exact ⟨ca0, cr0, w0, rfl⟩
  · rintro ⟨ca0, cr0, w0, rfl⟩
    refine ⟨_, ⟨ca0, rfl⟩, _, ⟨cr0, rfl⟩, ?_⟩
    rw [m0, n0]
    refine ⟨_, ⟨w0, rfl⟩, ?_⟩
    rw [toI32_toU32 w0]
end D1.RangeT

namespace D2.RangeT
theorem tran_eq_ok (r q : RangeT) (i j : Int) : r.tran i j = .ok q ↔
    (InI32 (r.b0 + i) ∧ InI32 (r.b1 + j)) ∧ q = ⟨r.b0 + i, r.s0, r.b1 + j, r.s1⟩ := by
  simp only [tran, Out.bind_eq_ok, i32_eq_ok]
  constructor
  · rintro ⟨_, ⟨c0, rfl⟩, _, ⟨c1, rfl⟩, h⟩
    cases h; exact ⟨⟨c0, c1⟩, rfl⟩
  · rintro ⟨⟨c0, c1⟩, rfl⟩
    exact ⟨_, ⟨c0, rfl⟩, _, ⟨c1, rfl⟩, rfl⟩

theorem tran_total (r : RangeT) (i j : Int) :
    (∃ q, r.tran i j = .ok q) ∨ r.tran i j = .ub .overflow := by
  simp only [tran, i32]
  repeat' split
  all_goals simp

theorem cut_tail_eq_ok (r q : RangeT) (i j : Int) : r.cut_tail i j = .ok q ↔
    (InI32 (r.s0 - i) ∧ InI32 (r.s1 - j)) ∧ q = ⟨r.b0, r.s0 - i, r.b1, r.s1 - j⟩ := by
  simp only [cut_tail, Out.bind_eq_ok, i32_eq_ok]
  constructor
  · rintro ⟨_, ⟨c0, rfl⟩, _, ⟨c1, rfl⟩, h⟩
    cases h; exact ⟨⟨c0, c1⟩, rfl⟩
  · rintro ⟨⟨c0, c1⟩, rfl⟩
    exact ⟨_, ⟨c0, rfl⟩, _, ⟨c1, rfl⟩, rfl⟩

theorem cut_tail_total (r : RangeT) (i j : Int) :
    (∃ q, r.cut_tail i j = .ok q) ∨ r.cut_tail i j = .ub .overflow := by
  simp only [cut_tail, i32]
  repeat' split
  all_goals simp

theorem cut_head_eq_ok (r q : RangeT) (i j : Int) : r.cut_head i j = .ok q ↔
    (InI32 (r.b0 + i) ∧ InI32 (r.s0 - i) ∧ InI32 (r.b1 + j) ∧ InI32 (r.s1 - j)) ∧ q = ⟨r.b0 + i, r.s0 - i, r.b1 + j, r.s1 - j⟩ := by
  simp only [cut_head, Out.bind_eq_ok, i32_eq_ok]
  constructor
  · rintro ⟨_, ⟨c0, rfl⟩, _, ⟨c1, rfl⟩, _, ⟨c2, rfl⟩, _, ⟨c3, rfl⟩, h⟩
    cases h; exact ⟨⟨c0, c1, c2, c3⟩, rfl⟩
  · rintro ⟨⟨c0, c1, c2, c3⟩, rfl⟩
    exact ⟨_, ⟨c0, rfl⟩, _, ⟨c1, rfl⟩, _, ⟨c2, rfl⟩, _, ⟨c3, rfl⟩, rfl⟩

theorem cut_head_total (r : RangeT) (i j : Int) :
    (∃ q, r.cut_head i j = .ok q) ∨ r.cut_head i j = .ub .overflow := by
  simp only [cut_head, i32]
  repeat' split
  all_goals simp

theorem is_overlap_eq (chk : Bool) (a r : RangeT) (ha : a.EndsFit) (hr : r.EndsFit) :
    a.is_overlap chk r = .ok (decide (a.b0 < r.b0 + r.s0 ∧ r.b0 < a.b0 + a.s0 ∧ a.b1 < r.b1 + r.s1 ∧ r.b1 < a.b1 + a.s1)) := by
  obtain ⟨ha0, ha1⟩ := ha
  obtain ⟨hr0, hr1⟩ := hr
  simp only [is_overlap, begin_0, end_0, i32_ok ha0, i32_ok hr0, begin_1, end_1, i32_ok ha1, i32_ok hr1, Out.ok_bind]
  repeat' split
  all_goals (congr 1; symm; simp; try omega)

theorem overlap_rest_eq_ok (chk : Bool) (a r o : RangeT) : overlap.rest chk a r = .ok o ↔
    a.EndsFit ∧ r.EndsFit ∧
    (InI32 (min (a.b0 + a.s0) (r.b0 + r.s0) - max (a.b0) (r.b0)) ∧ InI32 (min (a.b1 + a.s1) (r.b1 + r.s1) - max (a.b1) (r.b1))) ∧
    o = ⟨max (a.b0) (r.b0), min (a.b0 + a.s0) (r.b0 + r.s0) - max (a.b0) (r.b0), max (a.b1) (r.b1), min (a.b1 + a.s1) (r.b1 + r.s1) - max (a.b1) (r.b1)⟩ := by
  have m0 : (if a.b0 > r.b0 then a.b0 else r.b0) = max (a.b0) (r.b0) := by
    rw [Int.max_def]; split <;> split <;> omega
  have n0 : (if a.b0 + a.s0 < r.b0 + r.s0 then a.b0 + a.s0 else r.b0 + r.s0) = min (a.b0 + a.s0) (r.b0 + r.s0) := by
    rw [Int.min_def]; split <;> split <;> omega
  have m1 : (if a.b1 > r.b1 then a.b1 else r.b1) = max (a.b1) (r.b1) := by
    rw [Int.max_def]; split <;> split <;> omega
  have n1 : (if a.b1 + a.s1 < r.b1 + r.s1 then a.b1 + a.s1 else r.b1 + r.s1) = min (a.b1 + a.s1) (r.b1 + r.s1) := by
    rw [Int.min_def]; split <;> split <;> omega
  simp only [overlap.rest, begin_0, end_0, begin_1, end_1, Out.ok_bind, Out.bind_eq_ok, i32_eq_ok, EndsFit, RangeT.new]
  constructor
  · rintro ⟨_, ⟨ca0, rfl⟩, _, ⟨cr0, rfl⟩, _, ⟨ca1, rfl⟩, _, ⟨cr1, rfl⟩, _, ⟨w0, rfl⟩, _, ⟨w1, rfl⟩, h⟩
    rw [m0, n0, m1, n1] at *
    rw [toI32_toU32 w0, toI32_toU32 w1] at h
    cases h; exact ⟨⟨ca0, ca1⟩, ⟨cr0, cr1⟩, ⟨w0, w1⟩, rfl⟩
  · rintro ⟨⟨ca0, ca1⟩, ⟨cr0, cr1⟩, ⟨w0, w1⟩, rfl⟩
    refine ⟨_, ⟨ca0, rfl⟩, _, ⟨cr0, rfl⟩, _, ⟨ca1, rfl⟩, _, ⟨cr1, rfl⟩, ?_⟩
    rw [m0, n0, m1, n1]
    refine ⟨_, ⟨w0, rfl⟩, _, ⟨w1, rfl⟩, ?_⟩
    rw [toI32_toU32 w0, toI32_toU32 w1]
end D2.RangeT

namespace D3.RangeT
theorem tran_eq_ok (r q : RangeT) (i j k : Int) : r.tran i j k = .ok q ↔
    (InI32 (r.b0 + i) ∧ InI32 (r.b1 + j) ∧ InI32 (r.b2 + k)) ∧ q = ⟨r.b0 + i, r.s0, r.b1 + j, r.s1, r.b2 + k, r.s2⟩ := by
  simp only [tran, Out.bind_eq_ok, i32_eq_ok]
  constructor
  · rintro ⟨_, ⟨c0, rfl⟩, _, ⟨c1, rfl⟩, _, ⟨c2, rfl⟩, h⟩
    cases h; exact ⟨⟨c0, c1, c2⟩, rfl⟩
  · rintro ⟨⟨c0, c1, c2⟩, rfl⟩
    exact ⟨_, ⟨c0, rfl⟩, _, ⟨c1, rfl⟩, _, ⟨c2, rfl⟩, rfl⟩

theorem tran_total (r : RangeT) (i j k : Int) :
    (∃ q, r.tran i j k = .ok q) ∨ r.tran i j k = .ub .overflow := by
  simp only [tran, i32]
  repeat' split
  all_goals simp

theorem cut_tail_eq_ok (r q : RangeT) (i j k : Int) : r.cut_tail i j k = .ok q ↔
    (InI32 (r.s0 - i) ∧ InI32 (r.s1 - j) ∧ InI32 (r.s2 - k)) ∧ q = ⟨r.b0, r.s0 - i, r.b1, r.s1 - j, r.b2, r.s2 - k⟩ := by
  simp only [cut_tail, Out.bind_eq_ok, i32_eq_ok]
  constructor
  · rintro ⟨_, ⟨c0, rfl⟩, _, ⟨c1, rfl⟩, _, ⟨c2, rfl⟩, h⟩
    cases h; exact ⟨⟨c0, c1, c2⟩, rfl⟩
  · rintro ⟨⟨c0, c1, c2⟩, rfl⟩
    exact ⟨_, ⟨c0, rfl⟩, _, ⟨c1, rfl⟩, _, ⟨c2, rfl⟩, rfl⟩

theorem cut_tail_total (r : RangeT) (i j k : Int) :
    (∃ q, r.cut_tail i j k = .ok q) ∨ r.cut_tail i j k = .ub .overflow := by
  simp only [cut_tail, i32]
  repeat' split
  all_goals simp

theorem cut_head_eq_ok (r q : RangeT) (i j k : Int) : r.cut_head i j k = .ok q ↔
    (InI32 (r.b0 + i) ∧ InI32 (r.s0 - i) ∧ InI32 (r.b1 + j) ∧ InI32 (r.s1 - j) ∧ InI32 (r.b2 + k) ∧ InI32 (r.s2 - k)) ∧ q = ⟨r.b0 + i, r.s0 - i, r.b1 + j, r.s1 - j, r.b2 + k, r.s2 - k⟩ := by
  simp only [cut_head, Out.bind_eq_ok, i32_eq_ok]
  constructor
  · rintro ⟨_, ⟨c0, rfl⟩, _, ⟨c1, rfl⟩, _, ⟨c2, rfl⟩, _, ⟨c3, rfl⟩, _, ⟨c4, rfl⟩, _, ⟨c5, rfl⟩, h⟩
    cases h; exact ⟨⟨c0, c1, c2, c3, c4, c5⟩, rfl⟩
  · rintro ⟨⟨c0, c1, c2, c3, c4, c5⟩, rfl⟩
    exact ⟨_, ⟨c0, rfl⟩, _, ⟨c1, rfl⟩, _, ⟨c2, rfl⟩, _, ⟨c3, rfl⟩, _, ⟨c4, rfl⟩, _, ⟨c5, rfl⟩, rfl⟩

theorem cut_head_total (r : RangeT) (i j k : Int) :
    (∃ q, r.cut_head i j k = .ok q) ∨ r.cut_head i j k = .ub .overflow := by
  simp only [cut_head, i32]
  repeat' split
  all_goals simp

theorem is_overlap_eq (chk : Bool) (a r : RangeT) (ha : a.EndsFit) (hr : r.EndsFit) :
    a.is_overlap chk r = .ok (decide (a.b0 < r.b0 + r.s0 ∧ r.b0 < a.b0 + a.s0 ∧ a.b1 < r.b1 + r.s1 ∧ r.b1 < a.b1 + a.s1 ∧ a.b2 < r.b2 + r.s2 ∧ r.b2 < a.b2 + a.s2)) := by
  obtain ⟨ha0, ha1, ha2⟩ := ha
  obtain ⟨hr0, hr1, hr2⟩ := hr
  simp only [is_overlap, begin_0, end_0, i32_ok ha0, i32_ok hr0, begin_1, end_1, i32_ok ha1, i32_ok hr1, begin_2, end_2, i32_ok ha2, i32_ok hr2, Out.ok_bind]
  repeat' split
  all_goals (congr 1; symm; simp; try omega)

theorem overlap_rest_eq_ok (chk : Bool) (a r o : RangeT) : overlap.rest chk a r = .ok o ↔
    a.EndsFit ∧ r.EndsFit ∧
    (InI32 (min (a.b0 + a.s0) (r.b0 + r.s0) - max (a.b0) (r.b0)) ∧ InI32 (min (a.b1 + a.s1) (r.b1 + r.s1) - max (a.b1) (r.b1)) ∧ InI32 (min (a.b2 + a.s2) (r.b2 + r.s2) - max (a.b2) (r.b2))) ∧
    o = ⟨max (a.b0) (r.b0), min (a.b0 + a.s0) (r.b0 + r.s0) - max (a.b0) (r.b0), max (a.b1) (r.b1), min (a.b1 + a.s1) (r.b1 + r.s1) - max (a.b1) (r.b1), max (a.b2) (r.b2), min (a.b2 + a.s2) (r.b2 + r.s2) - max (a.b2) (r.b2)⟩ := by
  have m0 : (if a.b0 > r.b0 then a.b0 else r.b0) = max (a.b0) (r.b0) := by
    rw [Int.max_def]; split <;> split <;> omega
  have n0 : (if a.b0 + a.s0 < r.b0 + r.s0 then a.b0 + a.s0 else r.b0 + r.s0) = min (a.b0 + a.s0) (r.b0 + r.s0) := by
    rw [Int.min_def]; split <;> split <;> omega
  have m1 : (if a.b1 > r.b1 then a.b1 else r.b1) = max (a.b1) (r.b1) := by
    rw [Int.max_def]; split <;> split <;> omega
  have n1 : (if a.b1 + a.s1 < r.b1 + r.s1 then a.b1 + a.s1 else r.b1 + r.s1) = min (a.b1 + a.s1) (r.b1 + r.s1) := by
    rw [Int.min_def]; split <;> split <;> omega
  have m2 : (if a.b2 > r.b2 then a.b2 else r.b2) = max (a.b2) (r.b2) := by
    rw [Int.max_def]; split <;> split <;> omega
  have n2 : (if a.b2 + a.s2 < r.b2 + r.s2 then a.b2 + a.s2 else r.b2 + r.s2) = min (a.b2 + a.s2) (r.b2 + r.s2) := by
    rw [Int.min_def]; split <;> split <;> omega
  simp only [overlap.rest, begin_0, end_0, begin_1, end_1, begin_2, end_2, Out.ok_bind, Out.bind_eq_ok, i32_eq_ok, EndsFit, RangeT.new]
  constructor
  · rintro ⟨_, ⟨ca0, rfl⟩, _, ⟨cr0, rfl⟩, _, ⟨ca1, rfl⟩, _, ⟨cr1, rfl⟩, _, ⟨ca2, rfl⟩, _, ⟨cr2, rfl⟩, _, ⟨w0, rfl⟩, _, ⟨w1, rfl⟩, _, ⟨w2, rfl⟩, h⟩
    rw [m0, n0, m1, n1, m2, n2] at *
    rw [toI32_toU32 w0, toI32_toU32 w1, toI32_toU32 w2] at h
    cases h; exact ⟨⟨ca0, ca1, ca2⟩, ⟨cr0, cr1, cr2⟩, ⟨w0, w1, w2⟩, rfl⟩
  · rintro ⟨⟨ca0, ca1, ca2⟩, ⟨cr0, cr1, cr2⟩, ⟨w0, w1, w2⟩, rfl⟩
    refine ⟨_, ⟨ca0, rfl⟩, _, ⟨cr0, rfl⟩, _, ⟨ca1, rfl⟩, _, ⟨cr1, rfl⟩, _, ⟨ca2, rfl⟩, _, ⟨cr2, rfl⟩, ?_⟩
    rw [m0, n0, m1, n1, m2, n2]
    refine ⟨_, ⟨w0, rfl⟩, _, ⟨w1, rfl⟩, _, ⟨w2, rfl⟩, ?_⟩
    rw [toI32_toU32 w0, toI32_toU32 w1, toI32_toU32 w2]
end D3.RangeT

theorem Out.noErr_ok {α : Type} (a : α) (e : Err) : (Out.ok a) ≠ .err e := by simp
theorem noErr_i32 (x : Int) (e : Err) : i32 x ≠ .err e := by simp [i32_eq_err]
theorem Out.noErr_bind {α β : Type} {m : Out α} {f : α → Out β} {e : Err} (h : m ≠ .err e) (hf : ∀ a, f a ≠ .err e) :
    (m >>= f) ≠ .err e := by
  rw [ne_eq, Out.bind_eq_err]; rintro (h' | ⟨a, -, h'⟩)
  · exact h h'
  · exact hf a h'
theorem Out.noErr_ite {α : Type} {p : Prop} [Decidable p] {a b : Out α} {e : Err} (h : a ≠ .err e) (h' : b ≠ .err e) :
    (if p then a else b) ≠ .err e := by split <;> assumption

namespace D1.RangeT
theorem overlap_false (a r : RangeT) : a.overlap false r = overlap.rest false a r := rfl

theorem overlap_true_ok (a r o : RangeT) : a.overlap true r = .ok o ↔
    a.is_overlap true r = .ok true ∧ overlap.rest true a r = .ok o := by
  show (a.is_overlap true r >>= fun t => if (!t) = true then .err .overlapNotFound else overlap.rest true a r) = .ok o ↔ _
  rw [Out.bind_eq_ok]
  constructor
  · rintro ⟨t, h1, h2⟩
    cases t
    · simp at h2
    · exact ⟨h1, by simpa using h2⟩
  · rintro ⟨h1, h2⟩; exact ⟨true, h1, by simpa using h2⟩

theorem overlap_ok_rest {chk : Bool} {a r o : RangeT} (h : a.overlap chk r = .ok o) :
    overlap.rest chk a r = .ok o := by
  cases chk
  · exact h
  · exact ((overlap_true_ok a r o).1 h).2

theorem rest_ne_err (chk : Bool) (a r : RangeT) (e : Err) : overlap.rest chk a r ≠ .err e := by
  simp only [overlap.rest, begin_0, end_0, Out.ok_bind, ne_eq, Out.bind_eq_err, i32_eq_err, false_or]
  rintro ⟨_, _, _, _, h⟩
  simp at h

theorem overlap_false_err (a r : RangeT) (e : Err) : a.overlap false r ≠ .err e :=
  rest_ne_err false a r e

theorem is_overlap_ne_err (chk : Bool) (a r : RangeT) (e : Err) : a.is_overlap chk r ≠ .err e := by
  simp only [is_overlap, begin_0, end_0, Out.ok_bind]
  repeat' first | exact Out.noErr_ok _ _ | refine Out.noErr_bind (noErr_i32 _ _) fun _ => ?_ | refine Out.noErr_ite ?_ ?_

theorem overlap_true_err (a r : RangeT) (e : Err) : a.overlap true r = .err e ↔
    e = .overlapNotFound ∧ a.is_overlap true r = .ok false := by
  show (a.is_overlap true r >>= fun t => if (!t) = true then .err .overlapNotFound else overlap.rest true a r) = .err e ↔ _
  rw [Out.bind_eq_err]
  constructor
  · rintro (h | ⟨t, h1, h2⟩)
    · exact absurd h (is_overlap_ne_err _ _ _ _)
    · cases t
      · simp at h2; exact ⟨h2.symm, h1⟩
      · exact absurd h2 (by simpa using rest_ne_err true a r e)
  · rintro ⟨rfl, h⟩; exact .inr ⟨false, h, by simp⟩
end D1.RangeT

namespace D2.RangeT
theorem overlap_false (a r : RangeT) : a.overlap false r = overlap.rest false a r := rfl

theorem overlap_true_ok (a r o : RangeT) : a.overlap true r = .ok o ↔
    a.is_overlap true r = .ok true ∧ overlap.rest true a r = .ok o := by
  show (a.is_overlap true r >>= fun t => if (!t) = true then .err .overlapNotFound else overlap.rest true a r) = .ok o ↔ _
  rw [Out.bind_eq_ok]
  constructor
  · rintro ⟨t, h1, h2⟩
    cases t
    · simp at h2
    · exact ⟨h1, by simpa using h2⟩
  · rintro ⟨h1, h2⟩; exact ⟨true, h1, by simpa using h2⟩

theorem overlap_ok_rest {chk : Bool} {a r o : RangeT} (h : a.overlap chk r = .ok o) :
    overlap.rest chk a r = .ok o := by
  cases chk
  · exact h
  · exact ((overlap_true_ok a r o).1 h).2

theorem rest_ne_err (chk : Bool) (a r : RangeT) (e : Err) : overlap.rest chk a r ≠ .err e := by
  simp only [overlap.rest, begin_0, end_0, begin_1, end_1, Out.ok_bind, ne_eq, Out.bind_eq_err, i32_eq_err, false_or]
  rintro ⟨_, _, _, _, h⟩
  simp at h

theorem overlap_false_err (a r : RangeT) (e : Err) : a.overlap false r ≠ .err e :=
  rest_ne_err false a r e

theorem is_overlap_ne_err (chk : Bool) (a r : RangeT) (e : Err) : a.is_overlap chk r ≠ .err e := by
  simp only [is_overlap, begin_0, end_0, begin_1, end_1, Out.ok_bind]
  repeat' first | exact Out.noErr_ok _ _ | refine Out.noErr_bind (noErr_i32 _ _) fun _ => ?_ | refine Out.noErr_ite ?_ ?_

theorem overlap_true_err (a r : RangeT) (e : Err) : a.overlap true r = .err e ↔
    e = .overlapNotFound ∧ a.is_overlap true r = .ok false := by
  show (a.is_overlap true r >>= fun t => if (!t) = true then .err .overlapNotFound else overlap.rest true a r) = .err e ↔ _
  rw [Out.bind_eq_err]
  constructor
  · rintro (h | ⟨t, h1, h2⟩)
    · exact absurd h (is_overlap_ne_err _ _ _ _)
    · cases t
      · simp at h2; exact ⟨h2.symm, h1⟩
      · exact absurd h2 (by simpa using rest_ne_err true a r e)
  · rintro ⟨rfl, h⟩; exact .inr ⟨false, h, by simp⟩
end D2.RangeT

namespace D3.RangeT
theorem overlap_false (a r : RangeT) : a.overlap false r = overlap.rest false a r := rfl

theorem overlap_true_ok (a r o : RangeT) : a.overlap true r = .ok o ↔
    a.is_overlap true r = .ok true ∧ overlap.rest true a r = .ok o := by
  show (a.is_overlap true r >>= fun t => if (!t) = true then .err .overlapNotFound else overlap.rest true a r) = .ok o ↔ _
  rw [Out.bind_eq_ok]
  constructor
  · rintro ⟨t, h1, h2⟩
    cases t
    · simp at h2
    · exact ⟨h1, by simpa using h2⟩
  · rintro ⟨h1, h2⟩; exact ⟨true, h1, by simpa using h2⟩

theorem overlap_ok_rest {chk : Bool} {a r o : RangeT} (h : a.overlap chk r = .ok o) :
    overlap.rest chk a r = .ok o := by
  cases chk
  · exact h
  · exact ((overlap_true_ok a r o).1 h).2

theorem rest_ne_err (chk : Bool) (a r : RangeT) (e : Err) : overlap.rest chk a r ≠ .err e := by
  simp only [overlap.rest, begin_0, end_0, begin_1, end_1, begin_2, end_2, Out.ok_bind, ne_eq, Out.bind_eq_err, i32_eq_err, false_or]
  rintro ⟨_, _, _, _, h⟩
  simp at h

theorem overlap_false_err (a r : RangeT) (e : Err) : a.overlap false r ≠ .err e :=
  rest_ne_err false a r e

theorem is_overlap_ne_err (chk : Bool) (a r : RangeT) (e : Err) : a.is_overlap chk r ≠ .err e := by
  simp only [is_overlap, begin_0, end_0, begin_1, end_1, begin_2, end_2, Out.ok_bind]
  repeat' first | exact Out.noErr_ok _ _ | refine Out.noErr_bind (noErr_i32 _ _) fun _ => ?_ | refine Out.noErr_ite ?_ ?_

theorem overlap_true_err (a r : RangeT) (e : Err) : a.overlap true r = .err e ↔
    e = .overlapNotFound ∧ a.is_overlap true r = .ok false := by
  show (a.is_overlap true r >>= fun t => if (!t) = true then .err .overlapNotFound else overlap.rest true a r) = .err e ↔ _
  rw [Out.bind_eq_err]
  constructor
  · rintro (h | ⟨t, h1, h2⟩)
    · exact absurd h (is_overlap_ne_err _ _ _ _)
    · cases t
      · simp at h2; exact ⟨h2.symm, h1⟩
      · exact absurd h2 (by simpa using rest_ne_err true a r e)
  · rintro ⟨rfl, h⟩; exact .inr ⟨false, h, by simp⟩
end D3.RangeT

end Verif
