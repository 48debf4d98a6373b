import Verif.Proof.Range
/-!
# C16 – C18: `RangeT`
-/
set_option linter.unusedSimpArgs false
namespace Verif.Props
open Spec

/-! ## C16 RangeT transformations -/

/-- C16 (1D): `tran` shifts the point set, `cut_head` / `cut_tail` remove the first / last
points of each dimension; every operation is undone by the negated arguments, composes
additively, and any two commute; `cut_head` keeps every end, `cut_tail` every begin; the only
way not to return is signed overflow, which happens exactly when a new field is not
representable. -/
theorem C16_d1 (chk : Bool) (r : D1.RangeT) (i a : Int) :
    (∀ q, r.tran i = .ok q → ∀ x, q.Has x ↔ r.Has (x - i)) ∧
    (0 ≤ i → ∀ q, r.cut_head i = .ok q → ∀ x,
      q.Has x ↔ r.Has x ∧ r.b + i ≤ x) ∧
    (0 ≤ i → ∀ q, r.cut_tail i = .ok q → ∀ x,
      q.Has x ↔ r.Has x ∧ x < r.b + r.s - i) ∧
    (∀ q, r.Int32 → r.tran i = .ok q → q.tran (-i) = .ok r) ∧
    (∀ q, r.Int32 → r.cut_head i = .ok q → q.cut_head (-i) = .ok r) ∧
    (∀ q, r.Int32 → r.cut_tail i = .ok q → q.cut_tail (-i) = .ok r) ∧
    (∀ q t, r.tran i = .ok q → q.tran a = .ok t → r.tran (i + a) = .ok t) ∧
    (∀ q t, r.cut_head i = .ok q → q.cut_head a = .ok t → r.cut_head (i + a) = .ok t) ∧
    (∀ q t, r.cut_tail i = .ok q → q.cut_tail a = .ok t → r.cut_tail (i + a) = .ok t) ∧
    (∀ u v s t, r.tran i = .ok u → u.cut_head a = .ok s → r.cut_head a = .ok v → v.tran i = .ok t → s = t) ∧
    (∀ u v s t, r.tran i = .ok u → u.cut_tail a = .ok s → r.cut_tail a = .ok v → v.tran i = .ok t → s = t) ∧
    (∀ u v s t, r.cut_head i = .ok u → u.cut_tail a = .ok s → r.cut_tail a = .ok v → v.cut_head i = .ok t → s = t) ∧
    (∀ q, r.cut_head i = .ok q → ∀ d, q.end_ chk d = r.end_ chk d) ∧
    (∀ q, r.cut_tail i = .ok q → ∀ d, q.begin_ chk d = r.begin_ chk d) ∧
    ((∃ q, r.tran i = .ok q) ∨ r.tran i = .ub .overflow) ∧
    ((∃ q, r.cut_head i = .ok q) ∨ r.cut_head i = .ub .overflow) ∧
    ((∃ q, r.cut_tail i = .ok q) ∨ r.cut_tail i = .ub .overflow) ∧
    ((InI32 (r.b + i)) → ∃ q, r.tran i = .ok q) ∧
    ((InI32 (r.s - i)) → ∃ q, r.cut_tail i = .ok q) ∧
    ((InI32 (r.b + i) ∧ InI32 (r.s - i)) → ∃ q, r.cut_head i = .ok q) := by
  simp only [D1.RangeT.tran_eq_ok, D1.RangeT.cut_head_eq_ok, D1.RangeT.cut_tail_eq_ok]
  refine ⟨?_, ?_, ?_, ?_, ?_, ?_, ?_, ?_, ?_, ?_, ?_, ?_, ?_, ?_, by simpa only [D1.RangeT.tran_eq_ok] using D1.RangeT.tran_total r i, by simpa only [D1.RangeT.cut_head_eq_ok] using D1.RangeT.cut_head_total r i, by simpa only [D1.RangeT.cut_tail_eq_ok] using D1.RangeT.cut_tail_total r i, ?_, ?_, ?_⟩
  · rintro q ⟨-, rfl⟩ x
    simp only [D1.RangeT.Has, Seg]; omega
  · rintro h0 q ⟨-, rfl⟩ x
    simp only [D1.RangeT.Has, Seg]; omega
  · rintro h0 q ⟨-, rfl⟩ x
    simp only [D1.RangeT.Has, Seg]; omega
  · rintro q hr ⟨hc, rfl⟩
    unfold D1.RangeT.Int32 InI32 at hr
    obtain ⟨b, s⟩ := r
    simp only [D1.RangeT.mk.injEq, InI32, true_and, and_true] at * <;> omega
  · rintro q hr ⟨hc, rfl⟩
    unfold D1.RangeT.Int32 InI32 at hr
    obtain ⟨b, s⟩ := r
    simp only [D1.RangeT.mk.injEq, InI32, true_and, and_true] at * <;> omega
  · rintro q hr ⟨hc, rfl⟩
    unfold D1.RangeT.Int32 InI32 at hr
    obtain ⟨b, s⟩ := r
    simp only [D1.RangeT.mk.injEq, InI32, true_and, and_true] at * <;> omega
  · rintro q t ⟨hc, rfl⟩ ⟨hc', rfl⟩
    simp only [D1.RangeT.mk.injEq, InI32, true_and, and_true] at * <;> omega
  · rintro q t ⟨hc, rfl⟩ ⟨hc', rfl⟩
    simp only [D1.RangeT.mk.injEq, InI32, true_and, and_true] at * <;> omega
  · rintro q t ⟨hc, rfl⟩ ⟨hc', rfl⟩
    simp only [D1.RangeT.mk.injEq, InI32, true_and, and_true] at * <;> omega
  · rintro u v s t ⟨-, rfl⟩ ⟨-, rfl⟩ ⟨-, rfl⟩ ⟨-, rfl⟩
    simp only [D1.RangeT.mk.injEq, true_and, and_true] <;> omega
  · rintro u v s t ⟨-, rfl⟩ ⟨-, rfl⟩ ⟨-, rfl⟩ ⟨-, rfl⟩
    simp only [D1.RangeT.mk.injEq, true_and, and_true] <;> omega
  · rintro u v s t ⟨-, rfl⟩ ⟨-, rfl⟩ ⟨-, rfl⟩ ⟨-, rfl⟩
    simp only [D1.RangeT.mk.injEq, true_and, and_true] <;> omega
  · rintro q ⟨-, rfl⟩ d
    have e : ∀ a b : Int, a + b + (r.s - b) = a + r.s := by intros; omega
    simp only [D1.RangeT.end_, D1.RangeT.begin_, D1.RangeT.size]
    cases check_d chk D1.D d <;> simp [e]
  · rintro q ⟨-, rfl⟩ d; rfl
  · intro h; exact ⟨_, h, rfl⟩
  · intro h; exact ⟨_, h, rfl⟩
  · intro h; exact ⟨_, h, rfl⟩

example : (D1.RangeT.mk (-2) 9).cut_head 2 = .ok ⟨0, 7⟩ := by decide

/-- C16 (2D): `tran` shifts the point set, `cut_head` / `cut_tail` remove the first / last
points of each dimension; every operation is undone by the negated arguments, composes
additively, and any two commute; `cut_head` keeps every end, `cut_tail` every begin; the only
way not to return is signed overflow, which happens exactly when a new field is not
representable. -/
theorem C16_d2 (chk : Bool) (r : D2.RangeT) (i j a b : Int) :
    (∀ q, r.tran i j = .ok q → ∀ x y, q.Has x y ↔ r.Has (x - i) (y - j)) ∧
    (0 ≤ i → 0 ≤ j → ∀ q, r.cut_head i j = .ok q → ∀ x y,
      q.Has x y ↔ r.Has x y ∧ r.b0 + i ≤ x ∧ r.b1 + j ≤ y) ∧
    (0 ≤ i → 0 ≤ j → ∀ q, r.cut_tail i j = .ok q → ∀ x y,
      q.Has x y ↔ r.Has x y ∧ x < r.b0 + r.s0 - i ∧ y < r.b1 + r.s1 - j) ∧
    (∀ q, r.Int32 → r.tran i j = .ok q → q.tran (-i) (-j) = .ok r) ∧
    (∀ q, r.Int32 → r.cut_head i j = .ok q → q.cut_head (-i) (-j) = .ok r) ∧
    (∀ q, r.Int32 → r.cut_tail i j = .ok q → q.cut_tail (-i) (-j) = .ok r) ∧
    (∀ q t, r.tran i j = .ok q → q.tran a b = .ok t → r.tran (i + a) (j + b) = .ok t) ∧
    (∀ q t, r.cut_head i j = .ok q → q.cut_head a b = .ok t → r.cut_head (i + a) (j + b) = .ok t) ∧
    (∀ q t, r.cut_tail i j = .ok q → q.cut_tail a b = .ok t → r.cut_tail (i + a) (j + b) = .ok t) ∧
    (∀ u v s t, r.tran i j = .ok u → u.cut_head a b = .ok s → r.cut_head a b = .ok v → v.tran i j = .ok t → s = t) ∧
    (∀ u v s t, r.tran i j = .ok u → u.cut_tail a b = .ok s → r.cut_tail a b = .ok v → v.tran i j = .ok t → s = t) ∧
    (∀ u v s t, r.cut_head i j = .ok u → u.cut_tail a b = .ok s → r.cut_tail a b = .ok v → v.cut_head i j = .ok t → s = t) ∧
    (∀ q, r.cut_head i j = .ok q → ∀ d, q.end_ chk d = r.end_ chk d) ∧
    (∀ q, r.cut_tail i j = .ok q → ∀ d, q.begin_ chk d = r.begin_ chk d) ∧
    ((∃ q, r.tran i j = .ok q) ∨ r.tran i j = .ub .overflow) ∧
    ((∃ q, r.cut_head i j = .ok q) ∨ r.cut_head i j = .ub .overflow) ∧
    ((∃ q, r.cut_tail i j = .ok q) ∨ r.cut_tail i j = .ub .overflow) ∧
    ((InI32 (r.b0 + i) ∧ InI32 (r.b1 + j)) → ∃ q, r.tran i j = .ok q) ∧
    ((InI32 (r.s0 - i) ∧ InI32 (r.s1 - j)) → ∃ q, r.cut_tail i j = .ok q) ∧
    ((InI32 (r.b0 + i) ∧ InI32 (r.s0 - i) ∧ InI32 (r.b1 + j) ∧ InI32 (r.s1 - j)) → ∃ q, r.cut_head i j = .ok q) := by
  simp only [D2.RangeT.tran_eq_ok, D2.RangeT.cut_head_eq_ok, D2.RangeT.cut_tail_eq_ok]
  refine ⟨?_, ?_, ?_, ?_, ?_, ?_, ?_, ?_, ?_, ?_, ?_, ?_, ?_, ?_, by simpa only [D2.RangeT.tran_eq_ok] using D2.RangeT.tran_total r i j, by simpa only [D2.RangeT.cut_head_eq_ok] using D2.RangeT.cut_head_total r i j, by simpa only [D2.RangeT.cut_tail_eq_ok] using D2.RangeT.cut_tail_total r i j, ?_, ?_, ?_⟩
  · rintro q ⟨-, rfl⟩ x y
    simp only [D2.RangeT.Has, Seg]; omega
  · rintro h0 h1 q ⟨-, rfl⟩ x y
    simp only [D2.RangeT.Has, Seg]; omega
  · rintro h0 h1 q ⟨-, rfl⟩ x y
    simp only [D2.RangeT.Has, Seg]; omega
  · rintro q hr ⟨hc, rfl⟩
    unfold D2.RangeT.Int32 InI32 at hr
    obtain ⟨b0, s0, b1, s1⟩ := r
    simp only [D2.RangeT.mk.injEq, InI32, true_and, and_true] at * <;> omega
  · rintro q hr ⟨hc, rfl⟩
    unfold D2.RangeT.Int32 InI32 at hr
    obtain ⟨b0, s0, b1, s1⟩ := r
    simp only [D2.RangeT.mk.injEq, InI32, true_and, and_true] at * <;> omega
  · rintro q hr ⟨hc, rfl⟩
    unfold D2.RangeT.Int32 InI32 at hr
    obtain ⟨b0, s0, b1, s1⟩ := r
    simp only [D2.RangeT.mk.injEq, InI32, true_and, and_true] at * <;> omega
  · rintro q t ⟨hc, rfl⟩ ⟨hc', rfl⟩
    simp only [D2.RangeT.mk.injEq, InI32, true_and, and_true] at * <;> omega
  · rintro q t ⟨hc, rfl⟩ ⟨hc', rfl⟩
    simp only [D2.RangeT.mk.injEq, InI32, true_and, and_true] at * <;> omega
  · rintro q t ⟨hc, rfl⟩ ⟨hc', rfl⟩
    simp only [D2.RangeT.mk.injEq, InI32, true_and, and_true] at * <;> omega
  · rintro u v s t ⟨-, rfl⟩ ⟨-, rfl⟩ ⟨-, rfl⟩ ⟨-, rfl⟩
    simp only [D2.RangeT.mk.injEq, true_and, and_true] <;> omega
  · rintro u v s t ⟨-, rfl⟩ ⟨-, rfl⟩ ⟨-, rfl⟩ ⟨-, rfl⟩
    simp only [D2.RangeT.mk.injEq, true_and, and_true] <;> omega
  · rintro u v s t ⟨-, rfl⟩ ⟨-, rfl⟩ ⟨-, rfl⟩ ⟨-, rfl⟩
    simp only [D2.RangeT.mk.injEq, true_and, and_true] <;> omega
  · rintro q ⟨-, rfl⟩ d
    match d with
    | 0 => simp only [D2.RangeT.end_0]; congr 1; omega
    | 1 => simp only [D2.RangeT.end_1]; congr 1; omega
    | d + 2 =>
      simp only [D2.RangeT.end_, D2.RangeT.begin_, D2.RangeT.size, D2.sel]
  · rintro q ⟨-, rfl⟩ d; rfl
  · intro h; exact ⟨_, h, rfl⟩
  · intro h; exact ⟨_, h, rfl⟩
  · intro h; exact ⟨_, h, rfl⟩

example : (D2.RangeT.mk (-2) 9 0 4).cut_head 2 1 = .ok ⟨0, 7, 1, 3⟩ := by decide

/-- C16 (3D): `tran` shifts the point set, `cut_head` / `cut_tail` remove the first / last
points of each dimension; every operation is undone by the negated arguments, composes
additively, and any two commute; `cut_head` keeps every end, `cut_tail` every begin; the only
way not to return is signed overflow, which happens exactly when a new field is not
representable. -/
theorem C16_d3 (chk : Bool) (r : D3.RangeT) (i j k a b c : Int) :
    (∀ q, r.tran i j k = .ok q → ∀ x y z, q.Has x y z ↔ r.Has (x - i) (y - j) (z - k)) ∧
    (0 ≤ i → 0 ≤ j → 0 ≤ k → ∀ q, r.cut_head i j k = .ok q → ∀ x y z,
      q.Has x y z ↔ r.Has x y z ∧ r.b0 + i ≤ x ∧ r.b1 + j ≤ y ∧ r.b2 + k ≤ z) ∧
    (0 ≤ i → 0 ≤ j → 0 ≤ k → ∀ q, r.cut_tail i j k = .ok q → ∀ x y z,
      q.Has x y z ↔ r.Has x y z ∧ x < r.b0 + r.s0 - i ∧ y < r.b1 + r.s1 - j ∧ z < r.b2 + r.s2 - k) ∧
    (∀ q, r.Int32 → r.tran i j k = .ok q → q.tran (-i) (-j) (-k) = .ok r) ∧
    (∀ q, r.Int32 → r.cut_head i j k = .ok q → q.cut_head (-i) (-j) (-k) = .ok r) ∧
    (∀ q, r.Int32 → r.cut_tail i j k = .ok q → q.cut_tail (-i) (-j) (-k) = .ok r) ∧
    (∀ q t, r.tran i j k = .ok q → q.tran a b c = .ok t → r.tran (i + a) (j + b) (k + c) = .ok t) ∧
    (∀ q t, r.cut_head i j k = .ok q → q.cut_head a b c = .ok t → r.cut_head (i + a) (j + b) (k + c) = .ok t) ∧
    (∀ q t, r.cut_tail i j k = .ok q → q.cut_tail a b c = .ok t → r.cut_tail (i + a) (j + b) (k + c) = .ok t) ∧
    (∀ u v s t, r.tran i j k = .ok u → u.cut_head a b c = .ok s → r.cut_head a b c = .ok v → v.tran i j k = .ok t → s = t) ∧
    (∀ u v s t, r.tran i j k = .ok u → u.cut_tail a b c = .ok s → r.cut_tail a b c = .ok v → v.tran i j k = .ok t → s = t) ∧
    (∀ u v s t, r.cut_head i j k = .ok u → u.cut_tail a b c = .ok s → r.cut_tail a b c = .ok v → v.cut_head i j k = .ok t → s = t) ∧
    (∀ q, r.cut_head i j k = .ok q → ∀ d, q.end_ chk d = r.end_ chk d) ∧
    (∀ q, r.cut_tail i j k = .ok q → ∀ d, q.begin_ chk d = r.begin_ chk d) ∧
    ((∃ q, r.tran i j k = .ok q) ∨ r.tran i j k = .ub .overflow) ∧
    ((∃ q, r.cut_head i j k = .ok q) ∨ r.cut_head i j k = .ub .overflow) ∧
    ((∃ q, r.cut_tail i j k = .ok q) ∨ r.cut_tail i j k = .ub .overflow) ∧
    ((InI32 (r.b0 + i) ∧ InI32 (r.b1 + j) ∧ InI32 (r.b2 + k)) → ∃ q, r.tran i j k = .ok q) ∧
    ((InI32 (r.s0 - i) ∧ InI32 (r.s1 - j) ∧ InI32 (r.s2 - k)) → ∃ q, r.cut_tail i j k = .ok q) ∧
    ((InI32 (r.b0 + i) ∧ InI32 (r.s0 - i) ∧ InI32 (r.b1 + j) ∧ InI32 (r.s1 - j) ∧ InI32 (r.b2 + k) ∧ InI32 (r.s2 - k)) → ∃ q, r.cut_head i j k = .ok q) := by
  simp only [D3.RangeT.tran_eq_ok, D3.RangeT.cut_head_eq_ok, D3.RangeT.cut_tail_eq_ok]
  refine ⟨?_, ?_, ?_, ?_, ?_, ?_, ?_, ?_, ?_, ?_, ?_, ?_, ?_, ?_, by simpa only [D3.RangeT.tran_eq_ok] using D3.RangeT.tran_total r i j k, by simpa only [D3.RangeT.cut_head_eq_ok] using D3.RangeT.cut_head_total r i j k, by simpa only [D3.RangeT.cut_tail_eq_ok] using D3.RangeT.cut_tail_total r i j k, ?_, ?_, ?_⟩
  · rintro q ⟨-, rfl⟩ x y z
    simp only [D3.RangeT.Has, Seg]; omega
  · rintro h0 h1 h2 q ⟨-, rfl⟩ x y z
    simp only [D3.RangeT.Has, Seg]; omega
  · rintro h0 h1 h2 q ⟨-, rfl⟩ x y z
    simp only [D3.RangeT.Has, Seg]; omega
  · rintro q hr ⟨hc, rfl⟩
    unfold D3.RangeT.Int32 InI32 at hr
    obtain ⟨b0, s0, b1, s1, b2, s2⟩ := r
    simp only [D3.RangeT.mk.injEq, InI32, true_and, and_true] at * <;> omega
  · rintro q hr ⟨hc, rfl⟩
    unfold D3.RangeT.Int32 InI32 at hr
    obtain ⟨b0, s0, b1, s1, b2, s2⟩ := r
    simp only [D3.RangeT.mk.injEq, InI32, true_and, and_true] at * <;> omega
  · rintro q hr ⟨hc, rfl⟩
    unfold D3.RangeT.Int32 InI32 at hr
    obtain ⟨b0, s0, b1, s1, b2, s2⟩ := r
    simp only [D3.RangeT.mk.injEq, InI32, true_and, and_true] at * <;> omega
  · rintro q t ⟨hc, rfl⟩ ⟨hc', rfl⟩
    simp only [D3.RangeT.mk.injEq, InI32, true_and, and_true] at * <;> omega
  · rintro q t ⟨hc, rfl⟩ ⟨hc', rfl⟩
    simp only [D3.RangeT.mk.injEq, InI32, true_and, and_true] at * <;> omega
  · rintro q t ⟨hc, rfl⟩ ⟨hc', rfl⟩
    simp only [D3.RangeT.mk.injEq, InI32, true_and, and_true] at * <;> omega
  · rintro u v s t ⟨-, rfl⟩ ⟨-, rfl⟩ ⟨-, rfl⟩ ⟨-, rfl⟩
    simp only [D3.RangeT.mk.injEq, true_and, and_true] <;> omega
  · rintro u v s t ⟨-, rfl⟩ ⟨-, rfl⟩ ⟨-, rfl⟩ ⟨-, rfl⟩
    simp only [D3.RangeT.mk.injEq, true_and, and_true] <;> omega
  · rintro u v s t ⟨-, rfl⟩ ⟨-, rfl⟩ ⟨-, rfl⟩ ⟨-, rfl⟩
    simp only [D3.RangeT.mk.injEq, true_and, and_true] <;> omega
  · rintro q ⟨-, rfl⟩ d
    match d with
    | 0 => simp only [D3.RangeT.end_0]; congr 1; omega
    | 1 => simp only [D3.RangeT.end_1]; congr 1; omega
    | 2 => simp only [D3.RangeT.end_2]; congr 1; omega
    | d + 3 =>
      simp only [D3.RangeT.end_, D3.RangeT.begin_, D3.RangeT.size, D3.sel]
  · rintro q ⟨-, rfl⟩ d; rfl
  · intro h; exact ⟨_, h, rfl⟩
  · intro h; exact ⟨_, h, rfl⟩
  · intro h; exact ⟨_, h, rfl⟩

example : (D3.RangeT.mk (-2) 9 0 4 3 5).cut_head 2 1 3 = .ok ⟨0, 7, 1, 3, 6, 2⟩ := by decide

/-! ## C17 is_overlap decides intersection -/

/-- C17 fails (1D): an empty range strictly inside another one "overlaps" it although no
point is common. -/
theorem C17_false_d1 (chk : Bool) : ∃ a r : D1.RangeT, a.EndsFit ∧ r.EndsFit ∧
    a.is_overlap chk r = .ok true ∧ ¬ ∃ x, a.Has x ∧ r.Has x := by
  refine ⟨⟨0, 10⟩, ⟨5, 0⟩, by simp [D1.RangeT.EndsFit, InI32], by simp [D1.RangeT.EndsFit, InI32], ?_, ?_⟩
  · cases chk <;> decide
  · rintro ⟨x, h1, h2⟩
    simp only [D1.RangeT.Has, Seg] at h1 h2; omega

/-- C17 (1D), partial: `is_overlap` returns, is symmetric, never misses a common point, and on
ranges with at least one point per dimension it is true exactly when a point is common.
Missing: ranges with a dimension of size zero or less (`C17_false_d1`). -/
theorem C17_d1_partial (chk : Bool) (a r : D1.RangeT) (ha : a.EndsFit) (hr : r.EndsFit) :
    (∃ t, a.is_overlap chk r = .ok t) ∧
    a.is_overlap chk r = r.is_overlap chk a ∧
    (∀ x, a.Has x → r.Has x → a.is_overlap chk r = .ok true) ∧
    (a.Pos → r.Pos → (a.is_overlap chk r = .ok true ↔ ∃ x, a.Has x ∧ r.Has x)) := by
  rw [D1.RangeT.is_overlap_eq chk a r ha hr, D1.RangeT.is_overlap_eq chk r a hr ha]
  refine ⟨⟨_, rfl⟩, ?_, ?_, ?_⟩
  · congr 1; rw [decide_eq_decide]; constructor <;> (intro h; simp only [h, and_self])
  · intro x h1 h2
    simp only [D1.RangeT.Has, Seg] at h1 h2
    congr 1; rw [decide_eq_true_iff]; omega
  · intro pa pr
    simp only [D1.RangeT.Pos, D1.RangeT.Has, Seg, Out.ok.injEq, decide_eq_true_eq] at *
    constructor
    · intro h
      refine ⟨max a.b r.b, ?_⟩
      omega
    · rintro ⟨x, h⟩; omega

example : (D1.RangeT.mk 0 10).EndsFit ∧ (D1.RangeT.mk 0 10).Pos := by
  simp [D1.RangeT.EndsFit, D1.RangeT.Pos, InI32]

/-- C17 fails (2D): an empty range strictly inside another one "overlaps" it although no
point is common. -/
theorem C17_false_d2 (chk : Bool) : ∃ a r : D2.RangeT, a.EndsFit ∧ r.EndsFit ∧
    a.is_overlap chk r = .ok true ∧ ¬ ∃ x y, a.Has x y ∧ r.Has x y := by
  refine ⟨⟨0, 10, 0, 10⟩, ⟨5, 0, 5, 0⟩, by simp [D2.RangeT.EndsFit, InI32], by simp [D2.RangeT.EndsFit, InI32], ?_, ?_⟩
  · cases chk <;> decide
  · rintro ⟨x, y, h1, h2⟩
    simp only [D2.RangeT.Has, Seg] at h1 h2; omega

/-- C17 (2D), partial: `is_overlap` returns, is symmetric, never misses a common point, and on
ranges with at least one point per dimension it is true exactly when a point is common.
Missing: ranges with a dimension of size zero or less (`C17_false_d2`). -/
theorem C17_d2_partial (chk : Bool) (a r : D2.RangeT) (ha : a.EndsFit) (hr : r.EndsFit) :
    (∃ t, a.is_overlap chk r = .ok t) ∧
    a.is_overlap chk r = r.is_overlap chk a ∧
    (∀ x y, a.Has x y → r.Has x y → a.is_overlap chk r = .ok true) ∧
    (a.Pos → r.Pos → (a.is_overlap chk r = .ok true ↔ ∃ x y, a.Has x y ∧ r.Has x y)) := by
  rw [D2.RangeT.is_overlap_eq chk a r ha hr, D2.RangeT.is_overlap_eq chk r a hr ha]
  refine ⟨⟨_, rfl⟩, ?_, ?_, ?_⟩
  · congr 1; rw [decide_eq_decide]; constructor <;> (intro h; simp only [h, and_self])
  · intro x y h1 h2
    simp only [D2.RangeT.Has, Seg] at h1 h2
    congr 1; rw [decide_eq_true_iff]; omega
  · intro pa pr
    simp only [D2.RangeT.Pos, D2.RangeT.Has, Seg, Out.ok.injEq, decide_eq_true_eq] at *
    constructor
    · intro h
      refine ⟨max a.b0 r.b0, max a.b1 r.b1, ?_⟩
      omega
    · rintro ⟨x, y, h⟩; omega

example : (D2.RangeT.mk 0 10 0 10).EndsFit ∧ (D2.RangeT.mk 0 10 0 10).Pos := by
  simp [D2.RangeT.EndsFit, D2.RangeT.Pos, InI32]

/-- C17 fails (3D): an empty range strictly inside another one "overlaps" it although no
point is common. -/
theorem C17_false_d3 (chk : Bool) : ∃ a r : D3.RangeT, a.EndsFit ∧ r.EndsFit ∧
    a.is_overlap chk r = .ok true ∧ ¬ ∃ x y z, a.Has x y z ∧ r.Has x y z := by
  refine ⟨⟨0, 10, 0, 10, 0, 10⟩, ⟨5, 0, 5, 0, 5, 0⟩, by simp [D3.RangeT.EndsFit, InI32], by simp [D3.RangeT.EndsFit, InI32], ?_, ?_⟩
  · cases chk <;> decide
  · rintro ⟨x, y, z, h1, h2⟩
    simp only [D3.RangeT.Has, Seg] at h1 h2; omega

/-- C17 (3D), partial: `is_overlap` returns, is symmetric, never misses a common point, and on
ranges with at least one point per dimension it is true exactly when a point is common.
Missing: ranges with a dimension of size zero or less (`C17_false_d3`). -/
theorem C17_d3_partial (chk : Bool) (a r : D3.RangeT) (ha : a.EndsFit) (hr : r.EndsFit) :
    (∃ t, a.is_overlap chk r = .ok t) ∧
    a.is_overlap chk r = r.is_overlap chk a ∧
    (∀ x y z, a.Has x y z → r.Has x y z → a.is_overlap chk r = .ok true) ∧
    (a.Pos → r.Pos → (a.is_overlap chk r = .ok true ↔ ∃ x y z, a.Has x y z ∧ r.Has x y z)) := by
  rw [D3.RangeT.is_overlap_eq chk a r ha hr, D3.RangeT.is_overlap_eq chk r a hr ha]
  refine ⟨⟨_, rfl⟩, ?_, ?_, ?_⟩
  · congr 1; rw [decide_eq_decide]; constructor <;> (intro h; simp only [h, and_self])
  · intro x y z h1 h2
    simp only [D3.RangeT.Has, Seg] at h1 h2
    congr 1; rw [decide_eq_true_iff]; omega
  · intro pa pr
    simp only [D3.RangeT.Pos, D3.RangeT.Has, Seg, Out.ok.injEq, decide_eq_true_eq] at *
    constructor
    · intro h
      refine ⟨max a.b0 r.b0, max a.b1 r.b1, max a.b2 r.b2, ?_⟩
      omega
    · rintro ⟨x, y, z, h⟩; omega

example : (D3.RangeT.mk 0 10 0 10 0 10).EndsFit ∧ (D3.RangeT.mk 0 10 0 10 0 10).Pos := by
  simp [D3.RangeT.EndsFit, D3.RangeT.Pos, InI32]

/-! ## C18 overlap is the intersection -/

/-- C18 (1D): the overlap contains exactly the common points (both builds); it is
commutative and idempotent; it is returned whenever `is_overlap` is true; the checked build
throws exactly when `is_overlap` is false, the unchecked build never throws. -/
theorem C18_d1 (chk : Bool) (a r : D1.RangeT) :
    (∀ o, a.overlap chk r = .ok o → ∀ x, o.Has x ↔ a.Has x ∧ r.Has x) ∧
    (∀ o, a.overlap chk r = .ok o → r.overlap chk a = .ok o) ∧
    (a.Int32 → a.EndsFit → (chk = true → a.Pos) → a.overlap chk a = .ok a) ∧
    (a.Int32 → r.Int32 → a.EndsFit → r.EndsFit → a.is_overlap chk r = .ok true → ∃ o, a.overlap chk r = .ok o) ∧
    (∀ e, a.overlap true r = .err e ↔ e = .overlapNotFound ∧ a.is_overlap true r = .ok false) ∧
    (∀ e, a.overlap false r ≠ .err e) := by
  refine ⟨?_, ?_, ?_, ?_, ?_, ?_⟩
  · intro o ho x
    obtain ⟨-, -, -, rfl⟩ := (D1.RangeT.overlap_rest_eq_ok chk a r o).1 (D1.RangeT.overlap_ok_rest ho)
    simp only [D1.RangeT.Has, Seg]; omega
  · intro o ho
    have hr := (D1.RangeT.overlap_rest_eq_ok chk a r o).1 (D1.RangeT.overlap_ok_rest ho)
    obtain ⟨fa, fr, fw, rfl⟩ := hr
    have hrest : D1.RangeT.overlap.rest chk r a = .ok _ :=
      (D1.RangeT.overlap_rest_eq_ok chk r a _).2 ⟨fr, fa, by simpa only [Int.min_comm, Int.max_comm] using fw, rfl⟩
    have e : a.is_overlap chk r = r.is_overlap chk a := (C17_d1_partial chk a r fa fr).2.1
    cases chk
    · rw [D1.RangeT.overlap_false, hrest]
      simp only [Int.min_comm, Int.max_comm]
    · rw [D1.RangeT.overlap_true_ok] at ho ⊢
      rw [← e]
      refine ⟨ho.1, ?_⟩
      rw [hrest]
      simp only [Int.min_comm, Int.max_comm]
  · intro h1 h2 h3
    have hrest : D1.RangeT.overlap.rest chk a a = .ok a := by
      rw [D1.RangeT.overlap_rest_eq_ok]
      obtain ⟨b, s⟩ := a
      simp only [D1.RangeT.mk.injEq, D1.RangeT.Int32, D1.RangeT.EndsFit, InI32] at *
      omega
    cases chk
    · rw [D1.RangeT.overlap_false, hrest]
    · rw [D1.RangeT.overlap_true_ok]
      refine ⟨?_, hrest⟩
      rw [D1.RangeT.is_overlap_eq _ a a h2 h2]
      have := h3 rfl
      simp only [D1.RangeT.Pos] at this
      congr 1; rw [decide_eq_true_iff]; omega
  · intro h1 h2 f1 f2 h
    have hrest : ∃ o, D1.RangeT.overlap.rest chk a r = .ok o := by
      rw [D1.RangeT.is_overlap_eq _ a r f1 f2] at h
      simp only [Out.ok.injEq, decide_eq_true_eq] at h
      refine ⟨_, (D1.RangeT.overlap_rest_eq_ok chk a r _).2 ⟨f1, f2, ?_, rfl⟩⟩
      simp only [D1.RangeT.Int32, D1.RangeT.EndsFit, InI32] at *
      omega
    obtain ⟨o, ho⟩ := hrest
    refine ⟨o, ?_⟩
    cases chk
    · rw [D1.RangeT.overlap_false, ho]
    · rw [D1.RangeT.overlap_true_ok]; exact ⟨h, ho⟩
  · exact fun e => D1.RangeT.overlap_true_err a r e
  · exact fun e => D1.RangeT.overlap_false_err a r e

example : (D1.RangeT.mk 0 10).overlap true ⟨7, 9⟩ = .ok ⟨7, 3⟩ := by decide

/-- C18 (2D): the overlap contains exactly the common points (both builds); it is
commutative and idempotent; it is returned whenever `is_overlap` is true; the checked build
throws exactly when `is_overlap` is false, the unchecked build never throws. -/
theorem C18_d2 (chk : Bool) (a r : D2.RangeT) :
    (∀ o, a.overlap chk r = .ok o → ∀ x y, o.Has x y ↔ a.Has x y ∧ r.Has x y) ∧
    (∀ o, a.overlap chk r = .ok o → r.overlap chk a = .ok o) ∧
    (a.Int32 → a.EndsFit → (chk = true → a.Pos) → a.overlap chk a = .ok a) ∧
    (a.Int32 → r.Int32 → a.EndsFit → r.EndsFit → a.is_overlap chk r = .ok true → ∃ o, a.overlap chk r = .ok o) ∧
    (∀ e, a.overlap true r = .err e ↔ e = .overlapNotFound ∧ a.is_overlap true r = .ok false) ∧
    (∀ e, a.overlap false r ≠ .err e) := by
  refine ⟨?_, ?_, ?_, ?_, ?_, ?_⟩
  · intro o ho x y
    obtain ⟨-, -, -, rfl⟩ := (D2.RangeT.overlap_rest_eq_ok chk a r o).1 (D2.RangeT.overlap_ok_rest ho)
    simp only [D2.RangeT.Has, Seg]; omega
  · intro o ho
    have hr := (D2.RangeT.overlap_rest_eq_ok chk a r o).1 (D2.RangeT.overlap_ok_rest ho)
    obtain ⟨fa, fr, fw, rfl⟩ := hr
    have hrest : D2.RangeT.overlap.rest chk r a = .ok _ :=
      (D2.RangeT.overlap_rest_eq_ok chk r a _).2 ⟨fr, fa, by simpa only [Int.min_comm, Int.max_comm] using fw, rfl⟩
    have e : a.is_overlap chk r = r.is_overlap chk a := (C17_d2_partial chk a r fa fr).2.1
    cases chk
    · rw [D2.RangeT.overlap_false, hrest]
      simp only [Int.min_comm, Int.max_comm]
    · rw [D2.RangeT.overlap_true_ok] at ho ⊢
      rw [← e]
      refine ⟨ho.1, ?_⟩
      rw [hrest]
      simp only [Int.min_comm, Int.max_comm]
  · intro h1 h2 h3
    have hrest : D2.RangeT.overlap.rest chk a a = .ok a := by
      rw [D2.RangeT.overlap_rest_eq_ok]
      obtain ⟨b0, s0, b1, s1⟩ := a
      simp only [D2.RangeT.mk.injEq, D2.RangeT.Int32, D2.RangeT.EndsFit, InI32] at *
      omega
    cases chk
    · rw [D2.RangeT.overlap_false, hrest]
    · rw [D2.RangeT.overlap_true_ok]
      refine ⟨?_, hrest⟩
      rw [D2.RangeT.is_overlap_eq _ a a h2 h2]
      have := h3 rfl
      simp only [D2.RangeT.Pos] at this
      congr 1; rw [decide_eq_true_iff]; omega
  · intro h1 h2 f1 f2 h
    have hrest : ∃ o, D2.RangeT.overlap.rest chk a r = .ok o := by
      rw [D2.RangeT.is_overlap_eq _ a r f1 f2] at h
      simp only [Out.ok.injEq, decide_eq_true_eq] at h
      refine ⟨_, (D2.RangeT.overlap_rest_eq_ok chk a r _).2 ⟨f1, f2, ?_, rfl⟩⟩
      simp only [D2.RangeT.Int32, D2.RangeT.EndsFit, InI32] at *
      omega
    obtain ⟨o, ho⟩ := hrest
    refine ⟨o, ?_⟩
    cases chk
    · rw [D2.RangeT.overlap_false, ho]
    · rw [D2.RangeT.overlap_true_ok]; exact ⟨h, ho⟩
  · exact fun e => D2.RangeT.overlap_true_err a r e
  · exact fun e => D2.RangeT.overlap_false_err a r e

example : (D2.RangeT.mk 0 10 0 10).overlap true ⟨7, 9, 7, 9⟩ = .ok ⟨7, 3, 7, 3⟩ := by decide

/-- C18 (3D): the overlap contains exactly the common points (both builds); it is
commutative and idempotent; it is returned whenever `is_overlap` is true; the checked build
throws exactly when `is_overlap` is false, the unchecked build never throws. -/
theorem C18_d3 (chk : Bool) (a r : D3.RangeT) :
    (∀ o, a.overlap chk r = .ok o → ∀ x y z, o.Has x y z ↔ a.Has x y z ∧ r.Has x y z) ∧
    (∀ o, a.overlap chk r = .ok o → r.overlap chk a = .ok o) ∧
    (a.Int32 → a.EndsFit → (chk = true → a.Pos) → a.overlap chk a = .ok a) ∧
    (a.Int32 → r.Int32 → a.EndsFit → r.EndsFit → a.is_overlap chk r = .ok true → ∃ o, a.overlap chk r = .ok o) ∧
    (∀ e, a.overlap true r = .err e ↔ e = .overlapNotFound ∧ a.is_overlap true r = .ok false) ∧
    (∀ e, a.overlap false r ≠ .err e) := by
  refine ⟨?_, ?_, ?_, ?_, ?_, ?_⟩
  · intro o ho x y z
    obtain ⟨-, -, -, rfl⟩ := (D3.RangeT.overlap_rest_eq_ok chk a r o).1 (D3.RangeT.overlap_ok_rest ho)
    simp only [D3.RangeT.Has, Seg]; omega
  · intro o ho
    have hr := (D3.RangeT.overlap_rest_eq_ok chk a r o).1 (D3.RangeT.overlap_ok_rest ho)
    obtain ⟨fa, fr, fw, rfl⟩ := hr
    have hrest : D3.RangeT.overlap.rest chk r a = .ok _ :=
      (D3.RangeT.overlap_rest_eq_ok chk r a _).2 ⟨fr, fa, by simpa only [Int.min_comm, Int.max_comm] using fw, rfl⟩
    have e : a.is_overlap chk r = r.is_overlap chk a := (C17_d3_partial chk a r fa fr).2.1
    cases chk
    · rw [D3.RangeT.overlap_false, hrest]
      simp only [Int.min_comm, Int.max_comm]
    · rw [D3.RangeT.overlap_true_ok] at ho ⊢
      rw [← e]
      refine ⟨ho.1, ?_⟩
      rw [hrest]
      simp only [Int.min_comm, Int.max_comm]
  · intro h1 h2 h3
    have hrest : D3.RangeT.overlap.rest chk a a = .ok a := by
      rw [D3.RangeT.overlap_rest_eq_ok]
      obtain ⟨b0, s0, b1, s1, b2, s2⟩ := a
      simp only [D3.RangeT.mk.injEq, D3.RangeT.Int32, D3.RangeT.EndsFit, InI32] at *
      omega
    cases chk
    · rw [D3.RangeT.overlap_false, hrest]
    · rw [D3.RangeT.overlap_true_ok]
      refine ⟨?_, hrest⟩
      rw [D3.RangeT.is_overlap_eq _ a a h2 h2]
      have := h3 rfl
      simp only [D3.RangeT.Pos] at this
      congr 1; rw [decide_eq_true_iff]; omega
  · intro h1 h2 f1 f2 h
    have hrest : ∃ o, D3.RangeT.overlap.rest chk a r = .ok o := by
      rw [D3.RangeT.is_overlap_eq _ a r f1 f2] at h
      simp only [Out.ok.injEq, decide_eq_true_eq] at h
      refine ⟨_, (D3.RangeT.overlap_rest_eq_ok chk a r _).2 ⟨f1, f2, ?_, rfl⟩⟩
      simp only [D3.RangeT.Int32, D3.RangeT.EndsFit, InI32] at *
      omega
    obtain ⟨o, ho⟩ := hrest
    refine ⟨o, ?_⟩
    cases chk
    · rw [D3.RangeT.overlap_false, ho]
    · rw [D3.RangeT.overlap_true_ok]; exact ⟨h, ho⟩
  · exact fun e => D3.RangeT.overlap_true_err a r e
  · exact fun e => D3.RangeT.overlap_false_err a r e

example : (D3.RangeT.mk 0 10 0 10 0 10).overlap true ⟨7, 9, 7, 9, 7, 9⟩ = .ok ⟨7, 3, 7, 3, 7, 3⟩ := by decide

end Verif.Props
