import Verif.Model.D0
import Verif.Proof.Range
/-!
# C31 flag and range conversions, C32 dimension argument check, C34 0D arrays
-/
set_option linter.unusedSimpArgs false
namespace Verif.Props
open Spec

/-- C31: complement is an involution exchanging N and P (and fixing the centre / interior);
flag-to-range and range-to-flag are inverse to each other; the `_c` variants are the plain
conversion of the complement and the complement of the plain conversion.  The conversions
from a range exist exactly for N, P and IN. -/
theorem C31 :
    (∀ f, flra.f_c (flra.f_c f) = f) ∧
    (flra.f_c .N = .P ∧ flra.f_c .P = .N ∧ flra.f_c .C = .C) ∧
    (∀ r q, flra.r_c r = some q → flra.r_c q = some r) ∧
    (flra.r_c .N = some .P ∧ flra.r_c .P = some .N ∧ flra.r_c .IN = some .IN) ∧
    (∀ f, flra.r_f (flra.f_r f) = some f) ∧
    (∀ r f, flra.r_f r = some f → flra.f_r f = r) ∧
    (∀ f, flra.f_r_c f = flra.f_r (flra.f_c f) ∧ some (flra.f_r_c f) = flra.r_c (flra.f_r f)) ∧
    (∀ r, flra.r_f_c r = (flra.r_f r).map flra.f_c ∧ flra.r_f_c r = (flra.r_c r).bind flra.r_f) ∧
    (∀ r, ((flra.r_c r).isSome ↔ r ≠ .ALL) ∧ ((flra.r_f r).isSome ↔ r ≠ .ALL) ∧ ((flra.r_f_c r).isSome ↔ r ≠ .ALL)) := by
  refine ⟨?_, ⟨rfl, rfl, rfl⟩, ?_, ⟨rfl, rfl, rfl⟩, ?_, ?_, ?_, ?_, ?_⟩
  · intro f; cases f <;> rfl
  · intro r q; cases r <;> intro h <;> cases h <;> rfl
  · intro f; cases f <;> rfl
  · intro r f; cases r <;> intro h <;> cases h <;> rfl
  · intro f; cases f <;> exact ⟨rfl, rfl⟩
  · intro r; cases r <;> exact ⟨rfl, rfl⟩
  · intro r; cases r <;> simp [flra.r_c, flra.r_f, flra.r_f_c]

example : flra.r_f_c .N = some .P ∧ flra.f_r_c .C = .IN := ⟨rfl, rfl⟩

/-- A query with a dimension argument behaves as claimed by C32 in a namespace of dimension
`D`: with checking it throws the dimension error exactly for `d ≥ D` and nothing else;
without checking it never throws. -/
def DimChecked {α : Type} (D : Nat) (q : Bool → Nat → Out α) : Prop :=
  (∀ d, D ≤ d → q true d = .err (.dim d D)) ∧
  (∀ d, d < D → ∀ chk e, q chk d ≠ .err e) ∧
  (∀ d e, q false d ≠ .err e)

/-- C32 (1D): every query of `RangeT` and `SizeT` that takes a dimension.  (All of them are
functions of the object: they have no effect.)  `check_range` checks the dimension first. -/
theorem C32_d1 (r : D1.RangeT) (s : D1.SizeT) (t : RA) (fl : Side) (f : FL) (ii : Int) :
    DimChecked 1 (fun chk d => r.begin_ chk d) ∧
    DimChecked 1 (fun chk d => r.size chk d) ∧
    DimChecked 1 (fun chk d => r.end_ chk d) ∧
    DimChecked 1 (fun chk d => r.last chk d) ∧
    DimChecked 1 (fun chk d => r.bound chk d fl) ∧
    DimChecked 1 (fun chk d => s.in' chk d) ∧
    DimChecked 1 (fun chk d => s.n chk d) ∧
    DimChecked 1 (fun chk d => s.p chk d) ∧
    DimChecked 1 (fun chk d => s.begin_ chk d t) ∧
    DimChecked 1 (fun chk d => s.end_ chk d t) ∧
    DimChecked 1 (fun chk d => s.size chk d t) ∧
    DimChecked 1 (fun chk d => s.last chk d t) ∧
    DimChecked 1 (fun chk d => s.bound chk d t fl) ∧
    DimChecked 1 (fun chk d => s.mirror chk d fl ii) ∧
    DimChecked 1 (fun chk d => s.periodic chk d f ii) ∧
    (∀ d loc off, 1 ≤ d → r.check_range true d loc ii off = .err (.dim d 1)) := by
  have c1 : ∀ d, 1 ≤ d → check_d true D1.D d = .err (.dim d 1) := by
    intro d h; simp [check_d, D1.D, h]
  have c2 : ∀ chk d e, d < 1 → check_d chk D1.D d ≠ .err e := by
    intro chk d e h; rw [show check_d chk D1.D d = .ok () from check_d_ok h]; simp
  have c3 : ∀ d e, check_d false D1.D d ≠ .err e := by intro d e; simp [check_d]
  have cc : ∀ chk d, (chk = false ∨ d < 1) → ∀ e, check_d chk D1.D d ≠ .err e := by
    rintro chk d (rfl | h) e
    · exact c3 d e
    · exact c2 chk d e h
  have cs : ∀ (x : Int) e, Out.ok x ≠ .err e := by intro x e; simp
  have mk : ∀ {α : Type} (q : Bool → Nat → Out α), (∀ d, 1 ≤ d → q true d = .err (.dim d 1)) →
      (∀ chk d, (chk = false ∨ d < 1) → ∀ e, q chk d ≠ .err e) → DimChecked 1 q :=
    fun q h1 h2 => ⟨h1, fun d hd chk e => h2 chk d (.inr hd) e, fun d e => h2 false d (.inl rfl) e⟩
  have rb : DimChecked 1 (fun chk d => r.begin_ chk d) := mk _
    (fun d h => by simp only [D1.RangeT.begin_, c1 d h, Out.err_bind])
    (fun chk d h e => Out.noErr_bind (cc chk d h e) fun _ => cs _ _)
  have rs : DimChecked 1 (fun chk d => r.size chk d) := mk _
    (fun d h => by simp only [D1.RangeT.size, c1 d h, Out.err_bind])
    (fun chk d h e => Out.noErr_bind (cc chk d h e) fun _ => cs _ _)
  have ne : ∀ {α : Type} {q : Bool → Nat → Out α}, DimChecked 1 q → ∀ chk d, (chk = false ∨ d < 1) → ∀ e, q chk d ≠ .err e := by
    rintro α q h chk d (rfl | hd) e
    · exact h.2.2 d e
    · exact h.2.1 d hd chk e
  have re : DimChecked 1 (fun chk d => r.end_ chk d) := mk _
    (fun d h => by simp only [D1.RangeT.end_, rb.1 d h, Out.err_bind])
    (fun chk d h e => by
      unfold D1.RangeT.end_
      exact Out.noErr_bind (ne rb chk d h e) fun _ => Out.noErr_bind (ne rs chk d h e) fun _ => noErr_i32 _ _)
  have rl : DimChecked 1 (fun chk d => r.last chk d) := mk _
    (fun d h => by simp only [D1.RangeT.last, re.1 d h, Out.err_bind])
    (fun chk d h e => by
      unfold D1.RangeT.last
      exact Out.noErr_bind (ne re chk d h e) fun _ => noErr_i32 _ _)
  have sf : ∀ x0, DimChecked 1 (fun chk d => (do check_d chk D1.D d; .ok x0 : Out Int)) :=
    fun x0 => mk _ (fun d h => by simp only [c1 d h, Out.err_bind])
      (fun chk d h e => Out.noErr_bind (cc chk d h e) fun _ => cs _ _)
  have s0 : ∀ x : Int, DimChecked 1 (fun chk d => (do check_d chk D1.D d; .ok x : Out Int)) :=
    fun x => mk _ (fun d h => by simp only [c1 d h, Out.err_bind])
      (fun chk d h e => Out.noErr_bind (cc chk d h e) fun _ => by simp)
  have sb : ∀ t, DimChecked 1 (fun chk d => s.begin_ chk d t) := by
    intro t
    refine mk _ (fun d h => by cases t <;> simp only [D1.SizeT.begin_, c1 d h, Out.err_bind]) (fun chk d h e => ?_)
    cases t <;> refine Out.noErr_bind (cc chk d h e) fun _ => ?_
    all_goals first
      | exact noErr_i32 _ _
      | exact Out.noErr_ok _ _
      | exact cs _ _
      | exact Out.noErr_bind (cs _ _) fun _ => noErr_i32 _ _
  have se : ∀ t, DimChecked 1 (fun chk d => s.end_ chk d t) := by
    intro t
    refine mk _ (fun d h => by cases t <;> simp only [D1.SizeT.end_, c1 d h, Out.err_bind]) (fun chk d h e => ?_)
    cases t <;> refine Out.noErr_bind (cc chk d h e) fun _ => ?_
    all_goals first
      | exact noErr_i32 _ _
      | exact Out.noErr_ok _ _
      | exact cs _ _
      | exact Out.noErr_bind (cs _ _) fun _ => Out.noErr_bind (cs _ _) fun _ => noErr_i32 _ _
  have sz : ∀ t, DimChecked 1 (fun chk d => s.size chk d t) := fun t => mk _
    (fun d h => by simp only [D1.SizeT.size, (se t).1 d h, Out.err_bind])
    (fun chk d h e => Out.noErr_bind (ne (se t) chk d h e) fun _ => Out.noErr_bind (ne (sb t) chk d h e) fun _ =>
      Out.noErr_bind (noErr_i32 _ _) fun _ => Out.noErr_ok _ _)
  have sl : ∀ t, DimChecked 1 (fun chk d => s.last chk d t) := fun t => mk _
    (fun d h => by simp only [D1.SizeT.last, (se t).1 d h, Out.err_bind])
    (fun chk d h e => Out.noErr_bind (ne (se t) chk d h e) fun _ => noErr_i32 _ _)
  have sbd : ∀ t fl, DimChecked 1 (fun chk d => s.bound chk d t fl) := by
    intro t fl; cases fl
    · exact sb t
    · exact sl t
  refine ⟨rb, rs, re, rl, ?_, sf _, sf _, sf _, sb t, se t, sz t, sl t, sbd t fl, ?_, ?_, ?_⟩
  · cases fl
    · exact rb
    · exact rl
  · exact mk _ (fun d h => by simp only [D1.SizeT.mirror, (sbd .IN fl).1 d h, Out.err_bind])
      (fun chk d h e => Out.noErr_bind (ne (sbd .IN fl) chk d h e) fun _ => Out.noErr_bind (noErr_i32 _ _) fun _ => noErr_i32 _ _)
  · exact mk _ (fun d h => by simp only [D1.SizeT.periodic, (sl .IN).1 d h, Out.err_bind])
      (fun chk d h e => Out.noErr_bind (ne (sl .IN) chk d h e) fun _ => Out.noErr_bind (noErr_i32 _ _) fun _ => noErr_i32 _ _)
  · intro d loc off h
    simp only [D1.RangeT.check_range, c1 d h, Out.err_bind, if_true]

example : (D1.SizeT.new 2 5 3).last true 0 .IN = .ok 4 ∧
    (D1.SizeT.new 2 5 3).last true 4294967295 .IN = .err (.dim 4294967295 1) := by decide

/-- C32 (2D): every query of `RangeT` and `SizeT` that takes a dimension.  (All of them are
functions of the object: they have no effect.)  `check_range` checks the dimension first. -/
theorem C32_d2 (r : D2.RangeT) (s : D2.SizeT) (t : RA) (fl : Side) (f : FL) (ii : Int) :
    DimChecked 2 (fun chk d => r.begin_ chk d) ∧
    DimChecked 2 (fun chk d => r.size chk d) ∧
    DimChecked 2 (fun chk d => r.end_ chk d) ∧
    DimChecked 2 (fun chk d => r.last chk d) ∧
    DimChecked 2 (fun chk d => r.bound chk d fl) ∧
    DimChecked 2 (fun chk d => s.in' chk d) ∧
    DimChecked 2 (fun chk d => s.n chk d) ∧
    DimChecked 2 (fun chk d => s.p chk d) ∧
    DimChecked 2 (fun chk d => s.begin_ chk d t) ∧
    DimChecked 2 (fun chk d => s.end_ chk d t) ∧
    DimChecked 2 (fun chk d => s.size chk d t) ∧
    DimChecked 2 (fun chk d => s.last chk d t) ∧
    DimChecked 2 (fun chk d => s.bound chk d t fl) ∧
    DimChecked 2 (fun chk d => s.mirror chk d fl ii) ∧
    DimChecked 2 (fun chk d => s.periodic chk d f ii) ∧
    (∀ d loc off, 2 ≤ d → r.check_range true d loc ii off = .err (.dim d 2)) := by
  have c1 : ∀ d, 2 ≤ d → check_d true D2.D d = .err (.dim d 2) := by
    intro d h; simp [check_d, D2.D, h]
  have c2 : ∀ chk d e, d < 2 → check_d chk D2.D d ≠ .err e := by
    intro chk d e h; rw [show check_d chk D2.D d = .ok () from check_d_ok h]; simp
  have c3 : ∀ d e, check_d false D2.D d ≠ .err e := by intro d e; simp [check_d]
  have cc : ∀ chk d, (chk = false ∨ d < 2) → ∀ e, check_d chk D2.D d ≠ .err e := by
    rintro chk d (rfl | h) e
    · exact c3 d e
    · exact c2 chk d e h
  have cs : ∀ x0 x1 d e, D2.sel x0 x1 d ≠ .err e := by
    intro x0 x1 d e; unfold D2.sel; split <;> simp
  have mk : ∀ {α : Type} (q : Bool → Nat → Out α), (∀ d, 2 ≤ d → q true d = .err (.dim d 2)) →
      (∀ chk d, (chk = false ∨ d < 2) → ∀ e, q chk d ≠ .err e) → DimChecked 2 q :=
    fun q h1 h2 => ⟨h1, fun d hd chk e => h2 chk d (.inr hd) e, fun d e => h2 false d (.inl rfl) e⟩
  have rb : DimChecked 2 (fun chk d => r.begin_ chk d) := mk _
    (fun d h => by simp only [D2.RangeT.begin_, c1 d h, Out.err_bind])
    (fun chk d h e => Out.noErr_bind (cc chk d h e) fun _ => cs _ _ _ _)
  have rs : DimChecked 2 (fun chk d => r.size chk d) := mk _
    (fun d h => by simp only [D2.RangeT.size, c1 d h, Out.err_bind])
    (fun chk d h e => Out.noErr_bind (cc chk d h e) fun _ => cs _ _ _ _)
  have ne : ∀ {α : Type} {q : Bool → Nat → Out α}, DimChecked 2 q → ∀ chk d, (chk = false ∨ d < 2) → ∀ e, q chk d ≠ .err e := by
    rintro α q h chk d (rfl | hd) e
    · exact h.2.2 d e
    · exact h.2.1 d hd chk e
  have re : DimChecked 2 (fun chk d => r.end_ chk d) := mk _
    (fun d h => by simp only [D2.RangeT.end_, c1 d h, Out.err_bind])
    (fun chk d h e => by
      unfold D2.RangeT.end_
      refine Out.noErr_bind (cc chk d h e) fun _ => ?_
      exact Out.noErr_bind (ne rb chk d h e) fun _ => Out.noErr_bind (ne rs chk d h e) fun _ => noErr_i32 _ _)
  have rl : DimChecked 2 (fun chk d => r.last chk d) := mk _
    (fun d h => by simp only [D2.RangeT.last, c1 d h, Out.err_bind])
    (fun chk d h e => by
      unfold D2.RangeT.last
      refine Out.noErr_bind (cc chk d h e) fun _ => ?_
      exact Out.noErr_bind (ne re chk d h e) fun _ => noErr_i32 _ _)
  have sf : ∀ x0 x1, DimChecked 2 (fun chk d => (do check_d chk D2.D d; D2.sel x0 x1 d : Out Int)) :=
    fun x0 x1 => mk _ (fun d h => by simp only [c1 d h, Out.err_bind])
      (fun chk d h e => Out.noErr_bind (cc chk d h e) fun _ => cs _ _ _ _)
  have s0 : ∀ x : Int, DimChecked 2 (fun chk d => (do check_d chk D2.D d; .ok x : Out Int)) :=
    fun x => mk _ (fun d h => by simp only [c1 d h, Out.err_bind])
      (fun chk d h e => Out.noErr_bind (cc chk d h e) fun _ => by simp)
  have sb : ∀ t, DimChecked 2 (fun chk d => s.begin_ chk d t) := by
    intro t
    refine mk _ (fun d h => by cases t <;> simp only [D2.SizeT.begin_, c1 d h, Out.err_bind]) (fun chk d h e => ?_)
    cases t <;> refine Out.noErr_bind (cc chk d h e) fun _ => ?_
    all_goals first
      | exact noErr_i32 _ _
      | exact Out.noErr_ok _ _
      | exact cs _ _ _ _
      | exact Out.noErr_bind (cs _ _ _ _) fun _ => noErr_i32 _ _
  have se : ∀ t, DimChecked 2 (fun chk d => s.end_ chk d t) := by
    intro t
    refine mk _ (fun d h => by cases t <;> simp only [D2.SizeT.end_, c1 d h, Out.err_bind]) (fun chk d h e => ?_)
    cases t <;> refine Out.noErr_bind (cc chk d h e) fun _ => ?_
    all_goals first
      | exact noErr_i32 _ _
      | exact Out.noErr_ok _ _
      | exact cs _ _ _ _
      | exact Out.noErr_bind (cs _ _ _ _) fun _ => Out.noErr_bind (cs _ _ _ _) fun _ => noErr_i32 _ _
  have sz : ∀ t, DimChecked 2 (fun chk d => s.size chk d t) := fun t => mk _
    (fun d h => by simp only [D2.SizeT.size, (se t).1 d h, Out.err_bind])
    (fun chk d h e => Out.noErr_bind (ne (se t) chk d h e) fun _ => Out.noErr_bind (ne (sb t) chk d h e) fun _ =>
      Out.noErr_bind (noErr_i32 _ _) fun _ => Out.noErr_ok _ _)
  have sl : ∀ t, DimChecked 2 (fun chk d => s.last chk d t) := fun t => mk _
    (fun d h => by simp only [D2.SizeT.last, (se t).1 d h, Out.err_bind])
    (fun chk d h e => Out.noErr_bind (ne (se t) chk d h e) fun _ => noErr_i32 _ _)
  have sbd : ∀ t fl, DimChecked 2 (fun chk d => s.bound chk d t fl) := by
    intro t fl; cases fl
    · exact sb t
    · exact sl t
  refine ⟨rb, rs, re, rl, ?_, sf _ _, sf _ _, sf _ _, sb t, se t, sz t, sl t, sbd t fl, ?_, ?_, ?_⟩
  · cases fl
    · exact rb
    · exact rl
  · exact mk _ (fun d h => by simp only [D2.SizeT.mirror, (sbd .IN fl).1 d h, Out.err_bind])
      (fun chk d h e => Out.noErr_bind (ne (sbd .IN fl) chk d h e) fun _ => Out.noErr_bind (noErr_i32 _ _) fun _ => noErr_i32 _ _)
  · exact mk _ (fun d h => by simp only [D2.SizeT.periodic, (sl .IN).1 d h, Out.err_bind])
      (fun chk d h e => Out.noErr_bind (ne (sl .IN) chk d h e) fun _ => Out.noErr_bind (noErr_i32 _ _) fun _ => noErr_i32 _ _)
  · intro d loc off h
    simp only [D2.RangeT.check_range, c1 d h, Out.err_bind, if_true]

example : (D2.SizeT.new 2 5 3 2 5 3).last true 1 .IN = .ok 4 ∧
    (D2.SizeT.new 2 5 3 2 5 3).last true 4294967295 .IN = .err (.dim 4294967295 2) := by decide

/-- C32 (3D): every query of `RangeT` and `SizeT` that takes a dimension.  (All of them are
functions of the object: they have no effect.)  `check_range` checks the dimension first. -/
theorem C32_d3 (r : D3.RangeT) (s : D3.SizeT) (t : RA) (fl : Side) (f : FL) (ii : Int) :
    DimChecked 3 (fun chk d => r.begin_ chk d) ∧
    DimChecked 3 (fun chk d => r.size chk d) ∧
    DimChecked 3 (fun chk d => r.end_ chk d) ∧
    DimChecked 3 (fun chk d => r.last chk d) ∧
    DimChecked 3 (fun chk d => r.bound chk d fl) ∧
    DimChecked 3 (fun chk d => s.in' chk d) ∧
    DimChecked 3 (fun chk d => s.n chk d) ∧
    DimChecked 3 (fun chk d => s.p chk d) ∧
    DimChecked 3 (fun chk d => s.begin_ chk d t) ∧
    DimChecked 3 (fun chk d => s.end_ chk d t) ∧
    DimChecked 3 (fun chk d => s.size chk d t) ∧
    DimChecked 3 (fun chk d => s.last chk d t) ∧
    DimChecked 3 (fun chk d => s.bound chk d t fl) ∧
    DimChecked 3 (fun chk d => s.mirror chk d fl ii) ∧
    DimChecked 3 (fun chk d => s.periodic chk d f ii) ∧
    (∀ d loc off, 3 ≤ d → r.check_range true d loc ii off = .err (.dim d 3)) := by
  have c1 : ∀ d, 3 ≤ d → check_d true D3.D d = .err (.dim d 3) := by
    intro d h; simp [check_d, D3.D, h]
  have c2 : ∀ chk d e, d < 3 → check_d chk D3.D d ≠ .err e := by
    intro chk d e h; rw [show check_d chk D3.D d = .ok () from check_d_ok h]; simp
  have c3 : ∀ d e, check_d false D3.D d ≠ .err e := by intro d e; simp [check_d]
  have cc : ∀ chk d, (chk = false ∨ d < 3) → ∀ e, check_d chk D3.D d ≠ .err e := by
    rintro chk d (rfl | h) e
    · exact c3 d e
    · exact c2 chk d e h
  have cs : ∀ x0 x1 x2 d e, D3.sel x0 x1 x2 d ≠ .err e := by
    intro x0 x1 x2 d e; unfold D3.sel; split <;> simp
  have mk : ∀ {α : Type} (q : Bool → Nat → Out α), (∀ d, 3 ≤ d → q true d = .err (.dim d 3)) →
      (∀ chk d, (chk = false ∨ d < 3) → ∀ e, q chk d ≠ .err e) → DimChecked 3 q :=
    fun q h1 h2 => ⟨h1, fun d hd chk e => h2 chk d (.inr hd) e, fun d e => h2 false d (.inl rfl) e⟩
  have rb : DimChecked 3 (fun chk d => r.begin_ chk d) := mk _
    (fun d h => by simp only [D3.RangeT.begin_, c1 d h, Out.err_bind])
    (fun chk d h e => Out.noErr_bind (cc chk d h e) fun _ => cs _ _ _ _ _)
  have rs : DimChecked 3 (fun chk d => r.size chk d) := mk _
    (fun d h => by simp only [D3.RangeT.size, c1 d h, Out.err_bind])
    (fun chk d h e => Out.noErr_bind (cc chk d h e) fun _ => cs _ _ _ _ _)
  have ne : ∀ {α : Type} {q : Bool → Nat → Out α}, DimChecked 3 q → ∀ chk d, (chk = false ∨ d < 3) → ∀ e, q chk d ≠ .err e := by
    rintro α q h chk d (rfl | hd) e
    · exact h.2.2 d e
    · exact h.2.1 d hd chk e
  have re : DimChecked 3 (fun chk d => r.end_ chk d) := mk _
    (fun d h => by simp only [D3.RangeT.end_, rb.1 d h, Out.err_bind])
    (fun chk d h e => by
      unfold D3.RangeT.end_
      exact Out.noErr_bind (ne rb chk d h e) fun _ => Out.noErr_bind (ne rs chk d h e) fun _ => noErr_i32 _ _)
  have rl : DimChecked 3 (fun chk d => r.last chk d) := mk _
    (fun d h => by simp only [D3.RangeT.last, re.1 d h, Out.err_bind])
    (fun chk d h e => by
      unfold D3.RangeT.last
      exact Out.noErr_bind (ne re chk d h e) fun _ => noErr_i32 _ _)
  have sf : ∀ x0 x1 x2, DimChecked 3 (fun chk d => (do check_d chk D3.D d; D3.sel x0 x1 x2 d : Out Int)) :=
    fun x0 x1 x2 => mk _ (fun d h => by simp only [c1 d h, Out.err_bind])
      (fun chk d h e => Out.noErr_bind (cc chk d h e) fun _ => cs _ _ _ _ _)
  have s0 : ∀ x : Int, DimChecked 3 (fun chk d => (do check_d chk D3.D d; .ok x : Out Int)) :=
    fun x => mk _ (fun d h => by simp only [c1 d h, Out.err_bind])
      (fun chk d h e => Out.noErr_bind (cc chk d h e) fun _ => by simp)
  have sb : ∀ t, DimChecked 3 (fun chk d => s.begin_ chk d t) := by
    intro t
    refine mk _ (fun d h => by cases t <;> simp only [D3.SizeT.begin_, c1 d h, Out.err_bind]) (fun chk d h e => ?_)
    cases t <;> refine Out.noErr_bind (cc chk d h e) fun _ => ?_
    all_goals first
      | exact noErr_i32 _ _
      | exact Out.noErr_ok _ _
      | exact cs _ _ _ _ _
      | exact Out.noErr_bind (cs _ _ _ _ _) fun _ => noErr_i32 _ _
  have se : ∀ t, DimChecked 3 (fun chk d => s.end_ chk d t) := by
    intro t
    refine mk _ (fun d h => by cases t <;> simp only [D3.SizeT.end_, c1 d h, Out.err_bind]) (fun chk d h e => ?_)
    cases t <;> refine Out.noErr_bind (cc chk d h e) fun _ => ?_
    all_goals first
      | exact noErr_i32 _ _
      | exact Out.noErr_ok _ _
      | exact cs _ _ _ _ _
      | exact Out.noErr_bind (cs _ _ _ _ _) fun _ => Out.noErr_bind (cs _ _ _ _ _) fun _ => noErr_i32 _ _
  have sz : ∀ t, DimChecked 3 (fun chk d => s.size chk d t) := fun t => mk _
    (fun d h => by simp only [D3.SizeT.size, (se t).1 d h, Out.err_bind])
    (fun chk d h e => Out.noErr_bind (ne (se t) chk d h e) fun _ => Out.noErr_bind (ne (sb t) chk d h e) fun _ =>
      Out.noErr_bind (noErr_i32 _ _) fun _ => Out.noErr_ok _ _)
  have sl : ∀ t, DimChecked 3 (fun chk d => s.last chk d t) := fun t => mk _
    (fun d h => by simp only [D3.SizeT.last, (se t).1 d h, Out.err_bind])
    (fun chk d h e => Out.noErr_bind (ne (se t) chk d h e) fun _ => noErr_i32 _ _)
  have sbd : ∀ t fl, DimChecked 3 (fun chk d => s.bound chk d t fl) := by
    intro t fl; cases fl
    · exact sb t
    · exact sl t
  refine ⟨rb, rs, re, rl, ?_, sf _ _ _, sf _ _ _, sf _ _ _, sb t, se t, sz t, sl t, sbd t fl, ?_, ?_, ?_⟩
  · cases fl
    · exact rb
    · exact rl
  · exact mk _ (fun d h => by simp only [D3.SizeT.mirror, (sbd .IN fl).1 d h, Out.err_bind])
      (fun chk d h e => Out.noErr_bind (ne (sbd .IN fl) chk d h e) fun _ => Out.noErr_bind (noErr_i32 _ _) fun _ => noErr_i32 _ _)
  · exact mk _ (fun d h => by simp only [D3.SizeT.periodic, (sl .IN).1 d h, Out.err_bind])
      (fun chk d h e => Out.noErr_bind (ne (sl .IN) chk d h e) fun _ => Out.noErr_bind (noErr_i32 _ _) fun _ => noErr_i32 _ _)
  · intro d loc off h
    simp only [D3.RangeT.check_range, c1 d h, Out.err_bind, if_true]

example : (D3.SizeT.new 2 5 3 2 5 3 2 5 3).last true 2 .IN = .ok 4 ∧
    (D3.SizeT.new 2 5 3 2 5 3 2 5 3).last true 4294967295 .IN = .err (.dim 4294967295 3) := by decide

/-- C32 (0D): every dimension argument is invalid. -/
theorem C32_d0 (d : Nat) : check_d true D0.D d = .err (.dim d 0) := by
  simp [check_d, D0.D]

/-- element access of a 0D array: read `x(n)` -/
def read0 {V : Type} (chk : Bool) (N n : Nat) : M (D0.PD V) (Option V) := do
  let r ← D0.PD.at_ chk N n
  D0.PD.load r
/-- element access of a 0D array: `x(n) = v` -/
def write0 {V : Type} (chk : Bool) (N n : Nat) (v : Option V) : M (D0.PD V) Unit := do
  let r ← D0.PD.at_ chk N n
  D0.PD.store r v

/-- C34: in a 0D array a write succeeds for every `n < N`, is read back, and every other
element reads as before; reading changes nothing; with checking, access throws exactly for
`n ≥ N`, and then the array is unchanged. -/
theorem C34 {V : Type} (N : Nat) (x : D0.PD V) :
    (∀ chk n v, n < N → ∃ x', write0 chk N n v x = .ok () x' ∧
      read0 chk N n x' = .ok v x' ∧
      ∀ m, m < N → m ≠ n → ∃ u, read0 chk N m x = .ok u x ∧ read0 chk N m x' = .ok u x') ∧
    (∀ n v, N ≤ n → read0 true N n x = .err (.nRange0 n N) x ∧ write0 true N n v x = .err (.nRange0 n N) x) ∧
    (∀ n, n < N → ∃ u, read0 true N n x = .ok u x) := by
  have ok : ∀ chk n, n < N → (D0.PD.at_ chk N n : M (D0.PD V) Nat) = pure n := by
    intro chk n h
    have : D0.PD.check_n chk N n = .ok () := by unfold D0.PD.check_n; rw [if_neg]; omega
    simp only [D0.PD.at_, this, M.monadLift_eq, M.liftM_eq, M.lift_ok, pure_bind, if_pos h]
  have bad : ∀ n, N ≤ n → (D0.PD.at_ true N n : M (D0.PD V) Nat) = M.throw (.nRange0 n N) := by
    intro n h
    have : D0.PD.check_n true N n = .err (.nRange0 n N) := by unfold D0.PD.check_n; rw [if_pos ⟨rfl, h⟩]
    simp only [D0.PD.at_, this, M.monadLift_eq, M.liftM_eq, M.lift_err, M.throw_bind]
  refine ⟨?_, ?_, ?_⟩
  · intro chk n v h
    refine ⟨_, by simp only [write0, ok chk n h, pure_bind]; rfl, ?_, ?_⟩
    · simp only [read0, ok chk n h, pure_bind, D0.PD.load, if_true]
    · intro m hm hmn
      refine ⟨x.pt0 m, ?_, ?_⟩
      · simp only [read0, ok chk m hm, pure_bind, D0.PD.load]
      · simp only [read0, ok chk m hm, pure_bind, D0.PD.load, if_neg hmn]
  · intro n v h
    simp only [read0, write0, bad n h, M.throw_bind]
    exact ⟨rfl, rfl⟩
  · intro n h
    exact ⟨x.pt0 n, by simp only [read0, ok true n h, pure_bind, D0.PD.load]⟩

example : (2 : Nat) < 5 ∧ (5 : Nat) ≤ 7 := by decide

end Verif.Props
