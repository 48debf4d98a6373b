import Verif.Spec.Copy
import Verif.Proof.Obj
import Verif.Proof.Range
/-!
# `copy_from` up to its loops
-/
namespace Verif
open Spec

namespace Spec.CopyDim
/-- number of indices written -/
def wid (d : CopyDim) : Int := d.hi - d.lo - (-(d.loc.toNat : Int))
/-- the test for an overlap of the zone read and the zone written -/
def ClashC (d : CopyDim) : Prop :=
  d.R.1 + (d.i - d.I) + -(d.loc.toNat : Int) < d.lo + (d.hi - d.lo) ∧
  d.lo < d.R.1 + (d.i - d.I) + -(d.loc.toNat : Int) + (d.R.2 - -(d.loc.toNat : Int) - -(d.loc.toNat : Int))
/-- representable values before the overlap is known to exist -/
def Fits1 (d : CopyDim) : Prop :=
  InI32 (d.I - d.i) ∧ InI32 (d.i - d.I) ∧ InI32 (d.r.1 + (d.I - d.i)) ∧ InI32 (d.R.1 + d.R.2) ∧
  InI32 (d.r.1 + (d.I - d.i) + d.r.2) ∧ InI32 (d.R.1 + (d.i - d.I)) ∧ InI32 (d.R.2 - -(d.loc.toNat : Int)) ∧
  InI32 (d.R.1 + (d.i - d.I) + -(d.loc.toNat : Int)) ∧ InI32 (d.R.2 - -(d.loc.toNat : Int) - -(d.loc.toNat : Int)) ∧
  InI32 (d.R.1 + (d.i - d.I) + -(d.loc.toNat : Int) + (d.R.2 - -(d.loc.toNat : Int) - -(d.loc.toNat : Int)))
/-- representable values afterwards -/
def Fits2 (d : CopyDim) : Prop :=
  InI32 (d.hi - d.lo) ∧ InI32 (d.lo + (d.hi - d.lo)) ∧ InI32 d.wid ∧ InI32 (d.lo + d.wid)
end Spec.CopyDim
open Spec.CopyDim

theorem i32_step {σ β : Type} {Q : Res σ β → Prop} {x : Int} {f : Int → M σ β} {s : σ}
    (h1 : InI32 x → Q (f x s)) (h2 : ¬ InI32 x → Q (.ub .overflow)) : Q ((liftM (i32 x) >>= f) s) := by
  by_cases h : InI32 x
  · rw [i32_ok h, M.liftM_eq, M.lift_ok, pure_bind]; exact h1 h
  · have : i32 x = .ub .overflow := if_neg h
    rw [this, M.liftM_eq, M.lift_ub, M.undef_bind]; exact h2 h

theorem out_step {σ α β : Type} {Q : Res σ β → Prop} {x : Out α} {f : α → M σ β} {s : σ}
    (h1 : ∀ a, x = .ok a → Q (f a s)) (h2 : ∀ e, x = .err e → Q (.err e s)) (h3 : ∀ u, x = .ub u → Q (.ub u)) :
    Q ((liftM x >>= f) s) := by
  cases x with
  | ok a => exact h1 a rfl
  | err e => exact h2 e rfl
  | ub u => exact h3 u rfl

theorem ok_step {σ α β : Type} {Q : Res σ β → Prop} {x : Out α} {a : α} {f : α → M σ β} {s : σ} (hx : x = .ok a)
    (h1 : Q (f a s)) : Q ((liftM x >>= f) s) := by subst hx; exact h1

theorem ub_step {σ α β : Type} {Q : Res σ β → Prop} {x : Out α} {u : UB} {f : α → M σ β} {s : σ} (hx : x = .ub u)
    (h1 : Q (.ub u)) : Q ((liftM x >>= f) s) := by subst hx; exact h1

theorem i32_bad {x : Int} (h : ¬ InI32 x) : i32 x = .ub .overflow := if_neg h

/-- an outcome of `int` arithmetic: a value or overflow -/
def Arith {α : Type} (x : Out α) : Prop := (∃ a, x = .ok a) ∨ x = .ub .overflow
theorem Arith.i32 (x : Int) : Arith (i32 x) := by
  by_cases h : InI32 x
  · exact .inl ⟨x, i32_ok h⟩
  · exact .inr (i32_bad h)
theorem Arith.ok {α : Type} (a : α) : Arith (.ok a) := .inl ⟨a, rfl⟩
theorem Arith.bind {α β : Type} {m : Out α} {f : α → Out β} (h : Arith m) (h' : ∀ a, Arith (f a)) : Arith (m >>= f) := by
  rcases h with ⟨a, rfl⟩ | rfl
  · exact h' a
  · exact .inr rfl

/-! ## the tests on ranges -/

namespace D1.RangeT
theorem is_overlap_step (chk : Bool) (a r : RangeT) :
    (a.is_overlap chk r = .ok (decide (a.b < r.b + r.s ∧ r.b < a.b + a.s))) ∨
      (a.is_overlap chk r = .ub .overflow ∧ ¬ (a.EndsFit ∧ r.EndsFit)) := by
  by_cases c0 : InI32 (r.b + r.s)
  swap
  · right; refine ⟨?_, fun h => c0 h.2⟩
    simp only [is_overlap, begin_0, end_0, Out.ok_bind, i32_bad c0]; rfl
  by_cases t0 : a.b ≥ r.b + r.s
  · left; simp only [is_overlap, begin_0, end_0, Out.ok_bind, i32_ok c0, if_pos t0]
    congr 1; symm; simp; omega
  by_cases c1 : InI32 (a.b + a.s)
  swap
  · right; refine ⟨?_, fun h => c1 h.1⟩
    simp only [is_overlap, begin_0, end_0, Out.ok_bind, i32_ok c0, if_neg t0, i32_bad c1]; rfl
  exact .inl (is_overlap_eq chk a r c1 c0)
theorem rest_arith (chk : Bool) (a r : RangeT) : Arith (overlap.rest chk a r) := by
  simp only [overlap.rest, begin_0, end_0, Out.ok_bind]
  exact .bind (.i32 _) fun _ => .bind (.i32 _) fun _ => .bind (.i32 _) fun _ => .ok _
end D1.RangeT

namespace D2.RangeT
theorem is_overlap_step (chk : Bool) (a r : RangeT) :
    (a.is_overlap chk r = .ok (decide ((a.b0 < r.b0 + r.s0 ∧ r.b0 < a.b0 + a.s0) ∧ (a.b1 < r.b1 + r.s1 ∧ r.b1 < a.b1 + a.s1)))) ∨
      (a.is_overlap chk r = .ub .overflow ∧ ¬ (a.EndsFit ∧ r.EndsFit)) := by
  by_cases c0 : InI32 (r.b0 + r.s0)
  swap
  · right; refine ⟨?_, fun h => c0 h.2.1⟩
    simp only [is_overlap, begin_0, end_0, Out.ok_bind, i32_bad c0]; rfl
  by_cases t0 : a.b0 ≥ r.b0 + r.s0
  · left; simp only [is_overlap, begin_0, end_0, Out.ok_bind, i32_ok c0, if_pos t0]
    congr 1; symm; simp; omega
  by_cases c1 : InI32 (a.b0 + a.s0)
  swap
  · right; refine ⟨?_, fun h => c1 h.1.1⟩
    simp only [is_overlap, begin_0, end_0, Out.ok_bind, i32_ok c0, if_neg t0, i32_bad c1]; rfl
  by_cases t1 : a.b0 + a.s0 ≤ r.b0
  · left; simp only [is_overlap, begin_0, end_0, Out.ok_bind, i32_ok c0, if_neg t0, i32_ok c1, if_pos t1]
    congr 1; symm; simp; omega
  by_cases c2 : InI32 (r.b1 + r.s1)
  swap
  · right; refine ⟨?_, fun h => c2 h.2.2⟩
    simp only [is_overlap, begin_0, end_0, begin_1, end_1, Out.ok_bind, i32_ok c0, if_neg t0, i32_ok c1, if_neg t1, i32_bad c2]; rfl
  by_cases t2 : a.b1 ≥ r.b1 + r.s1
  · left; simp only [is_overlap, begin_0, end_0, begin_1, end_1, Out.ok_bind, i32_ok c0, if_neg t0, i32_ok c1, if_neg t1, i32_ok c2, if_pos t2]
    congr 1; symm; simp; omega
  by_cases c3 : InI32 (a.b1 + a.s1)
  swap
  · right; refine ⟨?_, fun h => c3 h.1.2⟩
    simp only [is_overlap, begin_0, end_0, begin_1, end_1, Out.ok_bind, i32_ok c0, if_neg t0, i32_ok c1, if_neg t1, i32_ok c2, if_neg t2, i32_bad c3]; rfl
  refine .inl ?_
  rw [is_overlap_eq chk a r ⟨c1, c3⟩ ⟨c0, c2⟩]; simp only [and_assoc]
theorem rest_arith (chk : Bool) (a r : RangeT) : Arith (overlap.rest chk a r) := by
  simp only [overlap.rest, begin_0, end_0, begin_1, end_1, Out.ok_bind]
  exact .bind (.i32 _) fun _ => .bind (.i32 _) fun _ => .bind (.i32 _) fun _ => .bind (.i32 _) fun _ =>
    .bind (.i32 _) fun _ => .bind (.i32 _) fun _ => .ok _
end D2.RangeT

namespace D3.RangeT
theorem is_overlap_step (chk : Bool) (a r : RangeT) :
    (a.is_overlap chk r = .ok (decide ((a.b0 < r.b0 + r.s0 ∧ r.b0 < a.b0 + a.s0) ∧ (a.b1 < r.b1 + r.s1 ∧ r.b1 < a.b1 + a.s1)
        ∧ (a.b2 < r.b2 + r.s2 ∧ r.b2 < a.b2 + a.s2)))) ∨
      (a.is_overlap chk r = .ub .overflow ∧ ¬ (a.EndsFit ∧ r.EndsFit)) := by
  by_cases c0 : InI32 (r.b0 + r.s0)
  swap
  · right; refine ⟨?_, fun h => c0 h.2.1⟩
    simp only [is_overlap, begin_0, end_0, Out.ok_bind, i32_bad c0]; rfl
  by_cases t0 : a.b0 ≥ r.b0 + r.s0
  · left; simp only [is_overlap, begin_0, end_0, Out.ok_bind, i32_ok c0, if_pos t0]
    congr 1; symm; simp; omega
  by_cases c1 : InI32 (a.b0 + a.s0)
  swap
  · right; refine ⟨?_, fun h => c1 h.1.1⟩
    simp only [is_overlap, begin_0, end_0, Out.ok_bind, i32_ok c0, if_neg t0, i32_bad c1]; rfl
  by_cases t1 : a.b0 + a.s0 ≤ r.b0
  · left; simp only [is_overlap, begin_0, end_0, Out.ok_bind, i32_ok c0, if_neg t0, i32_ok c1, if_pos t1]
    congr 1; symm; simp; omega
  by_cases c2 : InI32 (r.b1 + r.s1)
  swap
  · right; refine ⟨?_, fun h => c2 h.2.2.1⟩
    simp only [is_overlap, begin_0, end_0, begin_1, end_1, Out.ok_bind, i32_ok c0, if_neg t0, i32_ok c1, if_neg t1, i32_bad c2]; rfl
  by_cases t2 : a.b1 ≥ r.b1 + r.s1
  · left; simp only [is_overlap, begin_0, end_0, begin_1, end_1, Out.ok_bind, i32_ok c0, if_neg t0, i32_ok c1, if_neg t1, i32_ok c2, if_pos t2]
    congr 1; symm; simp; omega
  by_cases c3 : InI32 (a.b1 + a.s1)
  swap
  · right; refine ⟨?_, fun h => c3 h.1.2.1⟩
    simp only [is_overlap, begin_0, end_0, begin_1, end_1, Out.ok_bind, i32_ok c0, if_neg t0, i32_ok c1, if_neg t1, i32_ok c2, if_neg t2, i32_bad c3]; rfl
  by_cases t3 : a.b1 + a.s1 ≤ r.b1
  · left; simp only [is_overlap, begin_0, end_0, begin_1, end_1, Out.ok_bind, i32_ok c0, if_neg t0, i32_ok c1, if_neg t1, i32_ok c2, if_neg t2, i32_ok c3, if_pos t3]
    congr 1; symm; simp; omega
  by_cases c4 : InI32 (r.b2 + r.s2)
  swap
  · right; refine ⟨?_, fun h => c4 h.2.2.2⟩
    simp only [is_overlap, begin_0, end_0, begin_1, end_1, begin_2, end_2, Out.ok_bind, i32_ok c0, if_neg t0, i32_ok c1, if_neg t1, i32_ok c2, if_neg t2, i32_ok c3, if_neg t3, i32_bad c4]; rfl
  by_cases t4 : a.b2 ≥ r.b2 + r.s2
  · left; simp only [is_overlap, begin_0, end_0, begin_1, end_1, begin_2, end_2, Out.ok_bind, i32_ok c0, if_neg t0, i32_ok c1, if_neg t1, i32_ok c2, if_neg t2, i32_ok c3, if_neg t3, i32_ok c4, if_pos t4]
    congr 1; symm; simp; omega
  by_cases c5 : InI32 (a.b2 + a.s2)
  swap
  · right; refine ⟨?_, fun h => c5 h.1.2.2⟩
    simp only [is_overlap, begin_0, end_0, begin_1, end_1, begin_2, end_2, Out.ok_bind, i32_ok c0, if_neg t0, i32_ok c1, if_neg t1, i32_ok c2, if_neg t2, i32_ok c3, if_neg t3, i32_ok c4, if_neg t4, i32_bad c5]; rfl
  refine .inl ?_
  rw [is_overlap_eq chk a r ⟨c1, c3, c5⟩ ⟨c0, c2, c4⟩]; simp only [and_assoc]
theorem rest_arith (chk : Bool) (a r : RangeT) : Arith (overlap.rest chk a r) := by
  simp only [overlap.rest, begin_0, end_0, begin_1, end_1, begin_2, end_2, Out.ok_bind]
  exact .bind (.i32 _) fun _ => .bind (.i32 _) fun _ => .bind (.i32 _) fun _ => .bind (.i32 _) fun _ =>
    .bind (.i32 _) fun _ => .bind (.i32 _) fun _ => .bind (.i32 _) fun _ => .bind (.i32 _) fun _ => .bind (.i32 _) fun _ => .ok _
end D3.RangeT

theorem arith_step {σ α β : Type} {Q : Res σ β → Prop} {x : Out α} {f : α → M σ β} {s : σ} (hx : Arith x)
    (h1 : ∀ a, x = .ok a → Q (f a s)) (h2 : (∀ a, x ≠ .ok a) → Q (.ub .overflow)) : Q ((liftM x >>= f) s) := by
  rcases hx with ⟨a, rfl⟩ | rfl
  · exact h1 a rfl
  · exact h2 (by simp)

namespace D1.RangeT
theorem tran_arith (r : RangeT) (i : Int) : Arith (r.tran i) := tran_total r i
theorem cut_tail_arith (r : RangeT) (i : Int) : Arith (r.cut_tail i) := cut_tail_total r i
theorem cut_head_arith (r : RangeT) (i : Int) : Arith (r.cut_head i) := cut_head_total r i
theorem overlap_step {σ β : Type} {Q : Res σ β → Prop} {chk : Bool} {a r : RangeT} {f : RangeT → M σ β} {s : σ}
    (h1 : ∀ o, overlap.rest chk a r = .ok o → (chk = true → a.b < r.b + r.s ∧ r.b < a.b + a.s) → Q (f o s))
    (h2 : chk = true → ¬ (a.b < r.b + r.s ∧ r.b < a.b + a.s) → Q (.err .overlapNotFound s))
    (h3 : ¬ (a.EndsFit ∧ r.EndsFit) → Q (.ub .overflow))
    (h4 : (chk = true → a.b < r.b + r.s ∧ r.b < a.b + a.s) → (∀ o, overlap.rest chk a r ≠ .ok o) → Q (.ub .overflow)) :
    Q ((liftM (a.overlap chk r) >>= f) s) := by
  cases chk with
  | false => exact arith_step (rest_arith false a r) (fun o ho => h1 o ho (by simp)) (fun ho => h4 (by simp) ho)
  | true =>
    rcases is_overlap_step true a r with e | ⟨e, ne⟩
    · by_cases m : a.b < r.b + r.s ∧ r.b < a.b + a.s
      · have e' : a.overlap true r = overlap.rest true a r := by
          show (a.is_overlap true r >>= fun t => if (!t) = true then .err .overlapNotFound else overlap.rest true a r) = _
          rw [e, decide_eq_true m]; rfl
        rw [e']
        exact arith_step (rest_arith true a r) (fun o ho => h1 o ho (fun _ => m)) (fun ho => h4 (fun _ => m) ho)
      · have e' : a.overlap true r = .err .overlapNotFound := by
          show (a.is_overlap true r >>= fun t => if (!t) = true then .err .overlapNotFound else overlap.rest true a r) = _
          rw [e, decide_eq_false m]; rfl
        rw [e']; exact h2 rfl m
    · have e' : a.overlap true r = .ub .overflow := by
        show (a.is_overlap true r >>= fun t => if (!t) = true then .err .overlapNotFound else overlap.rest true a r) = _
        rw [e]; rfl
      rw [e']; exact h3 ne
end D1.RangeT

namespace D2.RangeT
theorem tran_arith (r : RangeT) (i j : Int) : Arith (r.tran i j) := tran_total r i j
theorem cut_tail_arith (r : RangeT) (i j : Int) : Arith (r.cut_tail i j) := cut_tail_total r i j
theorem cut_head_arith (r : RangeT) (i j : Int) : Arith (r.cut_head i j) := cut_head_total r i j
theorem overlap_step {σ β : Type} {Q : Res σ β → Prop} {chk : Bool} {a r : RangeT} {f : RangeT → M σ β} {s : σ}
    (h1 : ∀ o, overlap.rest chk a r = .ok o → (chk = true → (a.b0 < r.b0 + r.s0 ∧ r.b0 < a.b0 + a.s0) ∧ (a.b1 < r.b1 + r.s1 ∧ r.b1 < a.b1 + a.s1)) → Q (f o s))
    (h2 : chk = true → ¬ ((a.b0 < r.b0 + r.s0 ∧ r.b0 < a.b0 + a.s0) ∧ (a.b1 < r.b1 + r.s1 ∧ r.b1 < a.b1 + a.s1)) → Q (.err .overlapNotFound s))
    (h3 : ¬ (a.EndsFit ∧ r.EndsFit) → Q (.ub .overflow))
    (h4 : (chk = true → (a.b0 < r.b0 + r.s0 ∧ r.b0 < a.b0 + a.s0) ∧ (a.b1 < r.b1 + r.s1 ∧ r.b1 < a.b1 + a.s1)) → (∀ o, overlap.rest chk a r ≠ .ok o) → Q (.ub .overflow)) :
    Q ((liftM (a.overlap chk r) >>= f) s) := by
  cases chk with
  | false => exact arith_step (rest_arith false a r) (fun o ho => h1 o ho (by simp)) (fun ho => h4 (by simp) ho)
  | true =>
    rcases is_overlap_step true a r with e | ⟨e, ne⟩
    · by_cases m : (a.b0 < r.b0 + r.s0 ∧ r.b0 < a.b0 + a.s0) ∧ (a.b1 < r.b1 + r.s1 ∧ r.b1 < a.b1 + a.s1)
      · have e' : a.overlap true r = overlap.rest true a r := by
          show (a.is_overlap true r >>= fun t => if (!t) = true then .err .overlapNotFound else overlap.rest true a r) = _
          rw [e, decide_eq_true m]; rfl
        rw [e']
        exact arith_step (rest_arith true a r) (fun o ho => h1 o ho (fun _ => m)) (fun ho => h4 (fun _ => m) ho)
      · have e' : a.overlap true r = .err .overlapNotFound := by
          show (a.is_overlap true r >>= fun t => if (!t) = true then .err .overlapNotFound else overlap.rest true a r) = _
          rw [e, decide_eq_false m]; rfl
        rw [e']; exact h2 rfl m
    · have e' : a.overlap true r = .ub .overflow := by
        show (a.is_overlap true r >>= fun t => if (!t) = true then .err .overlapNotFound else overlap.rest true a r) = _
        rw [e]; rfl
      rw [e']; exact h3 ne
end D2.RangeT

namespace D3.RangeT
theorem tran_arith (r : RangeT) (i j k : Int) : Arith (r.tran i j k) := tran_total r i j k
theorem cut_tail_arith (r : RangeT) (i j k : Int) : Arith (r.cut_tail i j k) := cut_tail_total r i j k
theorem cut_head_arith (r : RangeT) (i j k : Int) : Arith (r.cut_head i j k) := cut_head_total r i j k
theorem overlap_step {σ β : Type} {Q : Res σ β → Prop} {chk : Bool} {a r : RangeT} {f : RangeT → M σ β} {s : σ}
    (h1 : ∀ o, overlap.rest chk a r = .ok o → (chk = true → (a.b0 < r.b0 + r.s0 ∧ r.b0 < a.b0 + a.s0) ∧ (a.b1 < r.b1 + r.s1 ∧ r.b1 < a.b1 + a.s1) ∧ (a.b2 < r.b2 + r.s2 ∧ r.b2 < a.b2 + a.s2)) → Q (f o s))
    (h2 : chk = true → ¬ ((a.b0 < r.b0 + r.s0 ∧ r.b0 < a.b0 + a.s0) ∧ (a.b1 < r.b1 + r.s1 ∧ r.b1 < a.b1 + a.s1) ∧ (a.b2 < r.b2 + r.s2 ∧ r.b2 < a.b2 + a.s2)) → Q (.err .overlapNotFound s))
    (h3 : ¬ (a.EndsFit ∧ r.EndsFit) → Q (.ub .overflow))
    (h4 : (chk = true → (a.b0 < r.b0 + r.s0 ∧ r.b0 < a.b0 + a.s0) ∧ (a.b1 < r.b1 + r.s1 ∧ r.b1 < a.b1 + a.s1) ∧ (a.b2 < r.b2 + r.s2 ∧ r.b2 < a.b2 + a.s2)) → (∀ o, overlap.rest chk a r ≠ .ok o) → Q (.ub .overflow)) :
    Q ((liftM (a.overlap chk r) >>= f) s) := by
  cases chk with
  | false => exact arith_step (rest_arith false a r) (fun o ho => h1 o ho (by simp)) (fun ho => h4 (by simp) ho)
  | true =>
    rcases is_overlap_step true a r with e | ⟨e, ne⟩
    · by_cases m : (a.b0 < r.b0 + r.s0 ∧ r.b0 < a.b0 + a.s0) ∧ (a.b1 < r.b1 + r.s1 ∧ r.b1 < a.b1 + a.s1) ∧ (a.b2 < r.b2 + r.s2 ∧ r.b2 < a.b2 + a.s2)
      · have e' : a.overlap true r = overlap.rest true a r := by
          show (a.is_overlap true r >>= fun t => if (!t) = true then .err .overlapNotFound else overlap.rest true a r) = _
          rw [e, decide_eq_true m]; rfl
        rw [e']
        exact arith_step (rest_arith true a r) (fun o ho => h1 o ho (fun _ => m)) (fun ho => h4 (fun _ => m) ho)
      · have e' : a.overlap true r = .err .overlapNotFound := by
          show (a.is_overlap true r >>= fun t => if (!t) = true then .err .overlapNotFound else overlap.rest true a r) = _
          rw [e, decide_eq_false m]; rfl
        rw [e']; exact h2 rfl m
    · have e' : a.overlap true r = .ub .overflow := by
        show (a.is_overlap true r >>= fun t => if (!t) = true then .err .overlapNotFound else overlap.rest true a r) = _
        rw [e]; rfl
      rw [e']; exact h3 ne
end D3.RangeT

namespace D1.PD
variable {V : Type}
theorem copy_from_elim (chk : Bool) (N : Nat) (o pd : PD) (same : Bool) (a : CopyDim) (h : Heap V)
    {Q : Res (Heap V) Unit → Prop}
    (bad1 : ¬ (a.Fits1) → Q (.ub .overflow))
    (bad2 : (chk = true → a.Over) → ¬ (a.Fits2) → Q (.ub .overflow))
    (e1 : chk = true → ¬ (a.Over) → Q (.err .overlapNotFound h))
    (e2 : chk = true → a.Over → same = true → (a.ClashC) → Q (.err .copyOverlap h))
    (run : (chk = true → a.Over) → (chk = true → same = true → ¬ (a.ClashC)) →
      Q ((forI a.lo (a.lo + a.wid) fun x => forU 0 N fun n => copyElem N o pd n x (a.i - a.I) : M (Heap V) Unit) h)) :
    Q (copy_from chk N a.loc o pd same ⟨a.R.1, a.R.2⟩ ⟨a.r.1, a.r.2⟩ a.I a.i h) := by
  unfold copy_from
  refine i32_step (fun _ => ?_) (fun c => bad1 fun ⟨aI, ai, ar, aE, ae, aR, as, aH, aS, aT⟩ => c aI)
  refine arith_step (RangeT.tran_arith _ _ ) (fun q hq => ?_) (fun c => bad1 fun ⟨aI, ai, ar, aE, ae, aR, as, aH, aS, aT⟩ => c _ ((RangeT.tran_eq_ok _ _ _ ).2 ⟨ar, rfl⟩))
  obtain ⟨-, rfl⟩ := (RangeT.tran_eq_ok _ _ _ ).1 hq; clear hq
  refine RangeT.overlap_step (fun ov ho m => ?_) (fun hc m => e1 hc m) (fun c => bad1 fun ⟨aI, ai, ar, aE, ae, aR, as, aH, aS, aT⟩ => c ⟨aE, ae⟩) (fun m c => ?_)
  swap
  · by_cases f1 : a.Fits1
    · refine bad2 m fun h => ?_
      obtain ⟨aI, ai, ar, aE, ae, aR, as, aH, aS, aT⟩ := f1
      obtain ⟨aw, ax, al, aL⟩ := h
      exact c _ ((RangeT.overlap_rest_eq_ok chk _ _ _).2 ⟨aE, ae, aw, rfl⟩)
    · exact bad1 f1
  obtain ⟨-, -, -, rfl⟩ := (RangeT.overlap_rest_eq_ok chk _ _ _).1 ho
  clear ho
  have tail : (chk = true → same = true → ¬ (a.ClashC)) → Q ((do
          let ov ← RangeT.cut_tail ⟨a.lo, a.hi - a.lo⟩ (-a.loc.toNat)
          let dd ← i32 (a.i - a.I)
          let begin0 ← ov.begin_ chk 0
          let end0 ← ov.end_ chk 0
          forI begin0 end0 fun x => forU 0 N fun n => copyElem N o pd n x dd : M (Heap V) Unit) h) := by
    intro nc
    refine arith_step (RangeT.cut_tail_arith _ _ ) (fun q hq => ?_) (fun c => bad2 m fun ⟨aw, ax, al, aL⟩ => c _ ((RangeT.cut_tail_eq_ok _ _ _ ).2 ⟨al, rfl⟩))
    obtain ⟨-, rfl⟩ := (RangeT.cut_tail_eq_ok _ _ _ ).1 hq; clear hq
    refine i32_step (fun _ => ?_) (fun c => bad1 fun ⟨aI, ai, ar, aE, ae, aR, as, aH, aS, aT⟩ => c ai)
    refine ok_step (RangeT.begin_0 _ _) ?_
    rw [RangeT.end_0]
    refine i32_step (fun _ => ?_) (fun c => bad2 m fun ⟨aw, ax, al, aL⟩ => c aL)
    exact run m nc
  cases chk with
  | false => exact tail (by simp)
  | true =>
    simp only [if_true]
    refine i32_step (fun _ => ?_) (fun c => bad1 fun ⟨aI, ai, ar, aE, ae, aR, as, aH, aS, aT⟩ => c ai)
    refine arith_step (RangeT.tran_arith _ _ ) (fun q hq => ?_) (fun c => bad1 fun ⟨aI, ai, ar, aE, ae, aR, as, aH, aS, aT⟩ => c _ ((RangeT.tran_eq_ok _ _ _ ).2 ⟨aR, rfl⟩))
    obtain ⟨-, rfl⟩ := (RangeT.tran_eq_ok _ _ _ ).1 hq; clear hq
    refine arith_step (RangeT.cut_tail_arith _ _ ) (fun q hq => ?_) (fun c => bad1 fun ⟨aI, ai, ar, aE, ae, aR, as, aH, aS, aT⟩ => c _ ((RangeT.cut_tail_eq_ok _ _ _ ).2 ⟨as, rfl⟩))
    obtain ⟨-, rfl⟩ := (RangeT.cut_tail_eq_ok _ _ _ ).1 hq; clear hq
    refine arith_step (RangeT.cut_head_arith _ _ ) (fun q hq => ?_) (fun c => bad1 fun ⟨aI, ai, ar, aE, ae, aR, as, aH, aS, aT⟩ => c _ ((RangeT.cut_head_eq_ok _ _ _ ).2 ⟨⟨aH, aS⟩, rfl⟩))
    obtain ⟨-, rfl⟩ := (RangeT.cut_head_eq_ok _ _ _ ).1 hq; clear hq
    cases same with
    | false => exact tail (by simp)
    | true =>
      simp only [if_true]
      rcases RangeT.is_overlap_step true ⟨a.R.1 + (a.i - a.I) + -(a.loc.toNat : Int), a.R.2 - -(a.loc.toNat : Int) - -(a.loc.toNat : Int)⟩
        ⟨a.lo, a.hi - a.lo⟩ with e | ⟨e, ne⟩
      · by_cases cl : a.ClashC
        · refine ok_step (a := true) (e.trans (congrArg _ (decide_eq_true cl))) ?_
          exact e2 rfl (m rfl) rfl cl
        · refine ok_step (a := false) (e.trans (congrArg _ (decide_eq_false cl))) ?_
          exact tail fun _ _ => cl
      · refine ub_step e ?_
        by_cases f1 : a.Fits1
        · refine bad2 m fun h => ?_
          obtain ⟨aI, ai, ar, aE, ae, aR, as, aH, aS, aT⟩ := f1
          obtain ⟨aw, ax, al, aL⟩ := h
          exact ne ⟨aT, ax⟩
        · exact bad1 f1
end D1.PD

namespace D2.PD
variable {V : Type}
theorem copy_from_elim (chk : Bool) (N : Nat) (o pd : PD) (same : Bool) (a b : CopyDim) (h : Heap V)
    {Q : Res (Heap V) Unit → Prop}
    (bad1 : ¬ (a.Fits1 ∧ b.Fits1) → Q (.ub .overflow))
    (bad2 : (chk = true → a.Over ∧ b.Over) → ¬ (a.Fits2 ∧ b.Fits2) → Q (.ub .overflow))
    (e1 : chk = true → ¬ (a.Over ∧ b.Over) → Q (.err .overlapNotFound h))
    (e2 : chk = true → a.Over ∧ b.Over → same = true → (a.ClashC ∧ b.ClashC) → Q (.err .copyOverlap h))
    (run : (chk = true → a.Over ∧ b.Over) → (chk = true → same = true → ¬ (a.ClashC ∧ b.ClashC)) →
      Q ((forI a.lo (a.lo + a.wid) fun x => forI b.lo (b.lo + b.wid) fun y => forU 0 N fun n => copyElem N o pd n x y (a.i - a.I) (b.i - b.I) : M (Heap V) Unit) h)) :
    Q (copy_from chk N a.loc b.loc o pd same ⟨a.R.1, a.R.2, b.R.1, b.R.2⟩ ⟨a.r.1, a.r.2, b.r.1, b.r.2⟩ a.I b.I a.i b.i h) := by
  unfold copy_from
  refine i32_step (fun _ => ?_) (fun c => bad1 fun ⟨⟨aI, ai, ar, aE, ae, aR, as, aH, aS, aT⟩, ⟨bI, bi, br, bE, be, bR, bs, bH, bS, bT⟩⟩ => c aI)
  refine i32_step (fun _ => ?_) (fun c => bad1 fun ⟨⟨aI, ai, ar, aE, ae, aR, as, aH, aS, aT⟩, ⟨bI, bi, br, bE, be, bR, bs, bH, bS, bT⟩⟩ => c bI)
  refine arith_step (RangeT.tran_arith _ _ _ ) (fun q hq => ?_) (fun c => bad1 fun ⟨⟨aI, ai, ar, aE, ae, aR, as, aH, aS, aT⟩, ⟨bI, bi, br, bE, be, bR, bs, bH, bS, bT⟩⟩ => c _ ((RangeT.tran_eq_ok _ _ _ _ ).2 ⟨⟨ar, br⟩, rfl⟩))
  obtain ⟨-, rfl⟩ := (RangeT.tran_eq_ok _ _ _ _ ).1 hq; clear hq
  refine RangeT.overlap_step (fun ov ho m => ?_) (fun hc m => e1 hc m) (fun c => bad1 fun ⟨⟨aI, ai, ar, aE, ae, aR, as, aH, aS, aT⟩, ⟨bI, bi, br, bE, be, bR, bs, bH, bS, bT⟩⟩ => c ⟨⟨aE, bE⟩, ⟨ae, be⟩⟩) (fun m c => ?_)
  swap
  · by_cases f1 : a.Fits1 ∧ b.Fits1
    · refine bad2 m fun h => ?_
      obtain ⟨⟨aI, ai, ar, aE, ae, aR, as, aH, aS, aT⟩, ⟨bI, bi, br, bE, be, bR, bs, bH, bS, bT⟩⟩ := f1
      obtain ⟨⟨aw, ax, al, aL⟩, ⟨bw, bx, bl, bL⟩⟩ := h
      exact c _ ((RangeT.overlap_rest_eq_ok chk _ _ _).2 ⟨⟨aE, bE⟩, ⟨ae, be⟩, ⟨aw, bw⟩, rfl⟩)
    · exact bad1 f1
  obtain ⟨-, -, -, rfl⟩ := (RangeT.overlap_rest_eq_ok chk _ _ _).1 ho
  clear ho
  have tail : (chk = true → same = true → ¬ (a.ClashC ∧ b.ClashC)) → Q ((do
          let ov ← RangeT.cut_tail ⟨a.lo, a.hi - a.lo, b.lo, b.hi - b.lo⟩ (-a.loc.toNat) (-b.loc.toNat)
          let ddi ← i32 (a.i - a.I)
          let ddj ← i32 (b.i - b.I)
          let begin0 ← ov.begin_ chk 0
          let end0 ← ov.end_ chk 0
          let begin1 ← ov.begin_ chk 1
          let end1 ← ov.end_ chk 1
          forI begin0 end0 fun x => forI begin1 end1 fun y => forU 0 N fun n => copyElem N o pd n x y ddi ddj : M (Heap V) Unit) h) := by
    intro nc
    refine arith_step (RangeT.cut_tail_arith _ _ _ ) (fun q hq => ?_) (fun c => bad2 m fun ⟨⟨aw, ax, al, aL⟩, ⟨bw, bx, bl, bL⟩⟩ => c _ ((RangeT.cut_tail_eq_ok _ _ _ _ ).2 ⟨⟨al, bl⟩, rfl⟩))
    obtain ⟨-, rfl⟩ := (RangeT.cut_tail_eq_ok _ _ _ _ ).1 hq; clear hq
    refine i32_step (fun _ => ?_) (fun c => bad1 fun ⟨⟨aI, ai, ar, aE, ae, aR, as, aH, aS, aT⟩, ⟨bI, bi, br, bE, be, bR, bs, bH, bS, bT⟩⟩ => c ai)
    refine i32_step (fun _ => ?_) (fun c => bad1 fun ⟨⟨aI, ai, ar, aE, ae, aR, as, aH, aS, aT⟩, ⟨bI, bi, br, bE, be, bR, bs, bH, bS, bT⟩⟩ => c bi)
    refine ok_step (RangeT.begin_0 _ _) ?_
    rw [RangeT.end_0]
    refine i32_step (fun _ => ?_) (fun c => bad2 m fun ⟨⟨aw, ax, al, aL⟩, ⟨bw, bx, bl, bL⟩⟩ => c aL)
    refine ok_step (RangeT.begin_1 _ _) ?_
    rw [RangeT.end_1]
    refine i32_step (fun _ => ?_) (fun c => bad2 m fun ⟨⟨aw, ax, al, aL⟩, ⟨bw, bx, bl, bL⟩⟩ => c bL)
    exact run m nc
  cases chk with
  | false => exact tail (by simp)
  | true =>
    simp only [if_true]
    refine i32_step (fun _ => ?_) (fun c => bad1 fun ⟨⟨aI, ai, ar, aE, ae, aR, as, aH, aS, aT⟩, ⟨bI, bi, br, bE, be, bR, bs, bH, bS, bT⟩⟩ => c ai)
    refine i32_step (fun _ => ?_) (fun c => bad1 fun ⟨⟨aI, ai, ar, aE, ae, aR, as, aH, aS, aT⟩, ⟨bI, bi, br, bE, be, bR, bs, bH, bS, bT⟩⟩ => c bi)
    refine arith_step (RangeT.tran_arith _ _ _ ) (fun q hq => ?_) (fun c => bad1 fun ⟨⟨aI, ai, ar, aE, ae, aR, as, aH, aS, aT⟩, ⟨bI, bi, br, bE, be, bR, bs, bH, bS, bT⟩⟩ => c _ ((RangeT.tran_eq_ok _ _ _ _ ).2 ⟨⟨aR, bR⟩, rfl⟩))
    obtain ⟨-, rfl⟩ := (RangeT.tran_eq_ok _ _ _ _ ).1 hq; clear hq
    refine arith_step (RangeT.cut_tail_arith _ _ _ ) (fun q hq => ?_) (fun c => bad1 fun ⟨⟨aI, ai, ar, aE, ae, aR, as, aH, aS, aT⟩, ⟨bI, bi, br, bE, be, bR, bs, bH, bS, bT⟩⟩ => c _ ((RangeT.cut_tail_eq_ok _ _ _ _ ).2 ⟨⟨as, bs⟩, rfl⟩))
    obtain ⟨-, rfl⟩ := (RangeT.cut_tail_eq_ok _ _ _ _ ).1 hq; clear hq
    refine arith_step (RangeT.cut_head_arith _ _ _ ) (fun q hq => ?_) (fun c => bad1 fun ⟨⟨aI, ai, ar, aE, ae, aR, as, aH, aS, aT⟩, ⟨bI, bi, br, bE, be, bR, bs, bH, bS, bT⟩⟩ => c _ ((RangeT.cut_head_eq_ok _ _ _ _ ).2 ⟨⟨aH, aS, bH, bS⟩, rfl⟩))
    obtain ⟨-, rfl⟩ := (RangeT.cut_head_eq_ok _ _ _ _ ).1 hq; clear hq
    cases same with
    | false => exact tail (by simp)
    | true =>
      simp only [if_true]
      rcases RangeT.is_overlap_step true ⟨a.R.1 + (a.i - a.I) + -(a.loc.toNat : Int), a.R.2 - -(a.loc.toNat : Int) - -(a.loc.toNat : Int), b.R.1 + (b.i - b.I) + -(b.loc.toNat : Int), b.R.2 - -(b.loc.toNat : Int) - -(b.loc.toNat : Int)⟩
        ⟨a.lo, a.hi - a.lo, b.lo, b.hi - b.lo⟩ with e | ⟨e, ne⟩
      · by_cases cl : a.ClashC ∧ b.ClashC
        · refine ok_step (a := true) (e.trans (congrArg _ (decide_eq_true cl))) ?_
          exact e2 rfl (m rfl) rfl cl
        · refine ok_step (a := false) (e.trans (congrArg _ (decide_eq_false cl))) ?_
          exact tail fun _ _ => cl
      · refine ub_step e ?_
        by_cases f1 : a.Fits1 ∧ b.Fits1
        · refine bad2 m fun h => ?_
          obtain ⟨⟨aI, ai, ar, aE, ae, aR, as, aH, aS, aT⟩, ⟨bI, bi, br, bE, be, bR, bs, bH, bS, bT⟩⟩ := f1
          obtain ⟨⟨aw, ax, al, aL⟩, ⟨bw, bx, bl, bL⟩⟩ := h
          exact ne ⟨⟨aT, bT⟩, ⟨ax, bx⟩⟩
        · exact bad1 f1
end D2.PD

namespace D3.PD
variable {V : Type}
theorem copy_from_elim (chk : Bool) (N : Nat) (o pd : PD) (same : Bool) (a b g : CopyDim) (h : Heap V)
    {Q : Res (Heap V) Unit → Prop}
    (bad1 : ¬ (a.Fits1 ∧ b.Fits1 ∧ g.Fits1) → Q (.ub .overflow))
    (bad2 : (chk = true → a.Over ∧ b.Over ∧ g.Over) → ¬ (a.Fits2 ∧ b.Fits2 ∧ g.Fits2) → Q (.ub .overflow))
    (e1 : chk = true → ¬ (a.Over ∧ b.Over ∧ g.Over) → Q (.err .overlapNotFound h))
    (e2 : chk = true → a.Over ∧ b.Over ∧ g.Over → same = true → (a.ClashC ∧ b.ClashC ∧ g.ClashC) → Q (.err .copyOverlap h))
    (run : (chk = true → a.Over ∧ b.Over ∧ g.Over) → (chk = true → same = true → ¬ (a.ClashC ∧ b.ClashC ∧ g.ClashC)) →
      Q ((forI a.lo (a.lo + a.wid) fun x => forI b.lo (b.lo + b.wid) fun y => forI g.lo (g.lo + g.wid) fun z => forU 0 N fun n => copyElem N o pd n x y z (a.i - a.I) (b.i - b.I) (g.i - g.I) : M (Heap V) Unit) h)) :
    Q (copy_from chk N a.loc b.loc g.loc o pd same ⟨a.R.1, a.R.2, b.R.1, b.R.2, g.R.1, g.R.2⟩ ⟨a.r.1, a.r.2, b.r.1, b.r.2, g.r.1, g.r.2⟩ a.I b.I g.I a.i b.i g.i h) := by
  unfold copy_from
  refine i32_step (fun _ => ?_) (fun c => bad1 fun ⟨⟨aI, ai, ar, aE, ae, aR, as, aH, aS, aT⟩, ⟨bI, bi, br, bE, be, bR, bs, bH, bS, bT⟩, ⟨gI, gi, gr, gE, ge, gR, gs, gH, gS, gT⟩⟩ => c aI)
  refine i32_step (fun _ => ?_) (fun c => bad1 fun ⟨⟨aI, ai, ar, aE, ae, aR, as, aH, aS, aT⟩, ⟨bI, bi, br, bE, be, bR, bs, bH, bS, bT⟩, ⟨gI, gi, gr, gE, ge, gR, gs, gH, gS, gT⟩⟩ => c bI)
  refine i32_step (fun _ => ?_) (fun c => bad1 fun ⟨⟨aI, ai, ar, aE, ae, aR, as, aH, aS, aT⟩, ⟨bI, bi, br, bE, be, bR, bs, bH, bS, bT⟩, ⟨gI, gi, gr, gE, ge, gR, gs, gH, gS, gT⟩⟩ => c gI)
  refine arith_step (RangeT.tran_arith _ _ _ _ ) (fun q hq => ?_) (fun c => bad1 fun ⟨⟨aI, ai, ar, aE, ae, aR, as, aH, aS, aT⟩, ⟨bI, bi, br, bE, be, bR, bs, bH, bS, bT⟩, ⟨gI, gi, gr, gE, ge, gR, gs, gH, gS, gT⟩⟩ => c _ ((RangeT.tran_eq_ok _ _ _ _ _ ).2 ⟨⟨ar, br, gr⟩, rfl⟩))
  obtain ⟨-, rfl⟩ := (RangeT.tran_eq_ok _ _ _ _ _ ).1 hq; clear hq
  refine RangeT.overlap_step (fun ov ho m => ?_) (fun hc m => e1 hc m) (fun c => bad1 fun ⟨⟨aI, ai, ar, aE, ae, aR, as, aH, aS, aT⟩, ⟨bI, bi, br, bE, be, bR, bs, bH, bS, bT⟩, ⟨gI, gi, gr, gE, ge, gR, gs, gH, gS, gT⟩⟩ => c ⟨⟨aE, bE, gE⟩, ⟨ae, be, ge⟩⟩) (fun m c => ?_)
  swap
  · by_cases f1 : a.Fits1 ∧ b.Fits1 ∧ g.Fits1
    · refine bad2 m fun h => ?_
      obtain ⟨⟨aI, ai, ar, aE, ae, aR, as, aH, aS, aT⟩, ⟨bI, bi, br, bE, be, bR, bs, bH, bS, bT⟩, ⟨gI, gi, gr, gE, ge, gR, gs, gH, gS, gT⟩⟩ := f1
      obtain ⟨⟨aw, ax, al, aL⟩, ⟨bw, bx, bl, bL⟩, ⟨gw, gx, gl, gL⟩⟩ := h
      exact c _ ((RangeT.overlap_rest_eq_ok chk _ _ _).2 ⟨⟨aE, bE, gE⟩, ⟨ae, be, ge⟩, ⟨aw, bw, gw⟩, rfl⟩)
    · exact bad1 f1
  obtain ⟨-, -, -, rfl⟩ := (RangeT.overlap_rest_eq_ok chk _ _ _).1 ho
  clear ho
  have tail : (chk = true → same = true → ¬ (a.ClashC ∧ b.ClashC ∧ g.ClashC)) → Q ((do
          let ov ← RangeT.cut_tail ⟨a.lo, a.hi - a.lo, b.lo, b.hi - b.lo, g.lo, g.hi - g.lo⟩ (-a.loc.toNat) (-b.loc.toNat) (-g.loc.toNat)
          let ddi ← i32 (a.i - a.I)
          let ddj ← i32 (b.i - b.I)
          let ddk ← i32 (g.i - g.I)
          let begin0 ← ov.begin_ chk 0
          let end0 ← ov.end_ chk 0
          let begin1 ← ov.begin_ chk 1
          let end1 ← ov.end_ chk 1
          let begin2 ← ov.begin_ chk 2
          let end2 ← ov.end_ chk 2
          forI begin0 end0 fun x => forI begin1 end1 fun y => forI begin2 end2 fun z => forU 0 N fun n => copyElem N o pd n x y z ddi ddj ddk : M (Heap V) Unit) h) := by
    intro nc
    refine arith_step (RangeT.cut_tail_arith _ _ _ _ ) (fun q hq => ?_) (fun c => bad2 m fun ⟨⟨aw, ax, al, aL⟩, ⟨bw, bx, bl, bL⟩, ⟨gw, gx, gl, gL⟩⟩ => c _ ((RangeT.cut_tail_eq_ok _ _ _ _ _ ).2 ⟨⟨al, bl, gl⟩, rfl⟩))
    obtain ⟨-, rfl⟩ := (RangeT.cut_tail_eq_ok _ _ _ _ _ ).1 hq; clear hq
    refine i32_step (fun _ => ?_) (fun c => bad1 fun ⟨⟨aI, ai, ar, aE, ae, aR, as, aH, aS, aT⟩, ⟨bI, bi, br, bE, be, bR, bs, bH, bS, bT⟩, ⟨gI, gi, gr, gE, ge, gR, gs, gH, gS, gT⟩⟩ => c ai)
    refine i32_step (fun _ => ?_) (fun c => bad1 fun ⟨⟨aI, ai, ar, aE, ae, aR, as, aH, aS, aT⟩, ⟨bI, bi, br, bE, be, bR, bs, bH, bS, bT⟩, ⟨gI, gi, gr, gE, ge, gR, gs, gH, gS, gT⟩⟩ => c bi)
    refine i32_step (fun _ => ?_) (fun c => bad1 fun ⟨⟨aI, ai, ar, aE, ae, aR, as, aH, aS, aT⟩, ⟨bI, bi, br, bE, be, bR, bs, bH, bS, bT⟩, ⟨gI, gi, gr, gE, ge, gR, gs, gH, gS, gT⟩⟩ => c gi)
    refine ok_step (RangeT.begin_0 _ _) ?_
    rw [RangeT.end_0]
    refine i32_step (fun _ => ?_) (fun c => bad2 m fun ⟨⟨aw, ax, al, aL⟩, ⟨bw, bx, bl, bL⟩, ⟨gw, gx, gl, gL⟩⟩ => c aL)
    refine ok_step (RangeT.begin_1 _ _) ?_
    rw [RangeT.end_1]
    refine i32_step (fun _ => ?_) (fun c => bad2 m fun ⟨⟨aw, ax, al, aL⟩, ⟨bw, bx, bl, bL⟩, ⟨gw, gx, gl, gL⟩⟩ => c bL)
    refine ok_step (RangeT.begin_2 _ _) ?_
    rw [RangeT.end_2]
    refine i32_step (fun _ => ?_) (fun c => bad2 m fun ⟨⟨aw, ax, al, aL⟩, ⟨bw, bx, bl, bL⟩, ⟨gw, gx, gl, gL⟩⟩ => c gL)
    exact run m nc
  cases chk with
  | false => exact tail (by simp)
  | true =>
    simp only [if_true]
    refine i32_step (fun _ => ?_) (fun c => bad1 fun ⟨⟨aI, ai, ar, aE, ae, aR, as, aH, aS, aT⟩, ⟨bI, bi, br, bE, be, bR, bs, bH, bS, bT⟩, ⟨gI, gi, gr, gE, ge, gR, gs, gH, gS, gT⟩⟩ => c ai)
    refine i32_step (fun _ => ?_) (fun c => bad1 fun ⟨⟨aI, ai, ar, aE, ae, aR, as, aH, aS, aT⟩, ⟨bI, bi, br, bE, be, bR, bs, bH, bS, bT⟩, ⟨gI, gi, gr, gE, ge, gR, gs, gH, gS, gT⟩⟩ => c bi)
    refine i32_step (fun _ => ?_) (fun c => bad1 fun ⟨⟨aI, ai, ar, aE, ae, aR, as, aH, aS, aT⟩, ⟨bI, bi, br, bE, be, bR, bs, bH, bS, bT⟩, ⟨gI, gi, gr, gE, ge, gR, gs, gH, gS, gT⟩⟩ => c gi)
    refine arith_step (RangeT.tran_arith _ _ _ _ ) (fun q hq => ?_) (fun c => bad1 fun ⟨⟨aI, ai, ar, aE, ae, aR, as, aH, aS, aT⟩, ⟨bI, bi, br, bE, be, bR, bs, bH, bS, bT⟩, ⟨gI, gi, gr, gE, ge, gR, gs, gH, gS, gT⟩⟩ => c _ ((RangeT.tran_eq_ok _ _ _ _ _ ).2 ⟨⟨aR, bR, gR⟩, rfl⟩))
    obtain ⟨-, rfl⟩ := (RangeT.tran_eq_ok _ _ _ _ _ ).1 hq; clear hq
    refine arith_step (RangeT.cut_tail_arith _ _ _ _ ) (fun q hq => ?_) (fun c => bad1 fun ⟨⟨aI, ai, ar, aE, ae, aR, as, aH, aS, aT⟩, ⟨bI, bi, br, bE, be, bR, bs, bH, bS, bT⟩, ⟨gI, gi, gr, gE, ge, gR, gs, gH, gS, gT⟩⟩ => c _ ((RangeT.cut_tail_eq_ok _ _ _ _ _ ).2 ⟨⟨as, bs, gs⟩, rfl⟩))
    obtain ⟨-, rfl⟩ := (RangeT.cut_tail_eq_ok _ _ _ _ _ ).1 hq; clear hq
    refine arith_step (RangeT.cut_head_arith _ _ _ _ ) (fun q hq => ?_) (fun c => bad1 fun ⟨⟨aI, ai, ar, aE, ae, aR, as, aH, aS, aT⟩, ⟨bI, bi, br, bE, be, bR, bs, bH, bS, bT⟩, ⟨gI, gi, gr, gE, ge, gR, gs, gH, gS, gT⟩⟩ => c _ ((RangeT.cut_head_eq_ok _ _ _ _ _ ).2 ⟨⟨aH, aS, bH, bS, gH, gS⟩, rfl⟩))
    obtain ⟨-, rfl⟩ := (RangeT.cut_head_eq_ok _ _ _ _ _ ).1 hq; clear hq
    cases same with
    | false => exact tail (by simp)
    | true =>
      simp only [if_true]
      rcases RangeT.is_overlap_step true ⟨a.R.1 + (a.i - a.I) + -(a.loc.toNat : Int), a.R.2 - -(a.loc.toNat : Int) - -(a.loc.toNat : Int), b.R.1 + (b.i - b.I) + -(b.loc.toNat : Int), b.R.2 - -(b.loc.toNat : Int) - -(b.loc.toNat : Int), g.R.1 + (g.i - g.I) + -(g.loc.toNat : Int), g.R.2 - -(g.loc.toNat : Int) - -(g.loc.toNat : Int)⟩
        ⟨a.lo, a.hi - a.lo, b.lo, b.hi - b.lo, g.lo, g.hi - g.lo⟩ with e | ⟨e, ne⟩
      · by_cases cl : a.ClashC ∧ b.ClashC ∧ g.ClashC
        · refine ok_step (a := true) (e.trans (congrArg _ (decide_eq_true cl))) ?_
          exact e2 rfl (m rfl) rfl cl
        · refine ok_step (a := false) (e.trans (congrArg _ (decide_eq_false cl))) ?_
          exact tail fun _ _ => cl
      · refine ub_step e ?_
        by_cases f1 : a.Fits1 ∧ b.Fits1 ∧ g.Fits1
        · refine bad2 m fun h => ?_
          obtain ⟨⟨aI, ai, ar, aE, ae, aR, as, aH, aS, aT⟩, ⟨bI, bi, br, bE, be, bR, bs, bH, bS, bT⟩, ⟨gI, gi, gr, gE, ge, gR, gs, gH, gS, gT⟩⟩ := f1
          obtain ⟨⟨aw, ax, al, aL⟩, ⟨bw, bx, bl, bL⟩, ⟨gw, gx, gl, gL⟩⟩ := h
          exact ne ⟨⟨aT, bT, gT⟩, ⟨ax, bx, gx⟩⟩
        · exact bad1 f1
end D3.PD


end Verif
