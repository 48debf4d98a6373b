import Verif.Spec.Index
/-!
# Evaluation lemmas for the accessors
-/
namespace Verif

namespace Out
variable {α β : Type}
theorem bind_eq_ok {m : Out α} {f : α → Out β} {b : β} :
    (m >>= f) = .ok b ↔ ∃ a, m = .ok a ∧ f a = .ok b := by cases m <;> simp
theorem bind_eq_err {m : Out α} {f : α → Out β} {e : Err} :
    (m >>= f) = .err e ↔ m = .err e ∨ ∃ a, m = .ok a ∧ f a = .err e := by cases m <;> simp
theorem bind_eq_ub {m : Out α} {f : α → Out β} {u : UB} :
    (m >>= f) = .ub u ↔ m = .ub u ∨ ∃ a, m = .ok a ∧ f a = .ub u := by cases m <;> simp
end Out

@[simp] theorem i32_eq_ok {x y : Int} : i32 x = .ok y ↔ InI32 x ∧ x = y := by
  unfold i32; split <;> simp [*]
@[simp] theorem i32_eq_err {x : Int} {e : Err} : i32 x = .err e ↔ False := by
  unfold i32; split <;> simp
@[simp] theorem i32_eq_ub {x : Int} {u : UB} : i32 x = .ub u ↔ ¬ InI32 x ∧ u = .overflow := by
  unfold i32; split <;> simp [*, eq_comm]

/-- `check_d` with a valid dimension -/
theorem check_d_ok {chk : Bool} {D d : Nat} (h : d < D) : check_d chk D d = .ok () := by
  unfold check_d; rw [if_neg]; omega

@[simp] theorem check_d_1_0 (chk : Bool) : check_d chk D1.D 0 = .ok () := check_d_ok (by decide)
@[simp] theorem check_d_2_0 (chk : Bool) : check_d chk D2.D 0 = .ok () := check_d_ok (by decide)
@[simp] theorem check_d_2_1 (chk : Bool) : check_d chk D2.D 1 = .ok () := check_d_ok (by decide)
@[simp] theorem check_d_3_0 (chk : Bool) : check_d chk D3.D 0 = .ok () := check_d_ok (by decide)
@[simp] theorem check_d_3_1 (chk : Bool) : check_d chk D3.D 1 = .ok () := check_d_ok (by decide)
@[simp] theorem check_d_3_2 (chk : Bool) : check_d chk D3.D 2 = .ok () := check_d_ok (by decide)

namespace D1
@[simp] theorem RangeT.begin_0 (chk : Bool) (r : RangeT) : r.begin_ chk 0 = .ok r.b := by
  simp [RangeT.begin_]
@[simp] theorem RangeT.size_0 (chk : Bool) (r : RangeT) : r.size chk 0 = .ok r.s := by
  simp [RangeT.size]
@[simp] theorem RangeT.end_0 (chk : Bool) (r : RangeT) : r.end_ chk 0 = i32 (r.b + r.s) := by
  simp [RangeT.end_]
@[simp] theorem RangeT.last_0 (chk : Bool) (r : RangeT) :
    r.last chk 0 = (i32 (r.b + r.s) >>= fun e => i32 (e - 1)) := by
  simp [RangeT.last]
@[simp] theorem SizeT.in_0 (chk : Bool) (s : SizeT) : s.in' chk 0 = .ok s.in_ := by
  simp [SizeT.in']
@[simp] theorem SizeT.n_0 (chk : Bool) (s : SizeT) : s.n chk 0 = .ok s.n_ := by
  simp [SizeT.n]
@[simp] theorem SizeT.p_0 (chk : Bool) (s : SizeT) : s.p chk 0 = .ok s.p_ := by
  simp [SizeT.p]
@[simp] theorem SizeT.begin_ALL_0 (chk : Bool) (s : SizeT) : s.begin_ chk 0 .ALL = i32 (-s.n_) := by
  simp [SizeT.begin_]
@[simp] theorem SizeT.begin_IN_0 (chk : Bool) (s : SizeT) : s.begin_ chk 0 .IN = .ok 0 := by
  simp [SizeT.begin_]
@[simp] theorem SizeT.begin_N_0 (chk : Bool) (s : SizeT) : s.begin_ chk 0 .N = i32 (-s.n_) := by
  simp [SizeT.begin_]
@[simp] theorem SizeT.begin_P_0 (chk : Bool) (s : SizeT) : s.begin_ chk 0 .P = .ok s.in_ := by
  simp [SizeT.begin_]
@[simp] theorem SizeT.end_ALL_0 (chk : Bool) (s : SizeT) : s.end_ chk 0 .ALL = i32 (s.in_ + s.p_) := by
  simp [SizeT.end_]
@[simp] theorem SizeT.end_IN_0 (chk : Bool) (s : SizeT) : s.end_ chk 0 .IN = .ok s.in_ := by
  simp [SizeT.end_]
@[simp] theorem SizeT.end_N_0 (chk : Bool) (s : SizeT) : s.end_ chk 0 .N = .ok 0 := by
  simp [SizeT.end_]
@[simp] theorem SizeT.end_P_0 (chk : Bool) (s : SizeT) : s.end_ chk 0 .P = i32 (s.in_ + s.p_) := by
  simp [SizeT.end_]

/-- begin, end, size and last of every tag of a representable size, dimension 0 -/
theorem SizeT.acc_0 (chk : Bool) (s : SizeT) {n i p : Nat} (t : RA)
    (hn : s.n_ = n) (hi : s.in_ = i) (hp : s.p_ = p) (h : n + i + p < 2147483648) :
    s.begin_ chk 0 t = .ok (Spec.tagBegin n i t) ∧
    s.end_ chk 0 t = .ok (Spec.tagEnd i p t) ∧
    s.size chk 0 t = .ok (Spec.tagEnd i p t - Spec.tagBegin n i t).toNat ∧
    s.last chk 0 t = .ok (Spec.tagEnd i p t - 1) := by
  have hb : s.begin_ chk 0 t = .ok (Spec.tagBegin n i t) := by
    cases t <;> simp [Spec.tagBegin, hn, hi, InI32] <;> omega
  have he : s.end_ chk 0 t = .ok (Spec.tagEnd i p t) := by
    cases t <;> simp [Spec.tagEnd, hi, hp, InI32] <;> omega
  refine ⟨hb, he, ?_, ?_⟩
  · rw [SizeT.size, hb, he]
    cases t <;> simp only [Out.ok_bind, Spec.tagEnd, Spec.tagBegin] <;>
      rw [i32_ok (by unfold InI32; omega), Out.ok_bind, toU32_of_nonneg (by omega) (by omega)]
  · rw [SizeT.last, he]
    cases t <;> simp only [Out.ok_bind, Spec.tagEnd] <;> exact i32_ok (by unfold InI32; omega)

end D1

namespace D2
@[simp] theorem RangeT.begin_0 (chk : Bool) (r : RangeT) : r.begin_ chk 0 = .ok r.b0 := by
  simp [RangeT.begin_, sel]
@[simp] theorem RangeT.size_0 (chk : Bool) (r : RangeT) : r.size chk 0 = .ok r.s0 := by
  simp [RangeT.size, sel]
@[simp] theorem RangeT.end_0 (chk : Bool) (r : RangeT) : r.end_ chk 0 = i32 (r.b0 + r.s0) := by
  simp [RangeT.end_]
@[simp] theorem RangeT.last_0 (chk : Bool) (r : RangeT) :
    r.last chk 0 = (i32 (r.b0 + r.s0) >>= fun e => i32 (e - 1)) := by
  simp [RangeT.last]
@[simp] theorem SizeT.in_0 (chk : Bool) (s : SizeT) : s.in' chk 0 = .ok s.in0 := by
  simp [SizeT.in', sel]
@[simp] theorem SizeT.n_0 (chk : Bool) (s : SizeT) : s.n chk 0 = .ok s.n0 := by
  simp [SizeT.n, sel]
@[simp] theorem SizeT.p_0 (chk : Bool) (s : SizeT) : s.p chk 0 = .ok s.p0 := by
  simp [SizeT.p, sel]
@[simp] theorem SizeT.begin_ALL_0 (chk : Bool) (s : SizeT) : s.begin_ chk 0 .ALL = i32 (-s.n0) := by
  simp [SizeT.begin_, sel]
@[simp] theorem SizeT.begin_IN_0 (chk : Bool) (s : SizeT) : s.begin_ chk 0 .IN = .ok 0 := by
  simp [SizeT.begin_]
@[simp] theorem SizeT.begin_N_0 (chk : Bool) (s : SizeT) : s.begin_ chk 0 .N = i32 (-s.n0) := by
  simp [SizeT.begin_, sel]
@[simp] theorem SizeT.begin_P_0 (chk : Bool) (s : SizeT) : s.begin_ chk 0 .P = .ok s.in0 := by
  simp [SizeT.begin_, sel]
@[simp] theorem SizeT.end_ALL_0 (chk : Bool) (s : SizeT) : s.end_ chk 0 .ALL = i32 (s.in0 + s.p0) := by
  simp [SizeT.end_, sel]
@[simp] theorem SizeT.end_IN_0 (chk : Bool) (s : SizeT) : s.end_ chk 0 .IN = .ok s.in0 := by
  simp [SizeT.end_, sel]
@[simp] theorem SizeT.end_N_0 (chk : Bool) (s : SizeT) : s.end_ chk 0 .N = .ok 0 := by
  simp [SizeT.end_]
@[simp] theorem SizeT.end_P_0 (chk : Bool) (s : SizeT) : s.end_ chk 0 .P = i32 (s.in0 + s.p0) := by
  simp [SizeT.end_, sel]

/-- begin, end, size and last of every tag of a representable size, dimension 0 -/
theorem SizeT.acc_0 (chk : Bool) (s : SizeT) {n i p : Nat} (t : RA)
    (hn : s.n0 = n) (hi : s.in0 = i) (hp : s.p0 = p) (h : n + i + p < 2147483648) :
    s.begin_ chk 0 t = .ok (Spec.tagBegin n i t) ∧
    s.end_ chk 0 t = .ok (Spec.tagEnd i p t) ∧
    s.size chk 0 t = .ok (Spec.tagEnd i p t - Spec.tagBegin n i t).toNat ∧
    s.last chk 0 t = .ok (Spec.tagEnd i p t - 1) := by
  have hb : s.begin_ chk 0 t = .ok (Spec.tagBegin n i t) := by
    cases t <;> simp [Spec.tagBegin, hn, hi, InI32] <;> omega
  have he : s.end_ chk 0 t = .ok (Spec.tagEnd i p t) := by
    cases t <;> simp [Spec.tagEnd, hi, hp, InI32] <;> omega
  refine ⟨hb, he, ?_, ?_⟩
  · rw [SizeT.size, hb, he]
    cases t <;> simp only [Out.ok_bind, Spec.tagEnd, Spec.tagBegin] <;>
      rw [i32_ok (by unfold InI32; omega), Out.ok_bind, toU32_of_nonneg (by omega) (by omega)]
  · rw [SizeT.last, he]
    cases t <;> simp only [Out.ok_bind, Spec.tagEnd] <;> exact i32_ok (by unfold InI32; omega)

@[simp] theorem RangeT.begin_1 (chk : Bool) (r : RangeT) : r.begin_ chk 1 = .ok r.b1 := by
  simp [RangeT.begin_, sel]
@[simp] theorem RangeT.size_1 (chk : Bool) (r : RangeT) : r.size chk 1 = .ok r.s1 := by
  simp [RangeT.size, sel]
@[simp] theorem RangeT.end_1 (chk : Bool) (r : RangeT) : r.end_ chk 1 = i32 (r.b1 + r.s1) := by
  simp [RangeT.end_]
@[simp] theorem RangeT.last_1 (chk : Bool) (r : RangeT) :
    r.last chk 1 = (i32 (r.b1 + r.s1) >>= fun e => i32 (e - 1)) := by
  simp [RangeT.last]
@[simp] theorem SizeT.in_1 (chk : Bool) (s : SizeT) : s.in' chk 1 = .ok s.in1 := by
  simp [SizeT.in', sel]
@[simp] theorem SizeT.n_1 (chk : Bool) (s : SizeT) : s.n chk 1 = .ok s.n1 := by
  simp [SizeT.n, sel]
@[simp] theorem SizeT.p_1 (chk : Bool) (s : SizeT) : s.p chk 1 = .ok s.p1 := by
  simp [SizeT.p, sel]
@[simp] theorem SizeT.begin_ALL_1 (chk : Bool) (s : SizeT) : s.begin_ chk 1 .ALL = i32 (-s.n1) := by
  simp [SizeT.begin_, sel]
@[simp] theorem SizeT.begin_IN_1 (chk : Bool) (s : SizeT) : s.begin_ chk 1 .IN = .ok 0 := by
  simp [SizeT.begin_]
@[simp] theorem SizeT.begin_N_1 (chk : Bool) (s : SizeT) : s.begin_ chk 1 .N = i32 (-s.n1) := by
  simp [SizeT.begin_, sel]
@[simp] theorem SizeT.begin_P_1 (chk : Bool) (s : SizeT) : s.begin_ chk 1 .P = .ok s.in1 := by
  simp [SizeT.begin_, sel]
@[simp] theorem SizeT.end_ALL_1 (chk : Bool) (s : SizeT) : s.end_ chk 1 .ALL = i32 (s.in1 + s.p1) := by
  simp [SizeT.end_, sel]
@[simp] theorem SizeT.end_IN_1 (chk : Bool) (s : SizeT) : s.end_ chk 1 .IN = .ok s.in1 := by
  simp [SizeT.end_, sel]
@[simp] theorem SizeT.end_N_1 (chk : Bool) (s : SizeT) : s.end_ chk 1 .N = .ok 0 := by
  simp [SizeT.end_]
@[simp] theorem SizeT.end_P_1 (chk : Bool) (s : SizeT) : s.end_ chk 1 .P = i32 (s.in1 + s.p1) := by
  simp [SizeT.end_, sel]

/-- begin, end, size and last of every tag of a representable size, dimension 1 -/
theorem SizeT.acc_1 (chk : Bool) (s : SizeT) {n i p : Nat} (t : RA)
    (hn : s.n1 = n) (hi : s.in1 = i) (hp : s.p1 = p) (h : n + i + p < 2147483648) :
    s.begin_ chk 1 t = .ok (Spec.tagBegin n i t) ∧
    s.end_ chk 1 t = .ok (Spec.tagEnd i p t) ∧
    s.size chk 1 t = .ok (Spec.tagEnd i p t - Spec.tagBegin n i t).toNat ∧
    s.last chk 1 t = .ok (Spec.tagEnd i p t - 1) := by
  have hb : s.begin_ chk 1 t = .ok (Spec.tagBegin n i t) := by
    cases t <;> simp [Spec.tagBegin, hn, hi, InI32] <;> omega
  have he : s.end_ chk 1 t = .ok (Spec.tagEnd i p t) := by
    cases t <;> simp [Spec.tagEnd, hi, hp, InI32] <;> omega
  refine ⟨hb, he, ?_, ?_⟩
  · rw [SizeT.size, hb, he]
    cases t <;> simp only [Out.ok_bind, Spec.tagEnd, Spec.tagBegin] <;>
      rw [i32_ok (by unfold InI32; omega), Out.ok_bind, toU32_of_nonneg (by omega) (by omega)]
  · rw [SizeT.last, he]
    cases t <;> simp only [Out.ok_bind, Spec.tagEnd] <;> exact i32_ok (by unfold InI32; omega)

end D2

namespace D3
@[simp] theorem RangeT.begin_0 (chk : Bool) (r : RangeT) : r.begin_ chk 0 = .ok r.b0 := by
  simp [RangeT.begin_, sel]
@[simp] theorem RangeT.size_0 (chk : Bool) (r : RangeT) : r.size chk 0 = .ok r.s0 := by
  simp [RangeT.size, sel]
@[simp] theorem RangeT.end_0 (chk : Bool) (r : RangeT) : r.end_ chk 0 = i32 (r.b0 + r.s0) := by
  simp [RangeT.end_]
@[simp] theorem RangeT.last_0 (chk : Bool) (r : RangeT) :
    r.last chk 0 = (i32 (r.b0 + r.s0) >>= fun e => i32 (e - 1)) := by
  simp [RangeT.last]
@[simp] theorem SizeT.in_0 (chk : Bool) (s : SizeT) : s.in' chk 0 = .ok s.in0 := by
  simp [SizeT.in', sel]
@[simp] theorem SizeT.n_0 (chk : Bool) (s : SizeT) : s.n chk 0 = .ok s.n0 := by
  simp [SizeT.n, sel]
@[simp] theorem SizeT.p_0 (chk : Bool) (s : SizeT) : s.p chk 0 = .ok s.p0 := by
  simp [SizeT.p, sel]
@[simp] theorem SizeT.begin_ALL_0 (chk : Bool) (s : SizeT) : s.begin_ chk 0 .ALL = i32 (-s.n0) := by
  simp [SizeT.begin_, sel]
@[simp] theorem SizeT.begin_IN_0 (chk : Bool) (s : SizeT) : s.begin_ chk 0 .IN = .ok 0 := by
  simp [SizeT.begin_]
@[simp] theorem SizeT.begin_N_0 (chk : Bool) (s : SizeT) : s.begin_ chk 0 .N = i32 (-s.n0) := by
  simp [SizeT.begin_, sel]
@[simp] theorem SizeT.begin_P_0 (chk : Bool) (s : SizeT) : s.begin_ chk 0 .P = .ok s.in0 := by
  simp [SizeT.begin_, sel]
@[simp] theorem SizeT.end_ALL_0 (chk : Bool) (s : SizeT) : s.end_ chk 0 .ALL = i32 (s.in0 + s.p0) := by
  simp [SizeT.end_, sel]
@[simp] theorem SizeT.end_IN_0 (chk : Bool) (s : SizeT) : s.end_ chk 0 .IN = .ok s.in0 := by
  simp [SizeT.end_, sel]
@[simp] theorem SizeT.end_N_0 (chk : Bool) (s : SizeT) : s.end_ chk 0 .N = .ok 0 := by
  simp [SizeT.end_]
@[simp] theorem SizeT.end_P_0 (chk : Bool) (s : SizeT) : s.end_ chk 0 .P = i32 (s.in0 + s.p0) := by
  simp [SizeT.end_, sel]

/-- begin, end, size and last of every tag of a representable size, dimension 0 -/
theorem SizeT.acc_0 (chk : Bool) (s : SizeT) {n i p : Nat} (t : RA)
    (hn : s.n0 = n) (hi : s.in0 = i) (hp : s.p0 = p) (h : n + i + p < 2147483648) :
    s.begin_ chk 0 t = .ok (Spec.tagBegin n i t) ∧
    s.end_ chk 0 t = .ok (Spec.tagEnd i p t) ∧
    s.size chk 0 t = .ok (Spec.tagEnd i p t - Spec.tagBegin n i t).toNat ∧
    s.last chk 0 t = .ok (Spec.tagEnd i p t - 1) := by
  have hb : s.begin_ chk 0 t = .ok (Spec.tagBegin n i t) := by
    cases t <;> simp [Spec.tagBegin, hn, hi, InI32] <;> omega
  have he : s.end_ chk 0 t = .ok (Spec.tagEnd i p t) := by
    cases t <;> simp [Spec.tagEnd, hi, hp, InI32] <;> omega
  refine ⟨hb, he, ?_, ?_⟩
  · rw [SizeT.size, hb, he]
    cases t <;> simp only [Out.ok_bind, Spec.tagEnd, Spec.tagBegin] <;>
      rw [i32_ok (by unfold InI32; omega), Out.ok_bind, toU32_of_nonneg (by omega) (by omega)]
  · rw [SizeT.last, he]
    cases t <;> simp only [Out.ok_bind, Spec.tagEnd] <;> exact i32_ok (by unfold InI32; omega)

@[simp] theorem RangeT.begin_1 (chk : Bool) (r : RangeT) : r.begin_ chk 1 = .ok r.b1 := by
  simp [RangeT.begin_, sel]
@[simp] theorem RangeT.size_1 (chk : Bool) (r : RangeT) : r.size chk 1 = .ok r.s1 := by
  simp [RangeT.size, sel]
@[simp] theorem RangeT.end_1 (chk : Bool) (r : RangeT) : r.end_ chk 1 = i32 (r.b1 + r.s1) := by
  simp [RangeT.end_]
@[simp] theorem RangeT.last_1 (chk : Bool) (r : RangeT) :
    r.last chk 1 = (i32 (r.b1 + r.s1) >>= fun e => i32 (e - 1)) := by
  simp [RangeT.last]
@[simp] theorem SizeT.in_1 (chk : Bool) (s : SizeT) : s.in' chk 1 = .ok s.in1 := by
  simp [SizeT.in', sel]
@[simp] theorem SizeT.n_1 (chk : Bool) (s : SizeT) : s.n chk 1 = .ok s.n1 := by
  simp [SizeT.n, sel]
@[simp] theorem SizeT.p_1 (chk : Bool) (s : SizeT) : s.p chk 1 = .ok s.p1 := by
  simp [SizeT.p, sel]
@[simp] theorem SizeT.begin_ALL_1 (chk : Bool) (s : SizeT) : s.begin_ chk 1 .ALL = i32 (-s.n1) := by
  simp [SizeT.begin_, sel]
@[simp] theorem SizeT.begin_IN_1 (chk : Bool) (s : SizeT) : s.begin_ chk 1 .IN = .ok 0 := by
  simp [SizeT.begin_]
@[simp] theorem SizeT.begin_N_1 (chk : Bool) (s : SizeT) : s.begin_ chk 1 .N = i32 (-s.n1) := by
  simp [SizeT.begin_, sel]
@[simp] theorem SizeT.begin_P_1 (chk : Bool) (s : SizeT) : s.begin_ chk 1 .P = .ok s.in1 := by
  simp [SizeT.begin_, sel]
@[simp] theorem SizeT.end_ALL_1 (chk : Bool) (s : SizeT) : s.end_ chk 1 .ALL = i32 (s.in1 + s.p1) := by
  simp [SizeT.end_, sel]
@[simp] theorem SizeT.end_IN_1 (chk : Bool) (s : SizeT) : s.end_ chk 1 .IN = .ok s.in1 := by
  simp [SizeT.end_, sel]
@[simp] theorem SizeT.end_N_1 (chk : Bool) (s : SizeT) : s.end_ chk 1 .N = .ok 0 := by
  simp [SizeT.end_]
@[simp] theorem SizeT.end_P_1 (chk : Bool) (s : SizeT) : s.end_ chk 1 .P = i32 (s.in1 + s.p1) := by
  simp [SizeT.end_, sel]

/-- begin, end, size and last of every tag of a representable size, dimension 1 -/
theorem SizeT.acc_1 (chk : Bool) (s : SizeT) {n i p : Nat} (t : RA)
    (hn : s.n1 = n) (hi : s.in1 = i) (hp : s.p1 = p) (h : n + i + p < 2147483648) :
    s.begin_ chk 1 t = .ok (Spec.tagBegin n i t) ∧
    s.end_ chk 1 t = .ok (Spec.tagEnd i p t) ∧
    s.size chk 1 t = .ok (Spec.tagEnd i p t - Spec.tagBegin n i t).toNat ∧
    s.last chk 1 t = .ok (Spec.tagEnd i p t - 1) := by
  have hb : s.begin_ chk 1 t = .ok (Spec.tagBegin n i t) := by
    cases t <;> simp [Spec.tagBegin, hn, hi, InI32] <;> omega
  have he : s.end_ chk 1 t = .ok (Spec.tagEnd i p t) := by
    cases t <;> simp [Spec.tagEnd, hi, hp, InI32] <;> omega
  refine ⟨hb, he, ?_, ?_⟩
  · rw [SizeT.size, hb, he]
    cases t <;> simp only [Out.ok_bind, Spec.tagEnd, Spec.tagBegin] <;>
      rw [i32_ok (by unfold InI32; omega), Out.ok_bind, toU32_of_nonneg (by omega) (by omega)]
  · rw [SizeT.last, he]
    cases t <;> simp only [Out.ok_bind, Spec.tagEnd] <;> exact i32_ok (by unfold InI32; omega)

@[simp] theorem RangeT.begin_2 (chk : Bool) (r : RangeT) : r.begin_ chk 2 = .ok r.b2 := by
  simp [RangeT.begin_, sel]
@[simp] theorem RangeT.size_2 (chk : Bool) (r : RangeT) : r.size chk 2 = .ok r.s2 := by
  simp [RangeT.size, sel]
@[simp] theorem RangeT.end_2 (chk : Bool) (r : RangeT) : r.end_ chk 2 = i32 (r.b2 + r.s2) := by
  simp [RangeT.end_]
@[simp] theorem RangeT.last_2 (chk : Bool) (r : RangeT) :
    r.last chk 2 = (i32 (r.b2 + r.s2) >>= fun e => i32 (e - 1)) := by
  simp [RangeT.last]
@[simp] theorem SizeT.in_2 (chk : Bool) (s : SizeT) : s.in' chk 2 = .ok s.in2 := by
  simp [SizeT.in', sel]
@[simp] theorem SizeT.n_2 (chk : Bool) (s : SizeT) : s.n chk 2 = .ok s.n2 := by
  simp [SizeT.n, sel]
@[simp] theorem SizeT.p_2 (chk : Bool) (s : SizeT) : s.p chk 2 = .ok s.p2 := by
  simp [SizeT.p, sel]
@[simp] theorem SizeT.begin_ALL_2 (chk : Bool) (s : SizeT) : s.begin_ chk 2 .ALL = i32 (-s.n2) := by
  simp [SizeT.begin_, sel]
@[simp] theorem SizeT.begin_IN_2 (chk : Bool) (s : SizeT) : s.begin_ chk 2 .IN = .ok 0 := by
  simp [SizeT.begin_]
@[simp] theorem SizeT.begin_N_2 (chk : Bool) (s : SizeT) : s.begin_ chk 2 .N = i32 (-s.n2) := by
  simp [SizeT.begin_, sel]
@[simp] theorem SizeT.begin_P_2 (chk : Bool) (s : SizeT) : s.begin_ chk 2 .P = .ok s.in2 := by
  simp [SizeT.begin_, sel]
@[simp] theorem SizeT.end_ALL_2 (chk : Bool) (s : SizeT) : s.end_ chk 2 .ALL = i32 (s.in2 + s.p2) := by
  simp [SizeT.end_, sel]
@[simp] theorem SizeT.end_IN_2 (chk : Bool) (s : SizeT) : s.end_ chk 2 .IN = .ok s.in2 := by
  simp [SizeT.end_, sel]
@[simp] theorem SizeT.end_N_2 (chk : Bool) (s : SizeT) : s.end_ chk 2 .N = .ok 0 := by
  simp [SizeT.end_]
@[simp] theorem SizeT.end_P_2 (chk : Bool) (s : SizeT) : s.end_ chk 2 .P = i32 (s.in2 + s.p2) := by
  simp [SizeT.end_, sel]

/-- begin, end, size and last of every tag of a representable size, dimension 2 -/
theorem SizeT.acc_2 (chk : Bool) (s : SizeT) {n i p : Nat} (t : RA)
    (hn : s.n2 = n) (hi : s.in2 = i) (hp : s.p2 = p) (h : n + i + p < 2147483648) :
    s.begin_ chk 2 t = .ok (Spec.tagBegin n i t) ∧
    s.end_ chk 2 t = .ok (Spec.tagEnd i p t) ∧
    s.size chk 2 t = .ok (Spec.tagEnd i p t - Spec.tagBegin n i t).toNat ∧
    s.last chk 2 t = .ok (Spec.tagEnd i p t - 1) := by
  have hb : s.begin_ chk 2 t = .ok (Spec.tagBegin n i t) := by
    cases t <;> simp [Spec.tagBegin, hn, hi, InI32] <;> omega
  have he : s.end_ chk 2 t = .ok (Spec.tagEnd i p t) := by
    cases t <;> simp [Spec.tagEnd, hi, hp, InI32] <;> omega
  refine ⟨hb, he, ?_, ?_⟩
  · rw [SizeT.size, hb, he]
    cases t <;> simp only [Out.ok_bind, Spec.tagEnd, Spec.tagBegin] <;>
      rw [i32_ok (by unfold InI32; omega), Out.ok_bind, toU32_of_nonneg (by omega) (by omega)]
  · rw [SizeT.last, he]
    cases t <;> simp only [Out.ok_bind, Spec.tagEnd] <;> exact i32_ok (by unfold InI32; omega)

end D3

end Verif
