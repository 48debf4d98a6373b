import Verif.Proof.Integration
import Verif.Props.Snippets
import Mathlib.Algebra.Order.Field.Basic
import Mathlib.Algebra.BigOperators.Group.Finset.Basic
import Mathlib.Tactic.Ring
import Mathlib.Tactic.Linarith
import Mathlib.Tactic.FieldSimp
import Mathlib.Tactic.NormNum
import Mathlib.Tactic.Positivity
import Mathlib.Algebra.Order.Ring.Rat
import Mathlib.Analysis.Real.Sqrt
/-!
# C76, C77: Example_D1_integration.cpp
-/
set_option linter.unusedSimpArgs false
namespace Verif.Props
open Spec
variable {V : Type} {mem : Nat → Nat → Bool}

theorem integration_runs [Add V] [OfNat V 0] {chk : Bool} {w : World V} {f : Nat} {div : V → V} {a b : V}
    (h : ∀ v, Integration.lambda chk f 2 div (w, v) = .ok () (w, ⟨[a, b], v.out ++ [a, b]⟩)) (k : Nat) (v : Integration.Vars V) :
    ∃ v', Runs (Integration.lambda chk f 2 div) k (w, v) (w, v') ∧ v'.out = v.out ++ (List.replicate k [a, b]).flatten := by
  induction k generalizing v with
  | zero => exact ⟨v, .none _, by simp⟩
  | succ k ih =>
    obtain ⟨v', r, o⟩ := ih ⟨[a, b], v.out ++ [a, b]⟩
    exact ⟨v', .more (h v) r, by rw [o]; simp [List.replicate_succ]⟩

/-- C76: the whole of Example_D1_integration for any number `N ≥ 1` of points with `2 * N` an `int`, and any arithmetic.  If the
two arrays get their memory, the program runs through; each of the 100 calls of the lambda prints two answers, the sums of the
coordinates and of their roots — added up from the first point to the last — divided by `N - 1`; and the time is the sum of the 100 times
measured, divided by 100. -/
theorem C76 [Add V] [Mul V] [OfNat V 0] {D : Type} (o : Sp.DOps D) (dt : Nat → D) (chk : Bool) {N : Nat} (hN : 1 ≤ N) (hN' : 2 * N < 2147483648)
    (m0 : mem 0 N = true) (m1 : mem 1 (2 * N) = true) (junk : Nat → Nat → Ptr) (h : V) (toV : Int → V) (root div : V → V)
    (v : Integration.Vars V) :
    ∃ w' v', Integration.main o dt chk N junk h toV root div (World.init mem, v) =
        .ok (o.div ((List.range 100).foldl (fun t i => o.add t (dt i)) o.zero) (o.ofU 100)) (w', v') ∧
      v'.out = v.out ++ (List.replicate 100
        [div (0 + (List.range N).foldl (fun t (i : Nat) => t + toV i * h) 0), div (0 + (List.range N).foldl (fun t (i : Nat) => t + root (toV i * h)) 0)]).flatten := by
  have ko : ∀ n < 4294967296, KindOk ⟨n, [.center]⟩ := fun n h => ⟨.inl rfl, h⟩
  have so : ∀ n ≤ 2, SizesOk ⟨n, [.center]⟩ [⟨0, N, 0⟩] := by
    intro n hn
    refine ⟨rfl, ?_, ?_⟩
    · intro d hd
      have : d = ⟨⟨0, N, 0⟩, .center⟩ := by simpa [mkShape] using hd
      subst this
      simp only; omega
    · simp only [mkShape, points, Dim.width, Loc.toNat]
      have : n * ((0 + N + 0 + 0) * 1) ≤ 2 * ((0 + N + 0 + 0) * 1) := Nat.mul_le_mul_right _ hn
      omega
  have pt : points (mkShape [⟨0, N, 0⟩] [.center]) = N := by
    simp [mkShape, points, Dim.width, Loc.toNat]
  have rq : ∀ n : Nat, requests n (mkShape [⟨0, N, 0⟩] [.center]) = [n * N] := by
    intro n
    simp only [requests, pt]
    rfl
  have se : sizeErrs 0 [⟨0, N, 0⟩] = none := by
    simp only [sizeErrs]
    rw [if_neg (by omega)]
  have R : Reach mem chk (World.init mem : World V) AWorld.init := Reach.init
  obtain ⟨w1, e1, R1⟩ := R.make (x := 0) (k := ⟨1, [.center]⟩) (junk 0) (es := [⟨0, N, 0⟩]) rfl (ko _ (by omega)) (so _ (by omega))
    (by simp) se (by rw [pt]; omega) (by rw [rq]; simp [granted, AWorld.init, m0])
  obtain ⟨w2, e2, R2⟩ := R1.make (x := 1) (k := ⟨2, [.center]⟩) (junk 1) (es := [⟨0, N, 0⟩]) rfl (ko _ (by omega)) (so _ (by omega))
    (by simp) se (by rw [pt]; omega) (by
      simp [granted, AWorld.init, rq, m1])
  revert R2
  generalize haw : AWorld.mk _ _ _ = aw2
  intro R2
  have hx : aw2.arr 0 = some (⟨1, [.center]⟩, .ready [⟨0, N, 0⟩] fun _ _ => none) := by rw [← haw]; rfl
  have hf : aw2.arr 1 = some (⟨2, [.center]⟩, .ready [⟨0, N, 0⟩] fun _ _ => none) := by rw [← haw]; rfl
  have R0 : Reach mem chk w2 (withVals aw2 (valsOf aw2)) := by rw [withVals_valsOf]; exact R2
  obtain ⟨w3, σ, r, R3, a⟩ := integration_fill R0 (x := 0) (f := 1) (by decide) hx hf rfl rfl Nat.one_lt_two h toV root
  obtain ⟨v', rs, ov⟩ := integration_runs (fun v => integration_lambda (chk := chk) R3 hf rfl Nat.one_lt_two div (fun i => toV i * h) (fun i => root (toV i * h))
    (fun i p q => (a i (by simp only; omega) (by simp only; omega)).2.1) (fun i p q => (a i (by simp only; omega) (by simp only; omega)).2.2) v) 100 v
  refine ⟨w3, v', ?_, ov⟩
  have d : runOps chk (Integration.decls 0 1 N junk) (World.init mem : World V) = .ok () w2 := by
    unfold Integration.decls
    rw [runOps_cons e1, runOps_cons e2]
    rfl
  unfold Integration.main
  rw [M.bind_ok (onArrays_ok d), M.bind_ok (onArrays_ok r)]
  exact (C48_time o dt 100 (by decide) _ _).1 _ rs

/-- five points, with `Int` for `double`: the sums 0 + 10 + 20 + 30 + 40 and 1 + 11 + 21 + 31 + 41; 100 times -/
example : ∃ w' v', Integration.main (V := Int) natOps (fun _ => 6) true 5 (fun _ _ => .null) 10 id (· + 1) (· - 3)
      (World.init fun _ _ => true, ⟨[], []⟩) = .ok 6 (w', v') ∧
    v'.out = (List.replicate 100 [97, 102]).flatten := by
  obtain ⟨w', v', h1, h2⟩ := C76 (V := Int) (mem := fun _ _ => true) natOps (fun _ => 6) true (N := 5) (by decide) (by decide) rfl rfl (fun _ _ => .null) 10 id
    (· + 1) (· - 3) ⟨[], []⟩
  exact ⟨w', v', h1.trans (congrArg (fun t => Res.ok t (w', v')) (by decide +kernel)), h2.trans (by decide +kernel)⟩

section Exact
variable [Field V] [LinearOrder V] [IsStrictOrderedRing V]

theorem fold_id (n : Nat) (h : V) : (List.range n).foldl (fun t (i : Nat) => t + ((i : Int) : V) * h) 0 = n * (n - 1) / 2 * h := by
  induction n with
  | zero => simp
  | succ n ih =>
    rw [List.range_succ, List.foldl_append, ih]
    simp only [List.foldl_cons, List.foldl_nil, Int.cast_natCast]
    push_cast
    ring

/-- sums of `t k` with `t k ≥ 0` and `t k ^ 2 = k / n` -/
theorem root_sums {n : V} (hn : 0 < n) {t : Nat → V} (t0 : ∀ k, 0 ≤ t k) (t2 : ∀ k : Nat, t k ^ 2 = k / n) (k : Nat) :
    2 * k * t k ≤ 3 * (List.range (k + 1)).foldl (fun s i => s + t i) 0 ∧
    3 * (List.range (k + 1)).foldl (fun s i => s + t i) 0 ≤ 2 * k * t k + 3 * t k := by
  induction k with
  | zero =>
    have := t0 0
    simp [List.range_succ]
    linarith
  | succ k ih =>
    rw [List.range_succ (n := k + 1), List.foldl_append]
    revert ih
    generalize (List.range (k + 1)).foldl (fun s i => s + t i) 0 = S
    intro ih
    simp only [List.foldl_cons, List.foldl_nil]
    obtain ⟨a, b⟩ := ih
    have a0 := t0 k
    have b0 := t0 (k + 1)
    have a2 := t2 k
    have b2 := t2 (k + 1)
    have k0 : (0 : V) ≤ k := Nat.cast_nonneg k
    push_cast at b2 ⊢
    revert a b a0 b0 a2 b2
    generalize t k = x
    generalize t (k + 1) = y
    intro a b a0 b0 a2 b2
    have ni : 0 < 1 / n := by positivity
    have l1 : (2 * (k : V) - 1) * y ≤ 2 * k * x := by
      by_cases hk : k = 0
      · subst hk; simp; linarith
      · have k1 : (1 : V) ≤ k := by exact_mod_cast Nat.one_le_iff_ne_zero.2 hk
        refine abs_le_of_sq_le_sq' ?_ (by positivity) |>.2
        rw [mul_pow, mul_pow (2 * (k : V)), a2, b2]
        have : (2 * (k : V)) ^ 2 * (k / n) - (2 * k - 1) ^ 2 * ((k + 1) / n) = (3 * k - 1) * (1 / n) := by
          field_simp; ring
        have h2 : 0 ≤ (3 * (k : V) - 1) * (1 / n) := mul_nonneg (by linarith) ni.le
        linarith
    have l2 : (2 * (k : V) + 3) * x ≤ 2 * (k + 1) * y := by
      refine abs_le_of_sq_le_sq' ?_ (by positivity) |>.2
      rw [mul_pow, mul_pow (2 * ((k : V) + 1)), a2, b2]
      have : (2 * ((k : V) + 1)) ^ 2 * ((k + 1) / n) - (2 * k + 3) ^ 2 * (k / n) = (3 * k + 4) * (1 / n) := by
        field_simp; ring
      have h2 : 0 ≤ (3 * (k : V) + 4) * (1 / n) := by positivity
      linarith
    constructor <;> linarith

/-- C77: what Example_D1_integration prints in exact arithmetic, for any number `N ≥ 2` of points: the first answer is
`N / (2 * (N - 1))`, which exceeds the integral 1/2 of `x` by `1 / (2 * (N - 1))`; the second is at least the integral 2/3 of the root, and at
most `1 / (N - 1)` more. -/
theorem C77 {D : Type} (o : Sp.DOps D) (dt : Nat → D) (chk : Bool) {N : Nat} (hN : 2 ≤ N) (hN' : 2 * N < 2147483648)
    (m0 : mem 0 N = true) (m1 : mem 1 (2 * N) = true) (junk : Nat → Nat → Ptr) (root : V → V)
    (hroot : ∀ x, 0 ≤ x → 0 ≤ root x ∧ root x ^ 2 = x) (v : Integration.Vars V) :
    ∃ (t : D) (w' : World V) (v' : Integration.Vars V) (a b : V), Integration.main o dt chk N junk (1 / ((N : V) - 1)) (fun i => (i : V)) root (· / ((N : V) - 1)) (World.init mem, v) = .ok t (w', v') ∧
      v'.out = v.out ++ (List.replicate 100 [a, b]).flatten ∧
      a = N / (2 * (N - 1)) ∧ a - 1 / 2 = 1 / (2 * (N - 1)) ∧ 2 / 3 ≤ b ∧ b ≤ 2 / 3 + 1 / (N - 1) := by
  obtain ⟨w', v', h1, h2⟩ := C76 (V := V) (mem := mem) o dt chk (N := N) (by omega) hN' m0 m1 junk (1 / ((N : V) - 1)) (fun i => (i : V)) root
    (· / ((N : V) - 1)) v
  obtain ⟨n, rfl⟩ : ∃ n, N = n + 1 := ⟨N - 1, by omega⟩
  have n1 : (1 : V) ≤ n := by exact_mod_cast (by omega : 1 ≤ n)
  have n0 : (0 : V) < n := by linarith
  have en : (((n + 1 : Nat) : V) - 1) = n := by push_cast; ring
  refine ⟨_, w', v', _, _, h1, h2, ?_, ?_, ?_⟩
  · rw [fold_id, en]
    push_cast
    field_simp
    ring
  · rw [fold_id, en]
    push_cast
    field_simp
    ring
  · simp only [en]
    have p : ∀ k : Nat, (0 : V) ≤ ((k : Int) : V) * (1 / n) := fun k => by
      rw [Int.cast_natCast]; positivity
    have q := root_sums n0 (t := fun k => root (((k : Int) : V) * (1 / n))) (fun k => (hroot _ (p k)).1)
      (fun k => by rw [(hroot _ (p k)).2, Int.cast_natCast]; ring) n
    have r1 : root ((((n : Nat) : Int) : V) * (1 / n)) = 1 := by
      have : (((n : Nat) : Int) : V) * (1 / n) = 1 := by rw [Int.cast_natCast]; field_simp
      rw [this]
      obtain ⟨h3, h4⟩ := hroot 1 zero_le_one
      nlinarith
    simp only [r1] at q
    revert q
    generalize (List.range (n + 1)).foldl (fun s i => s + root (((i : Int) : V) * (1 / n))) 0 = S
    rintro ⟨q1, q2⟩
    rw [zero_add]
    constructor
    · rw [div_le_div_iff₀ (by norm_num) n0]; linarith
    · rw [div_add_div _ _ (by norm_num) n0.ne', div_le_div_iff₀ n0 (by positivity)]
      nlinarith

end Exact

/-- the real numbers, and the number of points in the source -/
example : (∀ x : ℝ, 0 ≤ x → 0 ≤ √x ∧ √x ^ 2 = x) ∧ 2 * 10000001 < 2147483648 ∧
    ∃ t w' v' a b, Integration.main natOps (fun _ => 6) true 10000001 (fun _ _ => .null) (1 / (((10000001 : Nat) : ℝ) - 1)) (fun i => (i : ℝ)) Real.sqrt
        (· / (((10000001 : Nat) : ℝ) - 1)) (World.init fun _ _ => true, ⟨[], []⟩) = .ok t (w', v') ∧
      v'.out = (List.replicate 100 [a, b]).flatten ∧ a = 10000001 / 20000000 ∧ 2 / 3 ≤ b ∧ b ≤ 2 / 3 + 1 / 10000000 := by
  refine ⟨fun x h => ⟨Real.sqrt_nonneg x, Real.sq_sqrt h⟩, by decide, ?_⟩
  obtain ⟨t, w', v', a, b, h1, h2, h3, -, h4, h5⟩ := C77 (V := ℝ) (mem := fun _ _ => true) natOps (fun _ => 6) true (N := 10000001) (by decide) (by decide) rfl rfl
    (fun _ _ => .null) Real.sqrt (fun x h => ⟨Real.sqrt_nonneg x, Real.sq_sqrt h⟩) ⟨[], []⟩
  refine ⟨t, w', v', a, b, h1, h2, h3.trans (by norm_num), h4, h5.trans (by norm_num)⟩

end Verif.Props
