import Verif.Proof.Heat1
import Verif.Props.Disp
import Mathlib.Algebra.Order.Field.Basic
import Mathlib.Algebra.BigOperators.Group.Finset.Basic
import Mathlib.Tactic.Ring
import Mathlib.Tactic.Linarith
import Mathlib.Tactic.FieldSimp
import Mathlib.Tactic.NormNum
import Mathlib.Algebra.Order.Ring.Rat
/-!
# C66 – C68: Example_D1_heat.cpp
-/
set_option linter.unusedSimpArgs false
namespace Verif.Props
open Spec
variable {V : Type} {mem : Nat → Nat → Bool} {chk : Bool} {w : World V} {aw : AWorld V}

/-- C66: any number of passes of the loop of Example_D1_heat on any two 1D arrays: at least one and fewer virtual than interior
points of `u` on either side, as many interior points in `dudt`, the interior of component 0 of `u` assigned.  The passes run
through; the interior of component 0 of `u` then holds `m` steps of the explicit scheme with reflecting ends, whatever `+`, `-`
and `*` are; and only component 0 of `u` and of `dudt` has changed. -/
theorem C66 [Add V] [Sub V] [Mul V] [OfNat V 2] (R : Reach mem chk w aw) {u dudt : Nat} (hne : dudt ≠ u)
    {ku kd : Kind} {eu ed : Ext} {vu vd : Nat → List Int → Option V} (hu : aw.arr u = some (ku, .ready [eu] vu))
    (hd : aw.arr dudt = some (kd, .ready [ed] vd)) (lu : ku.locs = [.center]) (ld : kd.locs = [.center])
    (h1 : 1 ≤ eu.n) (h2 : 1 ≤ eu.p) (h3 : eu.n < eu.i) (h4 : eu.p < eu.i) (h5 : ed.i = eu.i)
    (h6 : 2 * (eu.n + eu.i + eu.p) < 2147483648) (a dt : V) (m : Nat) (U : Int → V)
    (init : ∀ i : Int, 0 ≤ i → i < eu.i → vu 0 [i] = some (U i)) :
    ∃ w', runLoops chk (Heat1.passes u dudt a dt m) w = .ok () w' ∧ (∃ σ, Reach mem chk w' (withVals aw σ)) ∧
      (∀ i : Int, 0 ≤ i → i < eu.i → ∀ c, exec c (.read u 0 [i] [.C]) w' = .ok (.val (some (heatSteps eu.i a dt m U i))) w') ∧
      (∀ y k es val, aw.arr y = some (k, .ready es val) → ∀ n ys fs, Valid k es n ys fs → ¬ (n = 0 ∧ (y = u ∨ y = dudt)) → ∀ c, ∃ b,
        exec c (.read y n ys fs) w = .ok (.val b) w ∧ exec c (.read y n ys fs) w' = .ok (.val b) w') := by
  have R0 : Reach mem chk w (withVals aw (valsOf aw)) := by rw [withVals_valsOf]; exact R
  have init' : ∀ i : Int, 0 ≤ i → i < eu.i → valsOf aw (u, 0, [i]) = some (U i) := fun i p q => by
    simp only [valsOf, hu]; exact init i p q
  obtain ⟨w', σ, r, R', a1, b1⟩ := heat1_passes R0 hne hu hd lu ld h1 h2 h3 h4 h5 h6 a dt m U init'
  have nu : 0 < ku.N := Nat.pos_of_ne_zero (R.comps hu)
  obtain ⟨L, Q⟩ := R.rel
  obtain ⟨L', Q'⟩ := R'.rel
  refine ⟨w', r, ⟨σ, R'⟩, ?_, ?_⟩
  · intro i p q c
    have := Q'.read c (withVals_arr hu) (valid1 lu nu (i := i) (by omega) (by omega))
    rw [this]
    simp only [point, FL.offset, Int.add_zero, a1 i p q]
  · intro y k es val hy n ys fs v hn c
    refine ⟨_, Q.read c hy v, ?_⟩
    rw [Q'.read c (withVals_arr hy) v, b1]
    · simp only [valsOf, hy]
    · intro i e; simp only [Prod.mk.injEq] at e; exact hn ⟨e.2.1, .inl e.1⟩
    · intro i e; simp only [Prod.mk.injEq] at e; exact hn ⟨e.2.1, .inr e.1⟩

/-- two arrays for C66: the interior of `u` (0) holds 5, 6, 7 -/
def heatOps : List (Op Int) :=
  [.makeSized 0 ⟨2, [.center]⟩ (fun _ => .null) [⟨1, 3, 1⟩], .makeSized 1 ⟨1, [.center]⟩ (fun _ => .null) [⟨0, 3, 0⟩],
   .write 0 0 [0] [.C] 5, .write 0 0 [1] [.C] 6, .write 0 0 [2] [.C] 7]

/-- the hypotheses of C66 hold of them -/
example : ∃ (w : World Int) (aw : AWorld Int) (vu vd : _), Reach (fun _ _ => true) true w aw ∧
    aw.arr 0 = some (⟨2, [.center]⟩, .ready [⟨1, 3, 1⟩] vu) ∧ aw.arr 1 = some (⟨1, [.center]⟩, .ready [⟨0, 3, 0⟩] vd) ∧
    ∀ i : Int, 0 ≤ i → i < 3 → vu 0 [i] = some (i + 5) := by
  obtain ⟨evs, aw, vu, vd, h, h0, h1, hv⟩ : ∃ evs aw vu vd, arun (fun _ _ => true) true heatOps AWorld.init = some (evs, aw) ∧
      aw.arr 0 = some (⟨2, [.center]⟩, .ready [⟨1, 3, 1⟩] vu) ∧ aw.arr 1 = some (⟨1, [.center]⟩, .ready [⟨0, 3, 0⟩] vd) ∧
      ∀ i ∈ [(0 : Int), 1, 2], vu 0 [i] = some (i + 5) := ⟨_, _, _, _, rfl, rfl, rfl, by decide⟩
  obtain ⟨w, R⟩ := reach_of_arun h
  exact ⟨w, aw, vu, vd, R, h0, h1, fun i p q => hv i (by simp; omega)⟩

/-- C67: the whole of Example_D1_heat, for any number `N ≥ 2` of points with `2 * (N + 2)` an `int`, any numbers of passes in the two
calls of the lambda and any arithmetic.  If the three arrays get their memory, the program reaches its last loop and
ends it; then `x(0, i)` holds the coordinates, `u(0, i)` holds as many steps of the scheme as the *second* call made passes,
starting from the cosine of the coordinates, and `u(1, i)` the product of the constant and the cosine. -/
theorem C67 [Add V] [Sub V] [Mul V] [OfNat V 2] (chk : Bool) {N : Nat} (hN : 2 ≤ N) (hN' : 2 * (N + 2) < 2147483648)
    (m0 : mem 0 N = true) (m1 : mem 1 (2 * (N + 2)) = true) (m2 : mem 2 N = true) (junk : Nat → Nat → Ptr) (x0 h : V)
    (toV : Int → V) (cos : V → V) (ex a dt : V) (m m' : Nat) :
    ∃ w' aw' vu, Heat1.main chk N junk x0 h toV cos ex a dt m m' (World.init mem) = .ok () w' ∧ Reach mem chk w' aw' ∧
      aw'.arr 1 = some (⟨2, [.center]⟩, .ready [⟨1, N, 1⟩] vu) ∧
      (∀ i : Int, 0 ≤ i → i < N → ∀ c,
        exec c (.read 0 0 [i] [.C]) w' = .ok (.val (some (x0 + toV i * h))) w' ∧
        exec c (.read 1 0 [i] [.C]) w' = .ok (.val (some (heatSteps N a dt m' (fun i => cos (x0 + toV i * h)) i))) w' ∧
        exec c (.read 1 1 [i] [.C]) w' = .ok (.val (some (ex * cos (x0 + toV i * h)))) w') ∧
      (∀ c, exec c (.read 1 1 [-1] [.C]) w' = .ok (.val none) w') ∧
      ∀ c, exec c (.read 1 1 [(N : Int)] [.C]) w' = .ok (.val none) w' := by
  have ko : ∀ n < 4294967296, KindOk ⟨n, [.center]⟩ := fun n h => ⟨.inl rfl, h⟩
  have so : ∀ n ≤ 2, ∀ v ≤ 1, SizesOk ⟨n, [.center]⟩ [⟨v, N, v⟩] := by
    intro n hn v hv
    refine ⟨rfl, ?_, ?_⟩
    · intro d hd
      have : d = ⟨⟨v, N, v⟩, .center⟩ := by simpa [mkShape] using hd
      subst this
      simp only; omega
    · simp only [mkShape, points, Dim.width, Loc.toNat]
      have : n * ((v + N + v + 0) * 1) ≤ 2 * ((v + N + v + 0) * 1) := Nat.mul_le_mul_right _ hn
      omega
  have pt : ∀ v : Nat, points (mkShape [⟨v, N, v⟩] [.center]) = v + N + v := by
    intro v; simp [mkShape, points, Dim.width, Loc.toNat]
  have rq : ∀ n v : Nat, requests n (mkShape [⟨v, N, v⟩] [.center]) = [n * (v + N + v)] := by
    intro n v
    simp only [requests, pt]
    rfl
  have se : ∀ v : Nat, sizeErrs 0 [⟨v, N, v⟩] = none := by
    intro v
    simp only [sizeErrs]
    rw [if_neg (by omega)]
  have R : Reach mem chk (World.init mem : World V) AWorld.init := Reach.init
  obtain ⟨w1, e1, R1⟩ := R.make (x := 0) (k := ⟨1, [.center]⟩) (junk 0) (es := [⟨0, N, 0⟩]) rfl (ko _ (by omega)) (so _ (by omega) _ (by omega))
    (by simp) (se 0) (by rw [pt]; omega) (by rw [rq]; simp [granted, AWorld.init, m0])
  obtain ⟨w2, e2, R2⟩ := R1.make (x := 1) (k := ⟨2, [.center]⟩) (junk 1) (es := [⟨1, N, 1⟩]) rfl (ko _ (by omega)) (so _ (by omega) _ (by omega))
    (by simp) (se 1) (by rw [pt]; omega) (by
      simp [granted, AWorld.init, rq, show 2 * (1 + N + 1) = 2 * (N + 2) by omega, m1])
  obtain ⟨w3, e3, R3⟩ := R2.make (x := 2) (k := ⟨1, [.center]⟩) (junk 2) (es := [⟨0, N, 0⟩]) rfl (ko _ (by omega)) (so _ (by omega) _ (by omega))
    (by simp) (se 0) (by rw [pt]; omega) (by
      simp [granted, AWorld.init, AWorld.set, rq, m2])
  revert R3
  generalize haw : AWorld.mk _ _ _ = aw3
  intro R3
  have hx : aw3.arr 0 = some (⟨1, [.center]⟩, .ready [⟨0, N, 0⟩] fun _ _ => none) := by rw [← haw]; rfl
  have hu : aw3.arr 1 = some (⟨2, [.center]⟩, .ready [⟨1, N, 1⟩] fun _ _ => none) := by rw [← haw]; rfl
  have hd : aw3.arr 2 = some (⟨1, [.center]⟩, .ready [⟨0, N, 0⟩] fun _ _ => none) := by rw [← haw]; rfl
  have R0 : Reach mem chk w3 (withVals aw3 (valsOf aw3)) := by rw [withVals_valsOf]; exact R3
  obtain ⟨w', σ, r, R', a0, a1, a2, b⟩ := heat1_loops R0 (x := 0) (u := 1) (dudt := 2) (by decide) (by decide) (by decide) hx hu hd rfl rfl rfl
    (by decide) (Nat.le_refl 1) (Nat.le_refl 1) (show 1 < N by omega) (show 1 < N by omega) rfl rfl (show 2 * (1 + N + 1) < _ by omega)
    x0 h toV cos ex a dt m m'
  obtain ⟨L, Q⟩ := R'.rel
  refine ⟨w', _, _, ?_, R', withVals_arr hu, ?_, ?_, ?_⟩
  · unfold Heat1.main
    have : runOps chk (Heat1.decls 0 1 2 N junk) (World.init mem : World V) = .ok () w3 := by
      unfold Heat1.decls
      rw [runOps_cons e1, runOps_cons e2, runOps_cons e3]
      rfl
    rw [M.bind_ok this, r]
  · intro i p q c
    refine ⟨?_, ?_, ?_⟩
    · rw [Q.read c (withVals_arr hx) (valid1 rfl Nat.one_pos (i := i) (by simp only; omega) (by simp only; omega))]
      simp only [point, FL.offset, Int.add_zero, a0 i p q]
    · rw [Q.read c (withVals_arr hu) (valid1 rfl Nat.two_pos (i := i) (by simp only; omega) (by simp only; omega))]
      simp only [point, FL.offset, Int.add_zero, a1 i p q]
    · rw [Q.read c (withVals_arr hu) (valid1 rfl Nat.one_lt_two (i := i) (by simp only; omega) (by simp only; omega))]
      simp only [point, FL.offset, Int.add_zero, a2 i p q]
  · intro c
    rw [Q.read c (withVals_arr hu) (valid1 rfl Nat.one_lt_two (i := -1) (by simp only; omega) (by simp only; omega))]
    simp only [point, FL.offset, Int.add_zero]
    rw [b]
    · simp only [valsOf, hu]
    · intro i _ _ e; simp at e
    · intro i e; simp at e
    · intro i p q e; simp at e; omega
    · intro i e; simp at e
  · intro c
    rw [Q.read c (withVals_arr hu) (valid1 rfl Nat.one_lt_two (i := (N : Int)) (by simp only; omega) (by simp only; omega))]
    simp only [point, FL.offset, Int.add_zero]
    rw [b]
    · simp only [valsOf, hu]
    · intro i _ _ e; simp at e
    · intro i e; simp at e
    · intro i p q e; simp at e; simp only at q; omega
    · intro i e; simp at e

/-- C67 (what is wrong): the program then prints all of `u` (`u.disp_data()`, Example_D1_heat.cpp:80), but `u(1, -1)` and
`u(1, N)` were never assigned: the text contains numbers that are indeterminate. -/
theorem C67_prints_unassigned [Add V] [Sub V] [Mul V] [OfNat V 2] (chk : Bool) {N : Nat} (hN : 2 ≤ N) (hN' : 2 * (N + 2) < 2147483648)
    (m0 : mem 0 N = true) (m1 : mem 1 (2 * (N + 2)) = true) (m2 : mem 2 N = true) (junk : Nat → Nat → Ptr) (x0 h : V)
    (toV : Int → V) (cos : V → V) (ex a dt : V) (m m' : Nat) (fmt : Option V → String) (out : List String) :
    ∃ w' o l₁ l₂, Heat1.main chk N junk x0 h toV cos ex a dt m m' (World.init mem) = .ok () w' ∧
      w'.objs 1 = some (⟨2, [.center]⟩, o) ∧
      o.disp_data chk ⟨2, [.center]⟩ fmt ⟨w'.h, out⟩ = .ok () ⟨w'.h, out ++ l₁ ++ [fmt none] ++ l₂⟩ := by
  obtain ⟨w', aw', vu, e1, R, hu, -, h2, -⟩ := C67 chk hN hN' m0 m1 m2 junk x0 h toV cos ex a dt m m'
  obtain ⟨o, ho, hd, hr⟩ := C33 R hu chk fmt
  have hv := valid1 (k := ⟨2, [.center]⟩) (e := ⟨1, N, 1⟩) rfl Nat.one_lt_two (i := -1) (by simp only; omega) (by simp only; omega)
  have h3 := hr chk 1 [-1] [.C] hv
  rw [h2 chk] at h3
  have h4 : vu 1 (point [-1] [FL.C]) = none := by
    injection h3 with h5
    injection h5 with h6
    exact h6.symm
  have hm : (1, [(-1 : Int)]) ∈ elements (page 2 (mkShape [⟨1, N, 1⟩] [.center])) :=
    ((C33_once 2 (mkShape [⟨1, N, 1⟩] [.center]) (.inl rfl)).2 1 [-1]).2 ⟨by decide, hv.pt⟩
  have hm2 : Item.el 1 [-1] ∈ page 2 (mkShape [⟨1, N, 1⟩] [.center]) := by
    obtain ⟨it, g1, g2⟩ := List.mem_filterMap.1 hm
    cases it with
    | el n ys => simp at g2; obtain ⟨rfl, rfl⟩ := g2; exact g1
    | txt s => simp at g2
  obtain ⟨s, t, hst⟩ := List.append_of_mem hm2
  refine ⟨w', o, s.map (Item.text vu fmt), t.map (Item.text vu fmt), e1, ho, ?_⟩
  rw [hd out, hst]
  simp only [List.map_append, List.map_cons, List.append_assoc, List.cons_append, List.nil_append]
  have : Item.text vu fmt (.el 1 [-1]) = fmt none := by
    show fmt (vu 1 [-1]) = _
    rw [show ([-1] : List Int) = point [-1] [FL.C] from rfl, h4]
  rw [this]

/-- the program with `int` instead of `double`, five points, no and three passes: what `u(0, ·)`, `u(1, ·)` hold -/
def heatRun (N m m' : Nat) : Option (List (Option Int)) :=
  match Heat1.main true N (fun _ _ => .null) 0 1 id (fun x => x * x) 2 1 1 m m' (World.init fun _ _ => true : World Int) with
  | .ok _ w => some <| [0, 1].flatMap fun n => [-1, 0, 1, 2, 3, 4, 5].map fun i =>
      match exec true (.read 1 n [i] [.C]) w with
      | .ok (.val b) _ => b
      | _ => some 99
  | _ => none

example : heatRun 5 2 0 = some [some 3, some 0, some 1, some 4, some 9, some 16, some 11, none, some 0, some 2, some 8, some 18, some 32, none] ∧
    heatRun 5 2 1 = some [some 1, some 2, some 3, some 6, some 11, some 2, some 9, none, some 0, some 2, some 8, some 18, some 32, none] ∧
    (List.range 5).map (fun i => heatSteps 5 (1 : Int) 1 1 (fun i => (0 + id i * 1) * (0 + id i * 1)) i) = [2, 3, 6, 11, 2] := by
  refine ⟨by decide +kernel, by decide +kernel, by decide +kernel⟩

/-! ## C68: the scheme in exact arithmetic -/

/-- twice the integral by the trapezoidal rule -/
def trapezoid [CommRing V] (N : Nat) (U : Int → V) : V := ∑ i ∈ Finset.range (N - 1), (U (i : Int) + U ((i : Int) + 1))

/-- C68 (conservation): in a commutative ring the scheme keeps the integral by the trapezoidal rule -/
theorem C68_conserved [CommRing V] {N : Nat} (hN : 2 ≤ N) (a dt : V) (m : Nat) (U : Int → V) :
    trapezoid N (heatSteps N a dt m U) = trapezoid N U := by
  have one : ∀ U : Int → V, trapezoid N (heatStep N a dt U) = trapezoid N U := by
    intro U
    let F : Nat → V := fun i => U (reflect N i) - U (reflect N ((i : Int) - 1))
    have step : ∀ i : Nat, i < N → heatStep N a dt U i = U i + dt * a * (F (i + 1) - F i) := by
      intro i hi
      have : reflect N (i : Int) = i := by unfold reflect; rw [if_neg (by omega), if_neg (by omega)]
      simp only [heatStep, F, this]
      rw [show ((i + 1 : Nat) : Int) - 1 = i by push_cast; ring, this, show ((i + 1 : Nat) : Int) = (i : Int) + 1 by push_cast; ring]
      ring
    have tele : ∀ n : Nat, n + 1 ≤ N → ∑ i ∈ Finset.range n, (heatStep N a dt U (i : Int) + heatStep N a dt U ((i : Int) + 1)) =
        ∑ i ∈ Finset.range n, (U (i : Int) + U ((i : Int) + 1)) + dt * a * (F (n + 1) + F n - (F 1 + F 0)) := by
      intro n
      induction n with
      | zero => intro _; simp
      | succ n ih =>
        intro hn
        rw [Finset.sum_range_succ, Finset.sum_range_succ, ih (by omega), step n (by omega)]
        have := step (n + 1) (by omega)
        rw [show ((n + 1 : Nat) : Int) = (n : Int) + 1 by push_cast; ring] at this
        rw [this]
        ring
    unfold trapezoid
    rw [tele (N - 1) (by omega)]
    have f0 : F 0 = U 0 - U 1 := by
      simp only [F, reflect]
      rw [if_neg (by omega), if_neg (by omega), if_pos (by omega)]
      simp
    have f1 : F 1 = U 1 - U 0 := by
      simp only [F, reflect]
      rw [if_neg (by omega), if_neg (by omega), if_neg (by omega), if_neg (by omega)]
      simp
    have fN : F (N - 1 + 1) = U ((N : Int) - 2) - U ((N : Int) - 1) := by
      simp only [F, reflect]
      rw [if_neg (by omega), if_pos (by omega), if_neg (by omega), if_neg (by omega)]
      congr 2 <;> omega
    have fM : F (N - 1) = U ((N : Int) - 1) - U ((N : Int) - 2) := by
      simp only [F, reflect]
      rw [if_neg (by omega), if_neg (by omega), if_neg (by omega), if_neg (by omega)]
      congr 2 <;> omega
    rw [f0, f1, fN, fM]
    ring
  induction m generalizing U with
  | zero => rfl
  | succ m ih => simp only [heatSteps]; rw [ih, one]

/-- C68 (bounds): in an ordered field, if `0 ≤ dt * a ≤ 1/2`, the scheme keeps every bound on the numbers -/
theorem C68_bounded [Field V] [LinearOrder V] [IsStrictOrderedRing V] {N : Nat} (hN : 2 ≤ N) {a dt : V} (h0 : 0 ≤ dt * a) (h1 : 2 * (dt * a) ≤ 1)
    (m : Nat) {U : Int → V} {lo hi : V} (hU : ∀ i : Int, 0 ≤ i → i < N → lo ≤ U i ∧ U i ≤ hi) :
    ∀ i : Int, 0 ≤ i → i < N → lo ≤ heatSteps N a dt m U i ∧ heatSteps N a dt m U i ≤ hi := by
  induction m generalizing U with
  | zero => exact hU
  | succ m ih =>
    simp only [heatSteps]
    apply ih
    intro i p q
    have in1 : ∀ j : Int, -1 ≤ j → j ≤ N → 0 ≤ reflect N j ∧ reflect N j < N := by
      intro j p q
      unfold reflect
      split
      · omega
      · split <;> omega
    obtain ⟨p1, q1⟩ := in1 (i - 1) (by omega) (by omega)
    obtain ⟨p2, q2⟩ := in1 (i + 1) (by omega) (by omega)
    obtain ⟨a1, a2⟩ := hU _ p q
    obtain ⟨b1, b2⟩ := hU _ p1 q1
    obtain ⟨c1, c2⟩ := hU _ p2 q2
    have e : heatStep N a dt U i = (1 - 2 * (dt * a)) * U i + dt * a * (U (reflect N (i - 1)) + U (reflect N (i + 1))) := by
      simp only [heatStep]; ring
    rw [e]
    have s0 : 0 ≤ 1 - 2 * (dt * a) := by linarith
    have := mul_le_mul_of_nonneg_left a1 s0
    have := mul_le_mul_of_nonneg_left a2 s0
    have := mul_le_mul_of_nonneg_left (add_le_add b1 c1) h0
    have := mul_le_mul_of_nonneg_left (add_le_add b2 c2) h0
    constructor <;> linarith

/-- C68 (the program): in exact arithmetic, with `dt = 0.1 / a_hh` as in the program and a cosine between -1 and 1, every number
`u(0, i)` the program ends with lies between -1 and 1, after any number of passes, and their integral by the trapezoidal rule is
that of the initial values. -/
theorem C68 [Field V] [LinearOrder V] [IsStrictOrderedRing V] (chk : Bool) {N : Nat} (hN : 2 ≤ N) (hN' : 2 * (N + 2) < 2147483648)
    (m0 : mem 0 N = true) (m1 : mem 1 (2 * (N + 2)) = true) (m2 : mem 2 N = true) (junk : Nat → Nat → Ptr) (x0 h : V)
    (toV : Int → V) (cos : V → V) (hc : ∀ x, -1 ≤ cos x ∧ cos x ≤ 1) (ex a : V) (ha : a ≠ 0) (m m' : Nat) :
    ∃ w' U, Heat1.main chk N junk x0 h toV cos ex a (1 / 10 / a) m m' (World.init mem) = .ok () w' ∧
      (∀ i : Int, 0 ≤ i → i < N → -1 ≤ U i ∧ U i ≤ 1 ∧ ∀ c, exec c (.read 1 0 [i] [.C]) w' = .ok (.val (some (U i))) w') ∧
      trapezoid N U = trapezoid N fun i => cos (x0 + toV i * h) := by
  obtain ⟨w', aw', vu, e1, R, hu, hr, -, -⟩ := C67 chk hN hN' m0 m1 m2 junk x0 h toV cos ex a (1 / 10 / a) m m'
  refine ⟨w', heatSteps N a (1 / 10 / a) m' fun i => cos (x0 + toV i * h), e1, ?_, C68_conserved hN _ _ _ _⟩
  intro i p q
  have e : (1 / 10 / a : V) * a = 1 / 10 := by field_simp
  obtain ⟨b1, b2⟩ := C68_bounded hN (a := a) (dt := 1 / 10 / a) (by rw [e]; norm_num) (by rw [e]; norm_num) m'
    (U := fun i => cos (x0 + toV i * h)) (lo := -1) (hi := 1) (fun i _ _ => hc _) i p q
  exact ⟨b1, b2, fun c => (hr i p q c).2.1⟩

/-- the hypotheses of C67 and C68 for the number of points in the program -/
example (m m' : Nat) : ∃ w' U, Heat1.main true 5001 (fun _ _ => .null) (-3) (1 / 10) (fun i => (i : ℚ)) (fun x => if x < 0 then -1 else 1) 5 7
      (1 / 10 / 7) m m' (World.init fun _ _ => true) = .ok () w' ∧
      (∀ i : Int, 0 ≤ i → i < (5001 : Nat) → -1 ≤ U i ∧ U i ≤ 1 ∧ ∀ c, exec c (.read 1 0 [i] [.C]) w' = .ok (.val (some (U i))) w') ∧
      trapezoid 5001 U = trapezoid 5001 fun i => if (-3 + (i : ℚ) * (1 / 10)) < 0 then -1 else 1 :=
  C68 true (by decide) (by decide) rfl rfl rfl _ _ _ _ _ (fun x => by split <;> norm_num) _ _ (by norm_num) m m'

/-- larger steps do not keep the bounds: with `dt * a = 1` the numbers 0, 1, 0 become 2, -1, 2 -/
example : (List.range 3).map (fun (i : Nat) => heatStep 3 (1 : Int) 1 (fun i => if i = 1 then 1 else 0) i) = [2, -1, 2] ∧
    trapezoid 3 (heatStep 3 (1 : Int) 1 (fun i => if i = 1 then 1 else 0)) = 2 := by decide +kernel

end Verif.Props
