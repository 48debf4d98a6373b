import Verif.Props.Export
import Verif.Proof.Heat2b
import Mathlib.Algebra.Order.Field.Basic
import Mathlib.Tactic.Ring
import Mathlib.Tactic.Linarith
import Mathlib.Tactic.FieldSimp
import Mathlib.Tactic.NormNum
import Mathlib.Algebra.Order.Ring.Rat
/-!
# C71 – C73: Example_D2_heat.cpp
-/
set_option linter.unusedSimpArgs false
namespace Verif.Props
open Spec Tec
variable {V : Type} {mem : Nat → Nat → Bool} {chk : Bool} {w : World V} {aw : AWorld V}

/-- C71: any number of passes of the loop of Example_D2_heat on any two 2D arrays: at least one and fewer virtual than interior
points of `u` on every side, as many interior points in `dudt`, the interior of component 0 of `u` assigned.  The passes run
through; the interior of component 0 of `u` then holds `m` steps of the explicit scheme, odd at the ends of the first direction
and reflecting at those of the second, whatever the arithmetic is; and only component 0 of `u` and of `dudt` has changed. -/
theorem C71 [Add V] [Sub V] [Mul V] [Neg V] [OfNat V 2] (R : Reach mem chk w aw) {u dudt : Nat} (hne : dudt ≠ u)
    {ku kd : Kind} {e f e' f' : Ext} {vu vd : Nat → List Int → Option V} (hu : aw.arr u = some (ku, .ready [e, f] vu))
    (hd : aw.arr dudt = some (kd, .ready [e', f'] vd)) (lu : ku.locs = [.center, .center]) (ld : kd.locs = [.center, .center])
    (n1 : 1 ≤ e.n) (p1 : 1 ≤ e.p) (n2 : 1 ≤ f.n) (p2 : 1 ≤ f.p) (a1 : e.n < e.i) (b1 : e.p < e.i) (a2 : f.n < f.i) (b2 : f.p < f.i)
    (s1 : e'.i = e.i) (s2 : f'.i = f.i) (f1 : 2 * (e.n + e.i + e.p) < 2147483648) (f2 : 2 * (f.n + f.i + f.p) < 2147483648)
    (ax ay dt : V) (m : Nat) (U : Int → Int → V)
    (init : ∀ i j : Int, 0 ≤ i → i < e.i → 0 ≤ j → j < f.i → vu 0 [i, j] = some (U i j)) :
    ∃ w', runLoops chk (Heat2.passes u dudt ax ay dt m) w = .ok () w' ∧ (∃ σ, Reach mem chk w' (withVals aw σ)) ∧
      (∀ i j : Int, 0 ≤ i → i < e.i → 0 ≤ j → j < f.i → ∀ c,
        exec c (.read u 0 [i, j] [.C, .C]) w' = .ok (.val (some (heatSteps2 e.i f.i ax ay dt m U i j))) w') ∧
      (∀ y k es val, aw.arr y = some (k, .ready es val) → ∀ n ys fs, Valid k es n ys fs → ¬ (n = 0 ∧ (y = u ∨ y = dudt)) → ∀ c, ∃ b,
        exec c (.read y n ys fs) w = .ok (.val b) w ∧ exec c (.read y n ys fs) w' = .ok (.val b) w') := by
  have R0 : Reach mem chk w (withVals aw (valsOf aw)) := by rw [withVals_valsOf]; exact R
  have nu : 0 < ku.N := Nat.pos_of_ne_zero (R.comps hu)
  have H : Heat2Ready aw u dudt ku kd e f e' f' :=
    ⟨hne, ⟨_, hu⟩, ⟨_, hd⟩, lu, ld, nu, Nat.pos_of_ne_zero (R.comps hd), n1, p1, n2, p2, a1, b1, a2, b2, s1, s2, f1, f2⟩
  obtain ⟨w', σ, r, R', g1, t1⟩ := heat2_passes R0 H ax ay dt m U (fun i j p q p' q' => by
    simp only [valsOf, hu]; exact init i j p q p' q')
  obtain ⟨L, Q⟩ := R.rel
  obtain ⟨L', Q'⟩ := R'.rel
  refine ⟨w', r, ⟨σ, R'⟩, ?_, ?_⟩
  · intro i j p q p' q' c
    have := Q'.read c (withVals_arr hu) (valid2 lu nu (i := i) (j := j) (by omega) (by omega) (by omega) (by omega))
    rw [this]
    simp only [point, FL.offset, Int.add_zero, g1 i j p q p' q']
  · intro y k es val hy n ys fs v hn c
    refine ⟨_, Q.read c hy v, ?_⟩
    rw [Q'.read c (withVals_arr hy) v, t1]
    · simp only [valsOf, hy]
    · intro i j e; simp only [Prod.mk.injEq] at e; exact hn ⟨e.2.1, .inl e.1⟩
    · intro i j e; simp only [Prod.mk.injEq] at e; exact hn ⟨e.2.1, .inr e.1⟩

/-- two arrays for C71: the interior of `u` (0) holds 1, 2, 3, 4 -/
def heat2Ops : List (Op Int) :=
  [.makeSized 0 ⟨2, [.center, .center]⟩ (fun _ => .null) [⟨1, 2, 1⟩, ⟨1, 2, 1⟩],
   .makeSized 1 ⟨1, [.center, .center]⟩ (fun _ => .null) [⟨0, 2, 0⟩, ⟨0, 2, 0⟩],
   .write 0 0 [0, 0] [.C, .C] 1, .write 0 0 [0, 1] [.C, .C] 2, .write 0 0 [1, 0] [.C, .C] 3, .write 0 0 [1, 1] [.C, .C] 4]

/-- the hypotheses of C71 hold of them -/
example : ∃ (w : World Int) (aw : AWorld Int) (vu vd : _), Reach (fun _ _ => true) true w aw ∧
    aw.arr 0 = some (⟨2, [.center, .center]⟩, .ready [⟨1, 2, 1⟩, ⟨1, 2, 1⟩] vu) ∧
    aw.arr 1 = some (⟨1, [.center, .center]⟩, .ready [⟨0, 2, 0⟩, ⟨0, 2, 0⟩] vd) ∧
    ∀ i j : Int, 0 ≤ i → i < 2 → 0 ≤ j → j < 2 → vu 0 [i, j] = some (2 * i + j + 1) := by
  obtain ⟨evs, aw, vu, vd, h, h0, h1, hv⟩ : ∃ evs aw vu vd, arun (fun _ _ => true) true heat2Ops AWorld.init = some (evs, aw) ∧
      aw.arr 0 = some (⟨2, [.center, .center]⟩, .ready [⟨1, 2, 1⟩, ⟨1, 2, 1⟩] vu) ∧
      aw.arr 1 = some (⟨1, [.center, .center]⟩, .ready [⟨0, 2, 0⟩, ⟨0, 2, 0⟩] vd) ∧
      ∀ i ∈ [(0 : Int), 1], ∀ j ∈ [(0 : Int), 1], vu 0 [i, j] = some (2 * i + j + 1) := ⟨_, _, _, _, rfl, rfl, rfl, by decide⟩
  obtain ⟨w, R⟩ := reach_of_arun h
  exact ⟨w, aw, vu, vd, R, h0, h1, fun i j p q p' q' => hv i (by simp; omega) j (by simp; omega)⟩

/-- `set_echo_mode("full", "full")` -/
theorem heat2_echo (strict : Bool) (z : Zone) : TecFile.set_echo_mode strict (lit "full") (lit "full") (Heat2.tecfile z) =
    .ok () { Heat2.tecfile { z with Echo_Mode := List.replicate 9 true } with Echo_Mode := List.replicate 7 true } := by
  cases strict <;> rfl

/-- the numbers of `G` on `Nx × Ny` points, the second index fastest -/
def grid (Nx Ny : Nat) (enc : V → Str) (G : Int → Int → V) : List Nat :=
  (List.range Nx).flatMap fun (i : Nat) => (List.range Ny).map fun (j : Nat) => little (enc (G i j))

theorem blockPts2 {Nx Ny : Nat} {p : List Int} (h : p ∈ blockPts [Nx, Ny]) : ∃ i j : Int, p = [i, j] ∧ 0 ≤ i ∧ i < Nx ∧ 0 ≤ j ∧ j < Ny := by
  simp only [blockPts, List.mem_flatMap, List.mem_map, List.mem_range, List.mem_singleton] at h
  obtain ⟨i, hi, q, ⟨j, hj, r, rfl, rfl⟩, rfl⟩ := h
  exact ⟨i, j, rfl, by omega, by omega, by omega, by omega⟩

theorem grid_eq {Nx Ny : Nat} {enc : V → Str} {G : Int → Int → V} {F : List Int → V} (h : ∀ i j : Int, F [i, j] = G i j) :
    ((blockPts [Nx, Ny]).map fun p => little (enc (F p))) = grid Nx Ny enc G := by
  simp only [blockPts, grid, List.map_flatMap, List.flatMap_map, List.map_map, List.map_cons, List.map_nil, Function.comp_def]
  congr 1
  funext i
  simp only [List.flatMap_singleton', ← List.map_eq_flatMap, h]

/-- the header of the file: the second index runs along the first direction of the zone -/
def heat2Head (Nx Ny : Nat) : Head where
  fileType := 0
  title := lit "untitled"
  vars := [lit "x", lit "y", lit "u1", lit "u2"]
  zones := [⟨lit "untitled_zone", -1, 0, (Ny, Nx, 1), []⟩]
  aux := []

/-- C72: the whole of Example_D2_heat for any numbers of points `Nx, Ny ≥ 2` such that the elements can be counted by `unsigned`, any number of
passes and any arithmetic, if the three arrays get their memory.  The program reaches `write_plt`; that returns or throws for lack of memory.
When it returns, the file is a file of the format with four variables and one zone of `Ny × Nx × 1` points, and its numbers are: the
coordinates, `m` steps of the scheme from the initial values, and the exact solution at the coordinates. -/
theorem C72 [Add V] [Sub V] [Mul V] [Neg V] [OfNat V 2] (chk strict : Bool) {Nx Ny : Nat} (hNx : 2 ≤ Nx) (hNy : 2 ≤ Ny)
    (hN : 2 * ((Nx + 2) * (Ny + 2)) < 4294967296)
    (m0 : mem 0 (2 * ((Nx + 2) * (Ny + 2))) = true) (m1 : mem 1 (2 * (Nx + 2)) = true)
    (m2 : mem 2 (2 * ((Nx + 2) * (Ny + 2))) = true) (m3 : mem 3 (2 * (Nx + 2)) = true) (m4 : mem 4 (Nx * Ny) = true) (m5 : mem 5 Nx = true)
    (junk : Nat → Nat → Ptr) (zj : Int) (x0 hx y0 hy : V) (toV : Int → V) (g exac : V → V → V) (ax ay dt : V) (m : Nat) :
    ∃ w z f, Heat2.main chk Nx Ny junk x0 hx y0 hy toV g exac ax ay dt m (World.init mem, Zone.new (lit "untitled_zone") zj) = .ok () (w, z) ∧
      TecFile.set_echo_mode strict (lit "full") (lit "full") (Heat2.tecfile z) = .ok () f ∧ (∃ aw, Reach mem chk w aw) ∧
      ∀ (E : Env) (echo : Bool) (enc : V → Str) (s : FSt), s.f = f → ByteView 8 enc w.h s.h → E.fmt.Short → (E.fmt.f5 E.using_).length ≤ 60 →
        E.tBegin.length ≤ 150 → E.canOpen (lit "./untitled_file.plt") = true →
        (∃ s' c b, TecFile.write_plt E echo s = .ok () s' ∧ s'.fs (lit "./untitled_file.plt") = some c ∧
          readWhole c = some (heat2Head Nx Ny, [b]) ∧
          b.values = [grid Nx Ny enc fun i _ => x0 + toV i * hx, grid Nx Ny enc fun _ j => y0 + toV j * hy,
            grid Nx Ny enc (heatSteps2 Nx Ny ax ay dt m fun i j => g (x0 + toV i * hx) (y0 + toV j * hy)),
            grid Nx Ny enc fun i j => exac (x0 + toV i * hx) (y0 + toV j * hy)]) ∨
        ((∃ k n, s.h.mem k n = false) ∧ ∃ t, TecFile.write_plt E echo s = .err (.text (lit "maybe out of memory: std::bad_alloc")) t) := by
  have hprod : (Nx + 2) * 4 ≤ (Nx + 2) * (Ny + 2) := Nat.mul_le_mul_left _ (by omega)
  have hprod' : 4 * (Ny + 2) ≤ (Nx + 2) * (Ny + 2) := Nat.mul_le_mul_right _ (by omega)
  have hsub : Nx * Ny ≤ (Nx + 2) * (Ny + 2) := Nat.mul_le_mul (by omega) (by omega)
  have hpos : 0 < Nx * Ny := Nat.mul_pos (by omega) (by omega)
  have ko : ∀ n < 4294967296, KindOk ⟨n, [.center, .center]⟩ := fun n h => ⟨.inr (.inl rfl), h⟩
  have pt : ∀ v : Nat, points (mkShape [⟨v, Nx, v⟩, ⟨v, Ny, v⟩] [.center, .center]) = (v + Nx + v) * (v + Ny + v) := by
    intro v; simp [mkShape, points, Dim.width, Loc.toNat]
  have so : ∀ n ≤ 2, ∀ v ≤ 1, SizesOk ⟨n, [.center, .center]⟩ [⟨v, Nx, v⟩, ⟨v, Ny, v⟩] := by
    intro n hn v hv
    refine ⟨rfl, ?_, ?_⟩
    · intro d hd
      have : d = ⟨⟨v, Nx, v⟩, .center⟩ ∨ d = ⟨⟨v, Ny, v⟩, .center⟩ := by simpa [mkShape] using hd
      rcases this with rfl | rfl <;> simp only <;> omega
    · rw [pt]
      have h1 : n * ((v + Nx + v) * (v + Ny + v)) ≤ 2 * ((v + Nx + v) * (v + Ny + v)) := Nat.mul_le_mul_right _ hn
      have h2 : (v + Nx + v) * (v + Ny + v) ≤ (Nx + 2) * (Ny + 2) := Nat.mul_le_mul (by omega) (by omega)
      simp only
      omega
  have rq : ∀ n v : Nat, requests n (mkShape [⟨v, Nx, v⟩, ⟨v, Ny, v⟩] [.center, .center]) = [n * ((v + Nx + v) * (v + Ny + v)), n * (v + Nx + v)] := by
    intro n v
    simp only [requests, pt]
    rfl
  have se : ∀ v : Nat, sizeErrs 0 [⟨v, Nx, v⟩, ⟨v, Ny, v⟩] = none := by
    intro v
    simp only [sizeErrs]
    rw [if_neg (by omega), if_neg (by omega)]
  have R : Reach mem chk (World.init mem : World V) AWorld.init := Reach.init
  have eX : 1 + Nx + 1 = Nx + 2 := by omega
  have eY : 1 + Ny + 1 = Ny + 2 := by omega
  have p1 : (1 + Nx + 1) * (1 + Ny + 1) ≠ 0 := by rw [eX, eY]; omega
  obtain ⟨w1, e1, R1⟩ := R.make (x := 0) (k := ⟨2, [.center, .center]⟩) (junk 0) (es := [⟨1, Nx, 1⟩, ⟨1, Ny, 1⟩]) rfl (ko _ (by omega)) (so _ (by omega) _ (by omega))
    (by simp) (se 1) (by rw [pt]; exact p1) (by
      simp [granted, AWorld.init, rq, eX, eY, m0, m1])
  obtain ⟨w2, e2, R2⟩ := R1.make (x := 1) (k := ⟨2, [.center, .center]⟩) (junk 1) (es := [⟨1, Nx, 1⟩, ⟨1, Ny, 1⟩]) rfl (ko _ (by omega)) (so _ (by omega) _ (by omega))
    (by simp) (se 1) (by rw [pt]; exact p1) (by
      simp [granted, AWorld.init, AWorld.set, rq, eX, eY, m2, m3])
  obtain ⟨w3, e3, R3⟩ := R2.make (x := 2) (k := ⟨1, [.center, .center]⟩) (junk 2) (es := [⟨0, Nx, 0⟩, ⟨0, Ny, 0⟩]) rfl (ko _ (by omega)) (so _ (by omega) _ (by omega))
    (by simp) (se 0) (by rw [pt]; simp only [Nat.zero_add, Nat.add_zero]; omega) (by
      simp [granted, AWorld.init, AWorld.set, rq, m4, m5])
  revert R3
  generalize haw : AWorld.mk _ _ _ = aw3
  intro R3
  have ax' : aw3.arr 0 = some (⟨2, [.center, .center]⟩, .ready [⟨1, Nx, 1⟩, ⟨1, Ny, 1⟩] fun _ _ => none) := by rw [← haw]; rfl
  have au : aw3.arr 1 = some (⟨2, [.center, .center]⟩, .ready [⟨1, Nx, 1⟩, ⟨1, Ny, 1⟩] fun _ _ => none) := by rw [← haw]; rfl
  have ad : aw3.arr 2 = some (⟨1, [.center, .center]⟩, .ready [⟨0, Nx, 0⟩, ⟨0, Ny, 0⟩] fun _ _ => none) := by rw [← haw]; rfl
  have decls : runOps chk (Heat2.decls 0 1 2 Nx Ny junk) (World.init mem : World V) = .ok () w3 := by
    unfold Heat2.decls
    rw [runOps_cons e1, runOps_cons e2, runOps_cons e3]
    rfl
  have hT : ((⟨.double, false, false⟩ : Pointee).type, TecType.double) ∈ tecTypes := by decide
  obtain ⟨z, hz, zf, va, zr⟩ := C69 R3 ax' (by simp) hT rfl (Heat2.setUp 0 1)
    (by
      intro s hs
      simp only [Heat2.setUp, List.mem_cons, List.not_mem_nil, or_false] at hs
      rcases hs with rfl | rfl | rfl | rfl | rfl | rfl
      · exact ⟨rfl, rfl, by simp⟩
      · exact ⟨_, _, _, ax', by simp⟩
      · exact ⟨rfl, rfl, by simp⟩
      · exact ⟨_, _, _, ax', by simp⟩
      · exact ⟨_, _, _, au, by simp⟩
      · exact ⟨_, _, _, au, by simp⟩)
    (by
      intro d hd
      have : d = 0 ∨ d = 1 := by simp only [List.length_cons, List.length_nil] at hd; omega
      rcases this with rfl | rfl <;> simp [Heat2.setUp])
    (lit "untitled_zone") zj
  have R0 : Reach mem chk w3 (withVals aw3 (valsOf aw3)) := by rw [withVals_valsOf]; exact R3
  have H : Heat2Ready aw3 1 2 ⟨2, [.center, .center]⟩ ⟨1, [.center, .center]⟩ ⟨1, Nx, 1⟩ ⟨1, Ny, 1⟩ ⟨0, Nx, 0⟩ ⟨0, Ny, 0⟩ := by
    refine ⟨by decide, ⟨_, au⟩, ⟨_, ad⟩, rfl, rfl, by decide, by decide, ?_, ?_, ?_, ?_, ?_, ?_, ?_, ?_, rfl, rfl, ?_, ?_⟩ <;> simp only <;> omega
  obtain ⟨w', σ, r, R', vals⟩ := heat2_loops R0 H (x := 0) (by decide) (by decide) ax' rfl Nat.one_lt_two Nat.one_lt_two rfl rfl x0 hx y0 hy toV g exac ax ay dt m
  have objs := C70_loops _ r
  refine ⟨w', z, _, ?_, heat2_echo strict z, ⟨_, R'⟩, ?_⟩
  · unfold Heat2.main
    rw [M.bind_ok (onWorld_ok decls), M.bind_ok hz, onWorld_ok r]
  intro E echo enc s hs bytes short used time ho
  have len4 : z.Data.length = 4 := va.1
  have path : cstr s.f.path = lit "./untitled_file.plt" := by rw [hs]; rfl
  let F : Nat → List Int → V := fun n p => match n, p with
    | 0, [i, _] => x0 + toV i * hx
    | 1, [_, j] => y0 + toV j * hy
    | 2, [i, j] => heatSteps2 Nx Ny ax ay dt m (fun i j => g (x0 + toV i * hx) (y0 + toV j * hy)) i j
    | 3, [i, j] => exac (x0 + toV i * hx) (y0 + toV j * hy)
    | _, _ => x0

  have selLen : (selection (z.sel 0) (z.sel 1) (z.sel 2)).length = Nx * Ny := by
    have := congrArg List.length (selection_block zf)
    rw [List.length_map, List.length_map] at this
    rw [this]
    simp [mkShape, blockPts]
  have name : z.ZoneName = lit "untitled_zone" := by rw [zr]; rfl
  have strand : z.StrandId = -1 := by rw [zr]; rfl
  have aux : z.Auxiliary = [] := by rw [zr]; rfl
  have sol : z.SolutionTime = 0 := by rw [zr]; rfl
  have fill : Filled aw3 (withVals aw3 σ) [⟨1, Nx, 1⟩, ⟨1, Ny, 1⟩] [.center, .center] [(0, 0), (0, 1), (1, 0), (1, 1)] F := by
    intro j y n hj
    match j with
    | 0 =>
      cases hj
      refine ⟨_, _, _, ax', withVals_arr ax', rfl, Nat.two_pos, fun p hp => ?_⟩
      obtain ⟨i, j, rfl, a, b, c, d⟩ := blockPts2 hp
      exact (vals i j a b c d).1
    | 1 =>
      cases hj
      refine ⟨_, _, _, ax', withVals_arr ax', rfl, Nat.one_lt_two, fun p hp => ?_⟩
      obtain ⟨i, j, rfl, a, b, c, d⟩ := blockPts2 hp
      exact (vals i j a b c d).2.1
    | 2 =>
      cases hj
      refine ⟨_, _, _, au, withVals_arr au, rfl, Nat.two_pos, fun p hp => ?_⟩
      obtain ⟨i, j, rfl, a, b, c, d⟩ := blockPts2 hp
      exact (vals i j a b c d).2.2.1
    | 3 =>
      cases hj
      refine ⟨_, _, _, au, withVals_arr au, rfl, Nat.one_lt_two, fun p hp => ?_⟩
      obtain ⟨i, j, rfl, a, b, c, d⟩ := blockPts2 hp
      exact (vals i j a b c d).2.2.2
    | j + 4 => cases hj
  have one : OneZone s.f { z with Echo_Mode := List.replicate 9 true } := by
    rw [hs]
    exact ⟨rfl, by simp [Heat2.tecfile], len4⟩
  have brief : s.f.Brief E := by
    rw [hs]
    refine ⟨short, (by decide : 1 < 2147483648), used, time, (by decide : (lit "untitled_file").length ≤ 150), (by decide : (lit ".").length ≤ 150),
      (by decide : (lit "untitled").length ≤ 150), (by decide : InI32 0),
      (by decide : ∀ v ∈ [lit "x", lit "y", lit "u1", lit "u2"], v.length ≤ 150), (by intro e he; cases he), ?_⟩
    intro y hy
    obtain rfl : y = _ := List.mem_singleton.1 hy
    refine ⟨?_, ?_, ?_⟩
    · show z.ZoneName.length ≤ 60; rw [name]; decide
    · show InI32 z.StrandId; rw [strand]; decide
    · show AuxShort z.Auxiliary; rw [aux]; intro e he; cases he
  have texts : FileTexts s.f := by
    rw [hs]
    refine ⟨(by decide : InI32 0), (by decide : (0 : UInt8) ∉ lit "untitled"), (by decide : 4 < 4294967296),
      (by decide : ∀ v ∈ [lit "x", lit "y", lit "u1", lit "u2"], (0 : UInt8) ∉ v), ?_, (by intro e he; cases he)⟩
    intro y hy
    obtain rfl : y = _ := List.mem_singleton.1 hy
    refine ⟨?_, ?_, ?_⟩
    · show (0 : UInt8) ∉ z.ZoneName; rw [name]; decide
    · show InI32 z.StrandId; rw [strand]; decide
    · show ∀ e ∈ z.Auxiliary, _; rw [aux]; intro e he; cases he
  have sizes : ∀ d ∈ z.Data, d.size = 8 := by
    intro d hd
    obtain ⟨j, hj⟩ := List.getElem?_of_mem hd
    have hj' : j < (varsOf (Heat2.setUp 0 1)).length := by rw [← va.1]; exact (List.getElem?_eq_some_iff.1 hj).1
    obtain ⟨p, -, h⟩ := va.2 j _ _ (List.getElem?_eq_getElem hj')
    rw [hj] at h; cases h; rfl
  have length : s.f.lengthOf Zone.selectedPoints < 9223372036854775808 := by
    rw [hs]
    have e : (z.Data.map fun d => (selection (z.sel 0) (z.sel 1) (z.sel 2)).length * d.size) = List.replicate 4 (Nx * Ny * 8) := by
      rw [List.eq_replicate_iff]
      refine ⟨by rw [List.length_map, len4], ?_⟩
      intro b hb
      obtain ⟨d, hd, rfl⟩ := List.mem_map.1 hb
      rw [selLen, sizes d hd]
    have d : Zone.dataLen z (selection (z.sel 0) (z.sel 1) (z.sel 2)).length = 96 + 32 * (Nx * Ny) := by
      unfold Zone.dataLen
      rw [e, len4]
      simp only [List.replicate, List.sum_cons, List.sum_nil]
      omega
    have hh : Zone.headLen z = 112 := by
      unfold Zone.headLen
      rw [name, aux]; rfl
    show 24 + 36 + 40 + (Zone.headLen z + 0) + 0 + (Zone.dataLen z (selection (z.sel 0) (z.sel 1) (z.sel 2)).length + 0) < _
    rw [d, hh]
    omega
  have := C70 (E := E) echo R3 R' objs (z := { z with Echo_Mode := List.replicate 9 true }) zf (T := .double) hT va fill
    (by intro e he; simp at he; rcases he with rfl | rfl <;> simp only <;> omega)
    (by rw [pt, eX, eY]; omega) one bytes brief texts length (by rw [path]; exact ho)
  rcases this with ⟨s', c, b, h1, h2, h3, h4, h5⟩ | oom
  · left
    refine ⟨s', c, b, h1, by rw [← path]; exact h2, ?_, ?_⟩
    · rw [h3, hs]
      have p0 : (z.sel 0).picks.length = Ny := by rw [zf.1, interior_picks]; simp
      have p1 : (z.sel 1).picks.length = Nx := by rw [zf.2.1, interior_picks]; simp
      have p2 : (z.sel 2).picks.length = 1 := by rw [zf.2.2, unit_picks]; rfl
      have : headOf { Heat2.tecfile { z with Echo_Mode := List.replicate 9 true } with Echo_Mode := List.replicate 7 true }
          (fun z => ((z.sel 0).picks.length, (z.sel 1).picks.length, (z.sel 2).picks.length)) =
          ⟨0, lit "untitled", [lit "x", lit "y", lit "u1", lit "u2"], [⟨z.ZoneName, z.StrandId, z.SolutionTime.toNat,
            ((z.sel 0).picks.length, (z.sel 1).picks.length, (z.sel 2).picks.length), z.Auxiliary⟩], []⟩ := rfl
      rw [this, name, strand, sol, aux, p0, p1, p2]
      rfl
    · have h4' : b.values.length = 4 := h4
      have g0 := h5 0 (show 0 < 4 by decide)
      have g1 := h5 1 (show 1 < 4 by decide)
      have g2 := h5 2 (show 2 < 4 by decide)
      have g3 := h5 3 (show 3 < 4 by decide)
      simp only [List.map_cons, List.map_nil] at g0 g1 g2 g3
      rw [grid_eq (G := fun i _ => x0 + toV i * hx) fun i j => rfl] at g0
      rw [grid_eq (G := fun _ j => y0 + toV j * hy) fun i j => rfl] at g1
      rw [grid_eq (G := heatSteps2 Nx Ny ax ay dt m fun i j => g (x0 + toV i * hx) (y0 + toV j * hy)) fun i j => rfl] at g2
      rw [grid_eq (G := fun i j => exac (x0 + toV i * hx) (y0 + toV j * hy)) fun i j => rfl] at g3
      match b.values, h4', g0, g1, g2, g3 with
      | [_, _, _, _], _, g0, g1, g2, g3 => cases g0; cases g1; cases g2; cases g3; rfl
  · exact .inr oom

/-- eight bytes of an integer -/
def intBytes (v : Int) : Str := (List.range 8).map fun k => UInt8.ofNat (v.toNat / 256 ^ k % 256)

/-- the hypotheses of C72, and with them those of C69 and C70, for the numbers of points in the program, with integers instead of `double`: the
file is written -/
example (m : Nat) : ∃ w z f s' c b,
    Heat2.main true 501 1001 (fun _ _ => .null) 0 1 0 2 id (fun x y => x + y) (fun x y => x * y) 1 1 1 m
      ((World.init fun _ _ => true : World Int), Zone.new (lit "untitled_zone") 0) = .ok () (w, z) ∧
    TecFile.set_echo_mode true (lit "full") (lit "full") (Heat2.tecfile z) = .ok () f ∧
    TecFile.write_plt demoEnv true ⟨heapBytes 8 intBytes (fun _ _ => true) w.h, fun _ => none, [], false, [], f⟩ = .ok () s' ∧
    s'.fs (lit "./untitled_file.plt") = some c ∧ readWhole c = some (heat2Head 501 1001, [b]) ∧
    b.values[3]? = some (grid 501 1001 intBytes fun i j => (0 + id i * 1) * (0 + id j * 2)) := by
  obtain ⟨w, z, f, h1, h2, ⟨aw, R⟩, h3⟩ := C72 (V := Int) (mem := fun _ _ => true) true true (Nx := 501) (Ny := 1001) (by decide) (by decide) (by decide) rfl rfl rfl rfl rfl
    rfl (fun _ _ => .null) 0 0 1 0 2 id (fun x y => x + y) (fun x y => x * y) 1 1 1 m
  have := h3 demoEnv true intBytes ⟨heapBytes 8 intBytes (fun _ _ => true) w.h, fun _ => none, [], false, [], f⟩ rfl
    (byteView_exists R (fun v => by simp [intBytes]) _) (fun x => by show (plainFmt.le x).length ≤ 30; exact (by decide : (lit "0").length ≤ 30))
    (by decide +kernel) (by decide +kernel) rfl
  rcases this with ⟨s', c, b, g1, g2, g3, g4⟩ | ⟨⟨_, _, h⟩, _⟩
  · exact ⟨w, z, f, s', c, b, h1, h2, g1, g2, g3, by rw [g4]; rfl⟩
  · cases h

/-! ## C73: the scheme in exact arithmetic -/

/-- C73 (bounds): in an ordered field, if `dt * ax` and `dt * ay` are not negative and their sum is at most 1/2, the scheme keeps every bound on the
absolute values -/
theorem C73_bounded [Field V] [LinearOrder V] [IsStrictOrderedRing V] {Nx Ny : Nat} (hx : 2 ≤ Nx) (hy : 2 ≤ Ny) {ax ay dt : V} (h0 : 0 ≤ dt * ax)
    (h1 : 0 ≤ dt * ay) (h2 : 2 * (dt * ax + dt * ay) ≤ 1) (m : Nat) {U : Int → Int → V} {M : V}
    (hU : ∀ i j : Int, 0 ≤ i → i < Nx → 0 ≤ j → j < Ny → -M ≤ U i j ∧ U i j ≤ M) :
    ∀ i j : Int, 0 ≤ i → i < Nx → 0 ≤ j → j < Ny → -M ≤ heatSteps2 Nx Ny ax ay dt m U i j ∧ heatSteps2 Nx Ny ax ay dt m U i j ≤ M := by
  induction m generalizing U with
  | zero => exact hU
  | succ m ih =>
    simp only [heatSteps2]
    apply ih
    intro i j p q p' q'
    have in1 : ∀ (N : Nat) (j : Int), 2 ≤ N → -1 ≤ j → j ≤ N → 0 ≤ reflect N j ∧ reflect N j < N := by
      intro N j h p q
      unfold reflect
      split
      · omega
      · split <;> omega
    have odd : ∀ i : Int, -1 ≤ i → i ≤ Nx → -M ≤ oddX Nx U i j ∧ oddX Nx U i j ≤ M := by
      intro i p q
      unfold oddX
      split
      · obtain ⟨a, b⟩ := in1 Nx i hx p q
        obtain ⟨c, d⟩ := hU _ j a b p' q'
        constructor <;> linarith
      · exact hU i j (by omega) (by omega) p' q'
    obtain ⟨a1, a2⟩ := hU i j p q p' q'
    obtain ⟨b1, b2⟩ := odd (i - 1) (by omega) (by omega)
    obtain ⟨c1, c2⟩ := odd (i + 1) (by omega) (by omega)
    obtain ⟨x, y⟩ := in1 Ny (j - 1) hy (by omega) (by omega)
    obtain ⟨d1, d2⟩ := hU i _ p q x y
    obtain ⟨x, y⟩ := in1 Ny (j + 1) hy (by omega) (by omega)
    obtain ⟨e1, e2⟩ := hU i _ p q x y
    have e : heatStep2 Nx Ny ax ay dt U i j = (1 - 2 * (dt * ax + dt * ay)) * U i j + dt * ax * (oddX Nx U (i - 1) j + oddX Nx U (i + 1) j) +
        dt * ay * (U i (reflect Ny (j - 1)) + U i (reflect Ny (j + 1))) := by
      simp only [heatStep2]; ring
    rw [e]
    have s0 : 0 ≤ 1 - 2 * (dt * ax + dt * ay) := by linarith
    have := mul_le_mul_of_nonneg_left a1 s0
    have := mul_le_mul_of_nonneg_left a2 s0
    have := mul_le_mul_of_nonneg_left (add_le_add b1 c1) h0
    have := mul_le_mul_of_nonneg_left (add_le_add b2 c2) h0
    have := mul_le_mul_of_nonneg_left (add_le_add d1 e1) h1
    have := mul_le_mul_of_nonneg_left (add_le_add d2 e2) h1
    constructor <;> linarith

/-- C73 (the program): in exact arithmetic, with `dt = 0.1 / (a_hh_x > a_hh_y ? a_hh_x : a_hh_y)` as in the program, initial values between -1 and 1
and positive `a_hh_x`, `a_hh_y`, the numbers of the variable `u1` in the file C72 speaks of lie between -1 and 1, after any number of passes. -/
theorem C73 [Field V] [LinearOrder V] [IsStrictOrderedRing V] {Nx Ny : Nat} (hNx : 2 ≤ Nx) (hNy : 2 ≤ Ny) (enc : V → Str) {ax ay : V} (hx : 0 < ax)
    (hy : 0 < ay) (m : Nat) {U : Int → Int → V} (hU : ∀ i j, -1 ≤ U i j ∧ U i j ≤ 1) :
    ∀ b ∈ grid Nx Ny enc (heatSteps2 Nx Ny ax ay (1 / 10 / if ax > ay then ax else ay) m U), ∃ u, -1 ≤ u ∧ u ≤ 1 ∧ b = little (enc u) := by
  intro b hb
  simp only [grid, List.mem_flatMap, List.mem_map, List.mem_range] at hb
  obtain ⟨i, hi, j, hj, rfl⟩ := hb
  have key : ∀ c : V, 0 < c → ax ≤ c → ay ≤ c → 0 ≤ 1 / 10 / c * ax ∧ 0 ≤ 1 / 10 / c * ay ∧ 2 * (1 / 10 / c * ax + 1 / 10 / c * ay) ≤ 1 := by
    intro c hc h1 h2
    have hp : 0 ≤ 1 / 10 / c := by positivity
    have e : 1 / 10 / c * c = 1 / 10 := by field_simp
    have g1 := mul_le_mul_of_nonneg_left h1 hp
    have g2 := mul_le_mul_of_nonneg_left h2 hp
    rw [e] at g1 g2
    refine ⟨mul_nonneg hp hx.le, mul_nonneg hp hy.le, ?_⟩
    have : (2 : V) * (1 / 10 + 1 / 10) ≤ 1 := by norm_num
    linarith
  have k : 0 ≤ (1 / 10 / if ax > ay then ax else ay) * ax ∧ 0 ≤ (1 / 10 / if ax > ay then ax else ay) * ay ∧
      2 * ((1 / 10 / if ax > ay then ax else ay) * ax + (1 / 10 / if ax > ay then ax else ay) * ay) ≤ 1 := by
    split
    · rename_i h; exact key ax hx le_rfl h.le
    · rename_i h; exact key ay hy (not_lt.1 h) le_rfl
  obtain ⟨a, b⟩ := C73_bounded hNx hNy k.1 k.2.1 k.2.2 m (fun i j _ _ _ _ => hU i j) i j (by omega) (by omega) (by omega) (by omega)
  exact ⟨_, a, b, rfl⟩

/-- the hypotheses of C73 and the numbers after one pass: 2 × 3 points, `a_hh_x = 4`, `a_hh_y = 1` -/
example : (List.range 2).map (fun (i : Nat) => (List.range 3).map fun (j : Nat) =>
    heatSteps2 2 3 (4 : ℚ) 1 (1 / 10 / if (4 : ℚ) > 1 then 4 else 1) 1 (fun _ j => if j = 0 then 1 else 0) i j) = [[3 / 4, 1 / 40, 0], [3 / 4, 1 / 40, 0]] := by
  norm_num [List.range, List.range.loop, heatSteps2, heatStep2, oddX, reflect]

end Verif.Props
