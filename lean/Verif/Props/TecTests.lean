import Verif.Proof.TecTests
/-!
# C79: Test_D1_tecfile.cpp, Test_D2_tecfile.cpp, Test_D3_tecfile.cpp
-/
set_option linter.unusedSimpArgs false
namespace Verif.Props
open Spec Tec TecTests
variable {V : Type}

/-- coordinate number `d` at a point: the index over the number of intervals, in the arithmetic of the program -/
def coordAt [Div V] (ofI : Int → V) (ofU : Nat → V) (es : List Ext) (d : Nat) (p : List Int) : V :=
  ofI (p.getD d 0) / ofU ((es.getD d ⟨0, 0, 0⟩).i - 1)

theorem coord_val [Div V] (ofI : Int → V) (ofU : Nat → V) {es : List Ext} (d : Nat) (h : 1 ≤ (es.getD d ⟨0, 0, 0⟩).i)
    (h' : (es.getD d ⟨0, 0, 0⟩).i < 4294967296) (xs : List Int) (env : Env1 V) :
    PExpr.val xs env (coord ofI ofU es d) = some (coordAt ofI ofU es d xs) := by
  have : ((es.getD d ⟨0, 0, 0⟩).i + 4294967295) % 4294967296 = (es.getD d ⟨0, 0, 0⟩).i - 1 := by omega
  unfold coord coordAt
  rw [this]
  rfl

/-- the parts of Test_D1_tecfile fit together -/
theorem prog1_good [Div V] [Mul V] (ofI : Int → V) (ofU : Nat → V) {e : Ext} (h : 1 ≤ e.i) (hp : 5 * (e.n + e.i + e.p) < 4294967296) :
    Good (prog1 ofI ofU [e]) [fun p => coordAt ofI ofU [e] 0 p, fun p => coordAt ofI ofU [e] 0 p / ofI 2,
      fun p => coordAt ofI ofU [e] 0 p * coordAt ofI ofU [e] 0 p] := by
  have c0 := coord_val ofI ofU (es := [e]) 0 (by simpa using h) (by simp only [List.getD_cons_zero]; omega)
  constructor
  · exact .inl rfl
  · simp [prog1]
  · simp [prog1]
  · simp [prog1]
  · intro d hd
    have : d = 0 := by simp only [prog1] at hd; omega
    subst this; simp [prog1]
  · simp [prog1, bodyComps, coord, PExpr.comps]
  · simp [prog1, coord, PExpr.Idx]
  · rfl
  · rfl
  · exact ⟨by simp, by simp⟩
  · simp only [prog1]; decide
  · simp only [prog1]; decide
  · simp only [prog1]; decide
  · simp only [prog1]; decide
  · intro xs
    refine ⟨?env, ?_, ?_⟩
    · exact ((Env1.set (fun _ _ => none) 0 0 (coordAt ofI ofU [e] 0 xs)).set 1 0 (coordAt ofI ofU [e] 0 xs / ofI 2)).set 1 1
        (coordAt ofI ofU [e] 0 xs * coordAt ofI ofU [e] 0 xs)
    · simp only [prog1, pointRun, c0]
      rfl
    · intro j y n hj F hF
      match j with
      | 0 => cases hj; cases hF; rfl
      | 1 => cases hj; cases hF; rfl
      | 2 => cases hj; cases hF; rfl
      | j + 3 => cases hF

/-- C79 (one dimension): Test_D1_tecfile for any numbers of points saves and loads `x = i / (N - 1)`, `y1 = x / 2`, `y2 = x * x`, whatever the
arithmetic is -/
theorem C79_D1 [Div V] [Mul V] (ofI : Int → V) (ofU : Nat → V) {e : Ext} (h : 1 ≤ e.i) (hp : 5 * (e.n + e.i + e.p) < 4294967296) :
    Saves (prog1 ofI ofU [e]) [e] [fun p => coordAt ofI ofU [e] 0 p, fun p => coordAt ofI ofU [e] 0 p / ofI 2,
      fun p => coordAt ofI ofU [e] 0 p * coordAt ofI ofU [e] 0 p] :=
  good_saves (prog1_good ofI ofU h hp) rfl (by simpa using h) (by simp only [prog1, List.replicate, mkShape, points, Dim.width, Loc.toNat]; omega)

/-- C79 (two dimensions): Test_D2_tecfile for any numbers of points saves and loads `x = i / (Nx - 1)`, `y = j / (Ny - 1)`, `u1 = x + y`, `u2 = x * y` -/
theorem C79_D2 [Add V] [Div V] [Mul V] (ofI : Int → V) (ofU : Nat → V) {e f : Ext} (h : 1 ≤ e.i) (h' : 1 ≤ f.i)
    (hp : 5 * ((e.n + e.i + e.p) * (f.n + f.i + f.p)) < 4294967296) :
    Saves (prog2 ofI ofU [e, f]) [e, f] [fun p => coordAt ofI ofU [e, f] 0 p, fun p => coordAt ofI ofU [e, f] 1 p,
      fun p => coordAt ofI ofU [e, f] 0 p + coordAt ofI ofU [e, f] 1 p, fun p => coordAt ofI ofU [e, f] 0 p * coordAt ofI ofU [e, f] 1 p] := by
  have b0 : e.n + e.i + e.p ≤ (e.n + e.i + e.p) * (f.n + f.i + f.p) := Nat.le_mul_of_pos_right _ (by omega)
  have b1 : f.n + f.i + f.p ≤ (e.n + e.i + e.p) * (f.n + f.i + f.p) := Nat.le_mul_of_pos_left _ (by omega)
  have c0 := coord_val ofI ofU (es := [e, f]) 0 (by simpa using h) (by simp only [List.getD_cons_zero]; omega)
  have c1 := coord_val ofI ofU (es := [e, f]) 1 (by simpa using h') (by simp only [List.getD_cons_zero, List.getD_cons_succ]; omega)
  refine good_saves ?_ rfl (by simp [h, h']) (by
    simp only [prog2, List.replicate, mkShape, points, Dim.width, Loc.toNat, Nat.add_zero, Nat.mul_one]; omega)
  constructor
  · exact .inr (.inl rfl)
  · simp [prog2]
  · simp [prog2]
  · simp [prog2]
  · intro d hd
    have : d = 0 ∨ d = 1 := by simp only [prog2] at hd; omega
    rcases this with rfl | rfl <;> simp [prog2]
  · simp [prog2, bodyComps, coord, PExpr.comps]
  · simp [prog2, coord, PExpr.Idx]
  · rfl
  · rfl
  · exact ⟨by simp, by simp⟩
  · simp only [prog2]; decide
  · simp only [prog2]; decide
  · simp only [prog2]; decide
  · simp only [prog2]; decide
  · intro xs
    refine ⟨?env, ?_, ?_⟩
    · exact (((Env1.set (fun _ _ => none) 0 0 (coordAt ofI ofU [e, f] 0 xs)).set 0 1 (coordAt ofI ofU [e, f] 1 xs)).set 1 0
        (coordAt ofI ofU [e, f] 0 xs + coordAt ofI ofU [e, f] 1 xs)).set 1 1 (coordAt ofI ofU [e, f] 0 xs * coordAt ofI ofU [e, f] 1 xs)
    · simp only [prog2, pointRun, c0, c1]
      rfl
    · intro j y n hj F hF
      match j with
      | 0 => cases hj; cases hF; rfl
      | 1 => cases hj; cases hF; rfl
      | 2 => cases hj; cases hF; rfl
      | 3 => cases hj; cases hF; rfl
      | j + 4 => cases hF

/-- C79 (three dimensions): Test_D3_tecfile for any numbers of points saves and loads `x = i / (Nx - 1)`, `y = j / (Ny - 1)`, `z = k / (Nz - 1)`,
`u1 = x + y + z`, `u2 = x * y * z` -/
theorem C79_D3 [Add V] [Div V] [Mul V] (ofI : Int → V) (ofU : Nat → V) {e f g : Ext} (h : 1 ≤ e.i) (h' : 1 ≤ f.i) (h'' : 1 ≤ g.i)
    (hp : 5 * ((e.n + e.i + e.p) * ((f.n + f.i + f.p) * (g.n + g.i + g.p))) < 4294967296) :
    Saves (prog3 ofI ofU [e, f, g]) [e, f, g] [fun p => coordAt ofI ofU [e, f, g] 0 p, fun p => coordAt ofI ofU [e, f, g] 1 p,
      fun p => coordAt ofI ofU [e, f, g] 2 p,
      fun p => coordAt ofI ofU [e, f, g] 0 p + coordAt ofI ofU [e, f, g] 1 p + coordAt ofI ofU [e, f, g] 2 p,
      fun p => coordAt ofI ofU [e, f, g] 0 p * coordAt ofI ofU [e, f, g] 1 p * coordAt ofI ofU [e, f, g] 2 p] := by
  have p1 : f.n + f.i + f.p ≤ (f.n + f.i + f.p) * (g.n + g.i + g.p) := Nat.le_mul_of_pos_right _ (by omega)
  have p2 : g.n + g.i + g.p ≤ (f.n + f.i + f.p) * (g.n + g.i + g.p) := Nat.le_mul_of_pos_left _ (by omega)
  have b0 : e.n + e.i + e.p ≤ (e.n + e.i + e.p) * ((f.n + f.i + f.p) * (g.n + g.i + g.p)) := Nat.le_mul_of_pos_right _ (by omega)
  have b1 : (f.n + f.i + f.p) * (g.n + g.i + g.p) ≤ (e.n + e.i + e.p) * ((f.n + f.i + f.p) * (g.n + g.i + g.p)) := Nat.le_mul_of_pos_left _ (by omega)
  have c0 := coord_val ofI ofU (es := [e, f, g]) 0 (by simpa using h) (by simp only [List.getD_cons_zero]; omega)
  have c1 := coord_val ofI ofU (es := [e, f, g]) 1 (by simpa using h') (by simp only [List.getD_cons_zero, List.getD_cons_succ]; omega)
  have c2 := coord_val ofI ofU (es := [e, f, g]) 2 (by simpa using h'') (by simp only [List.getD_cons_zero, List.getD_cons_succ]; omega)
  refine good_saves ?_ rfl (by simp [h, h', h'']) (by
    simp only [prog3, List.replicate, mkShape, points, Dim.width, Loc.toNat, Nat.add_zero, Nat.mul_one]; omega)
  constructor
  · exact .inr (.inr rfl)
  · simp [prog3]
  · simp [prog3]
  · simp [prog3]
  · intro d hd
    have : d = 0 ∨ d = 1 ∨ d = 2 := by simp only [prog3] at hd; omega
    rcases this with rfl | rfl | rfl <;> simp [prog3]
  · simp [prog3, bodyComps, coord, PExpr.comps]
  · simp [prog3, coord, PExpr.Idx]
  · rfl
  · rfl
  · exact ⟨by simp, by simp⟩
  · simp only [prog3]; decide
  · simp only [prog3]; decide
  · simp only [prog3]; decide
  · simp only [prog3]; decide
  · intro xs
    refine ⟨?env, ?_, ?_⟩
    · exact ((((Env1.set (fun _ _ => none) 0 0 (coordAt ofI ofU [e, f, g] 0 xs)).set 0 1 (coordAt ofI ofU [e, f, g] 1 xs)).set 0 2
        (coordAt ofI ofU [e, f, g] 2 xs)).set 1 0 (coordAt ofI ofU [e, f, g] 0 xs + coordAt ofI ofU [e, f, g] 1 xs + coordAt ofI ofU [e, f, g] 2 xs)).set 1 1
        (coordAt ofI ofU [e, f, g] 0 xs * coordAt ofI ofU [e, f, g] 1 xs * coordAt ofI ofU [e, f, g] 2 xs)
    · simp only [prog3, pointRun, c0, c1, c2]
      rfl
    · intro j y n hj F hF
      match j with
      | 0 => cases hj; cases hF; rfl
      | 1 => cases hj; cases hF; rfl
      | 2 => cases hj; cases hF; rfl
      | 3 => cases hj; cases hF; rfl
      | 4 => cases hj; cases hF; rfl
      | j + 5 => cases hF

/-- bytes as numbers of eight bytes -/
def byteEnc (u : UInt8) : Str := [u, 0, 0, 0, 0, 0, 0, 0]
def byteNum : Num UInt8 := ⟨fun b => some (UInt8.ofNat b.toNat), fun b => some (UInt8.ofNat b.toNat)⟩

theorem byteCodec : Codec .double byteEnc byteNum id where
  known := .inr rfl
  len := fun _ => rfl
  dec := by
    intro u
    simp [fileVal, elem, leVal, byteNum, byteEnc]

/-- the hypotheses hold for the sizes in the programs, with bytes instead of `double`: what Test_D2_tecfile reads at the point (99, 49).  These are at the
same time values that meet all hypotheses of C74. -/
example : ∃ w z f s' c w' m',
    (prog2 (V := UInt8) (fun i => UInt8.ofNat i.toNat) UInt8.ofNat [⟨3, 100, 3⟩, ⟨2, 50, 2⟩]).main true [⟨3, 100, 3⟩, ⟨2, 50, 2⟩] (fun _ _ => .null)
      (World.init (fun _ _ => true), Zone.new (lit "untitled_zone") 0) = .ok () (w, z) ∧
    TecFile.write_plt demoEnv true ⟨heapBytes 8 byteEnc (fun _ _ => true) w.h, fun _ => none, [], false, [], f⟩ = .ok () s' ∧
    s'.fs (lit "./untitled_file.plt") = some c ∧
    (prog2 (V := UInt8) (fun i => UInt8.ofNat i.toNat) UInt8.ofNat [⟨3, 100, 3⟩, ⟨2, 50, 2⟩]).load true byteNum [⟨3, 100, 3⟩, ⟨2, 50, 2⟩] (fun _ => .null) s'.fs
      s'.f.last_log (w, ⟨fun _ => none, 0, fun _ _ => true⟩) = .ok () (w', m') ∧
    exec true (.read 2 2 [99, 49] [.C, .C]) w' = .ok (.val (some 2)) w' := by
  obtain ⟨w, z, f, h1, h2, ⟨aw, R⟩, h3⟩ := C79_D2 (V := UInt8) (fun i => UInt8.ofNat i.toNat) UInt8.ofNat (e := ⟨3, 100, 3⟩) (f := ⟨2, 50, 2⟩) (by decide) (by decide)
    (by decide) true true (fun _ _ => .null) 0
  obtain ⟨s', c, hd, b, g1, g2, g3, g4, g5, g6⟩ := h3 demoEnv true byteEnc ⟨heapBytes 8 byteEnc (fun _ _ => true) w.h, fun _ => none, [], false, [], f⟩ rfl
    (byteView_exists (enc := byteEnc) (size := 8) R (fun v => rfl) _) (fun _ _ => rfl) (fun x => by show (plainFmt.le x).length ≤ 30; exact (by decide : (lit "0").length ≤ 30))
    (by decide +kernel) (by decide +kernel) rfl
  obtain ⟨w', m', k1, k2, k3, -⟩ := g6 byteNum byteCodec (fun _ => .null) s'.fs g2 ⟨fun _ => none, 0, fun _ _ => true⟩ (by intro c _; rfl) (fun _ _ => rfl)
  refine ⟨w, z, f, s', c, w', m', h1, g1, g2, k1, ?_⟩
  have := k3 2 _ rfl [99, 49] (mem_blockPts.2 (by simp [InBlock])) true
  exact this

end Verif.Props
