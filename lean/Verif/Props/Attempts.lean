import Verif.Props.TecTests
/-!
# C90: attempts to read a file; the rest of Test_D1_tecfile.cpp
-/
set_option linter.unusedSimpArgs false
namespace Verif.Props
open Spec Tec TecTests
variable {V V' : Type} {mem : Nat → Nat → Bool} {chk : Bool} {w₀ w₁ : World V} {aw₀ aw₁ : AWorld V}

/-- C90: arrays written as in C70; afterwards, the file being unchanged, any sequence of `realloc` of an array and attempts, made by `exec_except`, to read a
variable into a component of that array.  Every attempt is refused with the first fitting of the four messages, or stores the converted interior of the source;
a refused attempt changes no array and gives its buffer back; a `realloc` makes all elements of the array indeterminate; the output is the report of the
attempts; other arrays never change. -/
theorem C90 {E : Env} {echo : Bool} {s s' : FSt} (R₀ : Reach mem chk w₀ aw₀) (R₁ : Reach mem chk w₁ aw₁) (same : w₁.objs = w₀.objs)
    {es : List Ext} {locs : List Loc} {z : Zone} (hz : ZoneFor (mkShape es locs) z) {T : CType} {t : TecType} (hT : (T, t) ∈ tecTypes)
    {vs : List (Nat × Nat)} (hv : VarsAre chk w₀ t T.size vs z.Data) {F : Nat → List Int → V} (fill : Filled aw₀ aw₁ es locs vs F)
    (pos : ∀ e ∈ es, 1 ≤ e.i) (pts : points (mkShape es locs) ≤ 2147483647)
    (one : OneZone s.f z) {enc : V → Str} (bytes : ByteView T.size enc w₁.h s.h)
    (brief : s.f.Brief E) (len : s.f.lengthOf Zone.selectedPoints < 9223372036854775808)
    (r : TecFile.write_plt E echo s = .ok () s')
    {C : Num V'} {conv : V → V'} (cd : Codec t enc C conv)
    {chk₂ : Bool} {w₂ : World V'} {aw₂ : AWorld V'} (R₂ : Reach (fun _ _ => true) chk₂ w₂ aw₂)
    {x : Nat} {k : Kind} (hk : k.N < 2147483648) (dim : k.locs.length = es.length) {H : Holder V'} (hx : aw₂.arr x = some (k, .ready H.es H.val))
    {b : Heap Byte} (fr : Fresh b) (room : ∀ c n, b.mem c n = true)
    {fs : Str → Option Str} (hfs : fs (cstr s.f.path) = s'.fs (cstr s.f.path)) (c : Bool) (as : List Attempt)
    (fair : ∀ a ∈ as, Fair c ⟨s.f.FilePath, s.f.FileName, s.f.Variables, es.map (·.i), fun j p => conv (F j p)⟩ k fs a)
    (o : Nat → Str) (ho : o 0 = H.out) :
    ∃ w' b' H', as.foldl (attempted c ⟨s.f.FilePath, s.f.FileName, s.f.Variables, es.map (·.i), fun j p => conv (F j p)⟩ k.N) H = H' ∧
      runAttempts c C fs s'.f.last_log 0 x as ((w₂, b), o) = .ok () ((w', b'), Function.update o 0 H'.out) ∧ b'.blk = b.blk ∧
      (∀ q ys gs, Valid k H'.es q ys gs → ∀ c', exec c' (.read x q ys gs) w' = .ok (.val (H'.val q (point ys gs))) w') ∧
      (∀ c', exec c' (.size x) w' = .ok (.sizes (H'.es.map fun e => ((e.n : Int), (e.i : Int), (e.p : Int)))) w') ∧
      ∀ y k' es' val', y ≠ x → aw₂.arr y = some (k', .ready es' val') → ∀ q ys gs, Valid k' es' q ys gs →
        ∀ c', ∃ v, exec c' (.read y q ys gs) w₂ = .ok (.val v) w₂ ∧ exec c' (.read y q ys gs) w' = .ok (.val v) w' := by
  have st := export_stored R₀ R₁ same hz hT hv fill pos pts one bytes brief len r cd.known
  obtain ⟨L, Q⟩ := R₂.rel
  obtain ⟨w', b', aw', L', p1, p2, p3, p4, p5⟩ := st.attempts cd c hk dim hfs as fair Q hx (by rw [← dim]; exact (Q.rank hx).1) fr (fun c => room c _) o ho
  refine ⟨w', b', _, rfl, p1, p2, ?_, ?_, ?_⟩
  · intro q ys gs hval c'
    exact p3.read c' p5 hval
  · intro c'
    rw [p3.size c' p5]; rfl
  · intro y k' es' val' hy hy' q ys gs hval c'
    exact ⟨_, Q.read c' hy' hval, p3.read c' (by rw [p4 y hy]; exact hy') hval⟩

theorem rest1_fold {N : Nat} (h : 2 ≤ N) (F : Nat → List Int → V) (now : Nat → Str) (r : Nat → Nat) (val : Nat → List Int → Option V) (out : Str) :
    (rest1 N now r).foldl (attempted true ⟨lit ".", lit "untitled_file", [lit "x", lit "y1", lit "y2"], [N], F⟩ 3) ⟨[⟨0, N, 0⟩], val, out⟩ =
      ⟨[⟨1, N, 1⟩], fun m p => if m = 2 ∧ p ∈ blockPts [N] then some (F 2 p) else none, out ++ report1 now r⟩ := by
  have m1 : lit "xxx" ∉ [lit "x", lit "y1", lit "y2"] := by decide +kernel
  have m2 : lit "y2" ∈ [lit "x", lit "y1", lit "y2"] := by decide +kernel
  have m3 : lit "aaa" ≠ lit "." := by decide +kernel
  have m4 : [lit "x", lit "y1", lit "y2"].idxOf (lit "y2") = 2 := by decide +kernel
  have f1 : refusal true ⟨lit ".", lit "untitled_file", [lit "x", lit "y1", lit "y2"], [N], F⟩ 3 [⟨0, N, 0⟩] (lit ".") (lit "y2") 3 =
      some (lit "N is out of range: 3 range:[0,2]") := by
    unfold refusal
    rw [if_pos ⟨rfl, Nat.le_refl 3⟩]
    decide +kernel
  have f2 : refusal true ⟨lit ".", lit "untitled_file", [lit "x", lit "y1", lit "y2"], [N], F⟩ 3 [⟨0, N, 0⟩] (lit ".") (lit "xxx") 0 =
      some (lit "error when finding variables xxx in: untitled_file") := by
    unfold refusal
    rw [if_neg (by decide), if_neg (by simp [covers]), if_pos (by exact m1)]
    show some (lit "error when finding variables " ++ lit "xxx" ++ lit " in: " ++ lit "untitled_file") = _
    decide +kernel
  have f3 : refusal true ⟨lit ".", lit "untitled_file", [lit "x", lit "y1", lit "y2"], [N], F⟩ 3 [⟨0, N, 0⟩] (lit "aaa") (lit "y2") 0 =
      some (lit "error when opening file: aaa/untitled_file.plt") := by
    unfold refusal
    rw [if_neg (by decide), if_neg (by simp [covers]), if_neg (by exact not_not_intro m2), if_pos (by exact m3)]
    show some (lit "error when opening file: " ++ lit "aaa" ++ lit "/" ++ lit "untitled_file" ++ lit ".plt") = _
    decide +kernel
  have f4 : ∀ f : Ext, N ≤ f.i → refusal true ⟨lit ".", lit "untitled_file", [lit "x", lit "y1", lit "y2"], [N], F⟩ 3 [f] (lit ".") (lit "y2") 2 = none := by
    intro f hf
    unfold refusal
    rw [if_neg (by decide), if_neg (by simpa [covers] using hf), if_neg (by exact not_not_intro m2), if_neg (by exact not_not_intro rfl)]
  have f5 : refusal true ⟨lit ".", lit "untitled_file", [lit "x", lit "y1", lit "y2"], [N], F⟩ 3 [⟨0, N - 1, 0⟩] (lit ".") (lit "y2") 2 =
      some (lit "N_file is bigger than N_in or equal to 0") := by
    unfold refusal
    rw [if_neg (by decide), if_pos (by simp [covers]; omega)]
  have t1 : cstr (lit "N is out of range: 3 range:[0,2]") ++ lit "\n" = lit "N is out of range: 3 range:[0,2]\n" := by decide +kernel
  have t2 : cstr (lit "error when finding variables xxx in: untitled_file") ++ lit "\n" = lit "error when finding variables xxx in: untitled_file\n" := by
    decide +kernel
  have t3 : cstr (lit "error when opening file: aaa/untitled_file.plt") ++ lit "\n" = lit "error when opening file: aaa/untitled_file.plt\n" := by decide +kernel
  have t4 : cstr (lit "N_file is bigger than N_in or equal to 0") ++ lit "\n" = lit "N_file is bigger than N_in or equal to 0\n" := by decide +kernel
  have g4 := f4 ⟨0, N + 1, 0⟩ (by simp only; omega)
  have g6 := f4 ⟨1, N, 1⟩ (Nat.le_refl N)
  clear f4
  unfold rest1
  rw [List.foldl_cons, List.foldl_cons, List.foldl_cons, List.foldl_cons, List.foldl_cons, List.foldl_cons, List.foldl_cons, List.foldl_cons,
    List.foldl_cons, List.foldl_nil]
  simp only [attempted, f1, f2, f3, g4, f5, g6]
  rw [m4]
  congr 1
  unfold report1
  simp only [← t1, ← t2, ← t3, ← t4, List.append_assoc]

/-- C90: Test_D1_tecfile from its first line to its last, for any numbers of points (at least two in the interior) -/
theorem C90_test [Div V] [Mul V] (ofI : Int → V) (ofU : Nat → V) {e : Ext} (h : 2 ≤ e.i) (hp : 5 * (e.n + e.i + e.p) < 4294967281) :
    SavesThen (prog1 ofI ofU [e]) [e] [fun p => coordAt ofI ofU [e] 0 p, fun p => coordAt ofI ofU [e] 0 p / ofI 2,
      fun p => coordAt ofI ofU [e] 0 p * coordAt ofI ofU [e] 0 p]
      (RestRuns e.i fun p => coordAt ofI ofU [e] 0 p * coordAt ofI ofU [e] 0 p) := by
  refine good_saves_then (prog1_good ofI ofU (by omega) (by omega)) rfl (by simp; omega)
    (by simp only [prog1, List.replicate, mkShape, points, Dim.width, Loc.toNat]; omega) ?_
  rintro chk C fs log w m ⟨fr, room, ⟨E, echo, s, s', enc, F, st, rfl, hpath, hname, hvars, cd, hF, hfs⟩, ⟨aw, L, val, R, hx⟩⟩
  intro aaa now r out
  have hvars' : s.f.Variables = [lit "x", lit "y1", lit "y2"] := hvars
  simp only [List.map_cons, List.map_nil] at hx
  have hstock : stock s [e] (fun j p => id (F j p)) = ⟨lit ".", lit "untitled_file", [lit "x", lit "y1", lit "y2"], [e.i], F⟩ := by
    unfold stock; rw [hpath, hname, hvars']; rfl
  have m1 : lit "xxx" ∉ [lit "x", lit "y1", lit "y2"] := by decide +kernel
  have m2 : lit "y2" ∈ [lit "x", lit "y1", lit "y2"] := by decide +kernel
  have m3 : lit "aaa" ≠ lit "." := by decide +kernel
  have m4 : [lit "x", lit "y1", lit "y2"].idxOf (lit "y2") = 2 := by decide +kernel
  have hF2 : F 2 = fun p => coordAt ofI ofU [e] 0 p * coordAt ofI ofU [e] 0 p := hF 2 _ rfl
  constructor
  · rintro rfl
    have fair : ∀ a ∈ rest1 e.i now r, Fair true (stock s [e] fun j p => id (F j p)) ((prog1 ofI ofU [e]).kind 3) fs a := by
      rw [hstock]
      have one : ∀ f : Ext, 1 ≤ f.i → 3 * (f.n + f.i + f.p) < 4294967296 → f.n + f.i + f.p + 1 < 2147483648 →
          SizesOk ((prog1 ofI ofU [e]).kind 3) [f] ∧ ∀ g ∈ [f], 1 ≤ g.i := by
        intro f h1 h2 h3
        refine ⟨⟨rfl, ?_, ?_⟩, by simpa using h1⟩
        · intro d hd
          simp only [prog1, Prog.kind, List.replicate, mkShape, List.mem_singleton] at hd
          subst hd
          exact h3
        · simp only [prog1, Prog.kind, List.replicate, mkShape, points, Dim.width, Loc.toNat]
          omega
      intro a ha
      simp only [rest1, List.mem_cons, List.not_mem_nil, or_false] at ha
      rcases ha with rfl | rfl | rfl | rfl | rfl | rfl | rfl | rfl | rfl
      · exact ⟨.inl rfl, .inl rfl⟩
      · exact ⟨.inl rfl, .inl rfl⟩
      · exact ⟨.inl rfl, .inr aaa⟩
      · exact one _ (by simp only; omega) (by simp only; omega) (by simp only; omega)
      · exact ⟨.inl rfl, .inl rfl⟩
      · exact one _ (by simp only; omega) (by simp only; omega) (by simp only; omega)
      · exact ⟨.inl rfl, .inl rfl⟩
      · exact one _ (by simp only; omega) (by simp only; omega) (by simp only; omega)
      · exact ⟨.inl rfl, .inl rfl⟩
    obtain ⟨w', m', aw', L', p1, p2, p3, p4, p5⟩ := st.attempts cd true (x := 2) (k := (prog1 ofI ofU [e]).kind 3) (by show 3 < 2147483648; decide) rfl hfs
      (rest1 e.i now r) fair (H := ⟨[⟨0, e.i, 0⟩], val, out 0⟩) R hx rfl fr (fun _ => room _ _) out rfl
    rw [hstock] at p1 p5
    have hN : ((prog1 ofI ofU [e]).kind 3).N = 3 := rfl
    rw [hN] at p1 p5
    rw [rest1_fold h F now r val (out 0)] at p1 p5
    refine ⟨w', m', ?_, p2, ?_⟩
    · rw [p1]
      congr 2
      funext i
      simp only [Function.update_apply]
    · intro c q i hq h1 h2
      have hpt : point [i] [FL.C] = [i] := by simp [point, FL.offset]
      have hval : Valid ((prog1 ofI ofU [e]).kind 3) [⟨1, e.i, 1⟩] q [i] [.C] := by
        refine ⟨rfl, hq, ?_, ?_⟩
        · have := flags_center (ls := List.replicate 1 Loc.center) fun l h => List.eq_of_mem_replicate h
          exact this
        · rw [hpt]
          refine ⟨?_, trivial⟩
          simp only [Dim.Has, Loc.toNat]
          omega
      rw [p3.read c p5 hval, hpt, hF2]
      have hb : [i] ∈ blockPts [e.i] ↔ 0 ≤ i ∧ i < e.i := by rw [mem_blockPts]; simp [InBlock]
      simp only [hb]
  · rintro rfl
    have := st.attempt_ub cd R hx (by simp [covers]) fr (fun _ => room _ _) hfs (name := lit "y2") (n := 3) (Nat.le_refl 3) (by rw [hvars']; exact m2)
    rw [hpath] at this
    unfold rest1 runAttempts Attempt.run
    refine M.bind_ub ?_
    refine (C48_except _ _ _ _ _ _ _).2.2.2 _ ?_
    unfold silent
    simp only [this]

/-- the sizes of the program, with bytes instead of `double`: the run from the first line to the last, what it writes, and an element of two components at its end;
The state in front of the attempts meets the hypotheses of C90. -/
example : ∃ w z f s' w' m' w'' m'',
    (prog1 (V := UInt8) (fun i => UInt8.ofNat i.toNat) UInt8.ofNat [⟨3, 100, 3⟩]).main true [⟨3, 100, 3⟩] (fun _ _ => .null)
      (World.init (fun _ _ => true), Zone.new (lit "untitled_zone") 0) = .ok () (w, z) ∧
    TecFile.write_plt demoEnv true ⟨heapBytes 8 byteEnc (fun _ _ => true) w.h, fun _ => none, [], false, [], f⟩ = .ok () s' ∧
    (prog1 (V := UInt8) (fun i => UInt8.ofNat i.toNat) UInt8.ofNat [⟨3, 100, 3⟩]).load true byteNum [⟨3, 100, 3⟩] (fun _ => .null)
      (fun p => if p = lit "./untitled_file.plt" then s'.fs p else none) s'.f.last_log (w, ⟨fun _ => none, 0, fun _ _ => true⟩) = .ok () (w', m') ∧
    runAttempts true byteNum (fun p => if p = lit "./untitled_file.plt" then s'.fs p else none) s'.f.last_log 0 2 (rest1 100 (fun _ => lit "now") fun _ => 7)
      ((w', m'), fun _ => []) = .ok () ((w'', m''), fun i => if i = 0 then [] ++ report1 (fun _ => lit "now") (fun _ => 7) else []) ∧
    exec true (.read 2 2 [99] [.C]) w'' = .ok (.val (some 1)) w'' ∧ exec true (.read 2 1 [99] [.C]) w'' = .ok (.val none) w'' := by
  obtain ⟨w, z, f, h1, h2, ⟨aw, R⟩, h3⟩ := C90_test (V := UInt8) (fun i => UInt8.ofNat i.toNat) UInt8.ofNat (e := ⟨3, 100, 3⟩) (by decide)
    (by decide) true true (fun _ _ => .null) 0
  obtain ⟨s', c, hd, b, g1, g2, g3, g4, g5, g6⟩ := h3 demoEnv true byteEnc ⟨heapBytes 8 byteEnc (fun _ _ => true) w.h, fun _ => none, [], false, [], f⟩ rfl
    (byteView_exists (enc := byteEnc) (size := 8) R (fun v => rfl) _) (fun _ _ => rfl) (fun x => by show (plainFmt.le x).length ≤ 30; exact (by decide : (lit "0").length ≤ 30))
    (by decide +kernel) (by decide +kernel) rfl
  obtain ⟨w', m', k1, k2, k3, k4⟩ := g6 byteNum byteCodec (fun _ => .null) (fun p => if p = lit "./untitled_file.plt" then s'.fs p else none)
    (by rw [if_pos rfl]; exact g2) ⟨fun _ => none, 0, fun _ _ => true⟩ (by intro c _; rfl) (fun _ _ => rfl)
  obtain ⟨w'', m'', q1, q2, q3⟩ := (k4 (if_neg (by decide +kernel)) (fun _ => lit "now") (fun _ => 7) fun _ => []).1 rfl
  refine ⟨w, z, f, s', w', m', w'', m'', h1, g1, k1, q1, ?_, ?_⟩
  · have := q3 true 2 99 (by decide) (by decide) (by decide)
    exact this
  · exact q3 true 1 99 (by decide) (by decide) (by decide)

end Verif.Props
