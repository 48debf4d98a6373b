import Verif.Props.SaveLoad
import Verif.Props.Pointwise
import Verif.Props.Export
import Verif.Spec.TecTests
import Verif.Proof.Attempts
/-!
# Test_D?_tecfile: the common part
-/
set_option linter.unusedSimpArgs false
namespace Verif
open Spec Tec TecTests Props
variable {V : Type} {chk : Bool}

/-- the parts of the program fit together -/
structure Good (P : Prog V) (Fs : List (List Int → V)) : Prop where
  dim : P.D = 1 ∨ P.D = 2 ∨ P.D = 3
  nx : 0 < P.nx ∧ P.nx ≤ 5
  nu : 0 < P.nu ∧ P.nu ≤ 5
  setUp : ∀ s ∈ P.setUp, (∃ d < P.D, s = .dims 0 P.D d) ∨ (∃ n < P.nx, s = .data 0 n) ∨ ∃ n < P.nu, s = .data 1 n
  dims : ∀ d < P.D, SetUp.dims 0 P.D d ∈ P.setUp
  comps : ∀ c ∈ bodyComps P.body, (c.1 = 0 ∧ c.2 < P.nx) ∨ (c.1 = 1 ∧ c.2 < P.nu)
  idx : ∀ a ∈ P.body, PExpr.Idx P.D a.rhs
  count : (varsOf P.setUp).length = Fs.length
  names : P.names.length = Fs.length
  few : 0 < Fs.length ∧ Fs.length ≤ 5
  short : ∀ v ∈ P.names, v.length ≤ 150
  clean : ∀ v ∈ P.names, (0 : UInt8) ∉ v
  diff : P.names.Nodup
  text : (P.names.map textLen).sum ≤ 1000
  out : ∀ xs : List Int, ∃ o : Env1 V, pointRun xs P.body (fun _ _ => none) = some o ∧
    ∀ (j y n : Nat), (varsOf P.setUp)[j]? = some (y, n) → ∀ F, Fs[j]? = some F → o y n = some (F xs)

theorem points_ge {es : List Ext} {ls : List Loc} (pos : ∀ e ∈ es, 1 ≤ e.i) : 1 ≤ points (mkShape es ls) := by
  induction es generalizing ls with
  | nil => cases ls <;> simp [mkShape, points]
  | cons e es ih =>
    cases ls with
    | nil => simp [mkShape, points]
    | cons l ls =>
      simp only [mkShape, points]
      have h1 := ih (ls := ls) fun e he => pos e (List.mem_cons_of_mem _ he)
      have h0 := pos e List.mem_cons_self
      have h2 : 1 ≤ (Dim.mk e l).width := by simp only [Dim.width]; omega
      exact Nat.mul_le_mul h2 h1

theorem width_le {es : List Ext} {ls : List Loc} (pos : ∀ e ∈ es, 1 ≤ e.i) {d : Dim} (h : d ∈ mkShape es ls) : d.width ≤ points (mkShape es ls) := by
  induction es generalizing ls with
  | nil => cases ls <;> simp [mkShape] at h
  | cons e es ih =>
    cases ls with
    | nil => simp [mkShape] at h
    | cons l ls =>
      simp only [mkShape, points, List.mem_cons] at h ⊢
      have pos' : ∀ e ∈ es, 1 ≤ e.i := fun e he => pos e (List.mem_cons_of_mem _ he)
      rcases h with rfl | h
      · exact Nat.le_mul_of_pos_right _ (points_ge pos')
      · have := ih pos' h
        have h0 := pos e List.mem_cons_self
        have w1 : 1 ≤ (Dim.mk e l).width := by simp only [Dim.width]; omega
        calc d.width ≤ points (mkShape es ls) := this
          _ ≤ _ := Nat.le_mul_of_pos_left _ w1

theorem inner_le {es : List Ext} {ls : List Loc} : points (mkShape (es.map fun e => ⟨0, e.i, 0⟩) ls) ≤ points (mkShape es ls) := by
  induction es generalizing ls with
  | nil => cases ls <;> simp [mkShape, points]
  | cons e es ih =>
    cases ls with
    | nil => simp [mkShape, points]
    | cons l ls =>
      simp only [List.map_cons, mkShape, points]
      exact Nat.mul_le_mul (by simp only [Dim.width]; omega) ih

theorem block_le {es : List Ext} {ls : List Loc} (h : es.length = ls.length) : (blockPts (es.map (·.i))).length ≤ points (mkShape es ls) := by
  induction es generalizing ls with
  | nil => cases ls <;> simp [mkShape, points, blockPts]
  | cons e es ih =>
    cases ls with
    | nil => simp at h
    | cons l ls =>
      have := ih (ls := ls) (by simpa using h)
      simp only [List.map_cons, mkShape, points, blockPts, List.length_flatMap, List.length_map, List.map_const', List.sum_replicate_nat, List.length_range]
      exact Nat.mul_le_mul (by simp only [Dim.width]; omega) this

theorem sizeErrs_pos {es : List Ext} (pos : ∀ e ∈ es, 1 ≤ e.i) (d : Nat) : sizeErrs d es = none := by
  induction es generalizing d with
  | nil => rfl
  | cons e es ih =>
    simp only [sizeErrs]
    have := pos e List.mem_cons_self
    rw [if_neg (by omega)]
    exact ih (fun e he => pos e (List.mem_cons_of_mem _ he)) _

theorem granted_any (n : Nat) (rs : List Nat) : granted (fun _ _ => true) n rs = rs.length := by
  induction rs generalizing n with
  | nil => rfl
  | cons r rs ih => simp only [granted, if_true, ih, List.length_cons]

/-- a declaration with sizes inside machine range -/
theorem make_any {w : World V} {aw : AWorld V} (R : Reach (fun _ _ => true) chk w aw) {x N D : Nat} (junk : Nat → Ptr) {es : List Ext} (hx : aw.arr x = none)
    (hD : D = 1 ∨ D = 2 ∨ D = 3) (hl : es.length = D) (h0 : 0 < N) (h5 : N ≤ 5) (pos : ∀ e ∈ es, 1 ≤ e.i)
    (hp : 5 * points (mkShape es (List.replicate D .center)) < 4294967296) :
    ∃ w' n, exec chk (.makeSized x ⟨N, List.replicate D .center⟩ junk es) w = .ok .unit w' ∧
      Reach (fun _ _ => true) chk w' { aw.set x (some (⟨N, List.replicate D .center⟩, .ready es fun _ _ => none)) with next := n } := by
  have hN : N * points (mkShape es (List.replicate D .center)) ≤ 5 * points (mkShape es (List.replicate D .center)) := Nat.mul_le_mul_right _ h5
  obtain ⟨w', e, R'⟩ := R.make (x := x) (k := ⟨N, List.replicate D .center⟩) junk (es := es) hx
    ⟨by simpa using hD, by simp only; omega⟩
    ⟨by simp [hl], fun d hd => by
      have := width_le pos hd
      simp only [Dim.width] at this
      omega, by simp only; omega⟩
    (by simp only; omega) (sizeErrs_pos pos 0) (by have := points_ge (ls := List.replicate D .center) pos; simp only; omega)
    (granted_any _ _)
  exact ⟨w', _, e, R'⟩

theorem all_has {es : List Ext} {D : Nat} (hl : es.length = D) {xs : List Int} (h : InTags es (List.replicate D .ALL) xs) :
    HasPt (mkShape es (List.replicate D .center)) xs := by
  induction es generalizing D xs with
  | nil =>
    subst hl
    match xs, h with
    | [], _ => trivial
  | cons e es ih =>
    subst hl
    match xs, h with
    | x :: xs, h =>
      simp only [List.length_cons, List.replicate_succ, mkShape]
      simp only [List.length_cons, List.replicate_succ, InTags, InTag] at h
      exact ⟨by simp only [Dim.Has, Loc.toNat]; omega, ih rfl h.2⟩

theorem block_tags {es : List Ext} {D : Nat} (hl : es.length = D) {p : List Int} (h : p ∈ blockPts (es.map (·.i))) :
    InTags es (List.replicate D .ALL) p := by
  induction es generalizing D p with
  | nil =>
    subst hl
    simp only [List.map_nil, blockPts, List.mem_singleton] at h
    subst h; trivial
  | cons e es ih =>
    subst hl
    simp only [List.map_cons, blockPts, List.mem_flatMap, List.mem_range, List.mem_map] at h
    obtain ⟨i, hi, q, hq, rfl⟩ := h
    simp only [List.length_cons, List.replicate_succ, InTags, InTag]
    exact ⟨by omega, ih rfl hq⟩

theorem fullEcho (strict : Bool) (P : Prog V) (z : Zone) : TecFile.set_echo_mode strict (lit "full") (lit "full") (P.tecfile z) =
    .ok () { P.tecfile { z with Echo_Mode := List.replicate 9 true } with Echo_Mode := List.replicate 7 true } := by
  cases strict <;> rfl

/-- the file before `write_plt`: only the echo modes differ -/
theorem echo_any (P : Prog V) (strict : Bool) (z : Zone) : ∃ f z', P.echo strict (P.tecfile z) = .ok () f ∧ f.Zones = [z'] ∧
    f.Variables = P.names ∧ f.FilePath = lit "." ∧ f.FileName = lit "untitled_file" ∧ f.Title = lit "untitled" ∧ f.FileType = 0 ∧ f.Auxiliary = [] ∧
    z'.Data = z.Data ∧ z'.ZoneName = z.ZoneName ∧ z'.StrandId = z.StrandId ∧ z'.Auxiliary = z.Auxiliary ∧ ∀ i, z'.sel i = z.sel i := by
  unfold Prog.echo
  cases P.full with
  | true => exact ⟨_, _, fullEcho strict P z, rfl, rfl, rfl, rfl, rfl, rfl, rfl, rfl, rfl, rfl, rfl, fun _ => rfl⟩
  | false => exact ⟨_, _, rfl, rfl, rfl, rfl, rfl, rfl, rfl, rfl, rfl, rfl, rfl, rfl, fun _ => rfl⟩

theorem zipIdx_snd (l : List Str) : l.zipIdx.map Prod.snd = List.range l.length := by
  rw [List.zipIdx_eq_zip_range', List.map_snd_zip (by simp), List.range_eq_range']

theorem idxOf_nodup {l : List Str} (h : l.Nodup) {j : Nat} {v : Str} (hj : l[j]? = some v) : l.idxOf? v = some j := by
  obtain ⟨hlt, rfl⟩ := List.getElem?_eq_some_iff.1 hj
  rw [List.idxOf?_eq_some_iff]
  refine ⟨hlt, rfl, ?_⟩
  intro i hi e
  exact absurd ((List.Nodup.getElem_inj_iff h).1 e) (by omega)

/-- the state after the loading -/
structure Loaded (P : Prog V) (es : List Ext) (Fs : List (List Int → V)) (C : Num V) (fs : Str → Option Str) (log : FileLog) (w : World V) (m : Heap Byte) : Prop where
  fresh : Fresh m
  room : ∀ k n, m.mem k n = true
  file : ∃ E echo s s' enc F, Stored E echo s s' .double es enc F ∧ s'.f.last_log = log ∧ s.f.FilePath = lit "." ∧ s.f.FileName = lit "untitled_file" ∧
    s.f.Variables = P.names ∧ Codec .double enc C id ∧ (∀ (j : Nat) (G : List Int → V), Fs[j]? = some G → F j = G) ∧
    fs (cstr s.f.path) = s'.fs (cstr s.f.path)
  arr : ∃ aw L val, Rel (fun _ _ => true) w aw L ∧ aw.arr 2 = some (P.kind P.names.length, .ready (es.map fun e => ⟨0, e.i, 0⟩) val)

theorem good_saves_then {P : Prog V} {Fs : List (List Int → V)} (G : Good P Fs) {es : List Ext} (hl : es.length = P.D) (pos : ∀ e ∈ es, 1 ≤ e.i)
    (hp : 5 * points (mkShape es (List.replicate P.D .center)) < 4294967296)
    {K : Bool → Num V → (Str → Option Str) → FileLog → World V × Heap Byte → Prop}
    (hK : ∀ chk C fs log w m, Loaded P es Fs C fs log w m → K chk C fs log (w, m)) : SavesThen P es Fs K := by
  intro chk strict junk zj
  -- the arrays
  obtain ⟨w1, n1, e1, R1⟩ := make_any (V := V) (chk := chk) Reach.init (x := 0) (junk 0) rfl G.dim hl G.nx.1 G.nx.2 pos hp
  obtain ⟨w2, n2, e2, R2⟩ := make_any R1 (x := 1) (junk 1) (by simp [AWorld.set, AWorld.init]) G.dim hl G.nu.1 G.nu.2 pos hp
  revert R2
  generalize haw : AWorld.mk _ _ _ = aw
  intro R2
  have a0 : aw.arr 0 = some (P.kind P.nx, .ready es fun _ _ => none) := by rw [← haw]; rfl
  have a1 : aw.arr 1 = some (P.kind P.nu, .ready es fun _ _ => none) := by rw [← haw]; rfl
  have a2 : aw.arr 2 = none := by rw [← haw]; rfl
  have decls : runOps chk [.makeSized 0 (P.kind P.nx) (junk 0) es, .makeSized 1 (P.kind P.nu) (junk 1) es] (World.init fun _ _ => true : World V) = .ok () w2 := by
    unfold Prog.kind
    rw [runOps_cons e1, runOps_cons e2]; rfl
  have comp : ∀ y n : Nat, ((y = 0 ∧ n < P.nx) ∨ (y = 1 ∧ n < P.nu)) → ∃ k, aw.arr y = some (k, .ready es fun _ _ => none) ∧
      k.locs = List.replicate P.D .center ∧ n < k.N := by
    rintro y n (⟨rfl, h⟩ | ⟨rfl, h⟩)
    · exact ⟨_, a0, rfl, h⟩
    · exact ⟨_, a1, rfl, h⟩
  -- the zone
  have hT : ((⟨.double, false, false⟩ : Pointee).type, TecType.double) ∈ tecTypes := by decide
  obtain ⟨z, hz, zf, va, zr⟩ := C69 R2 a0 (by intro l h; exact List.eq_of_mem_replicate h) hT rfl P.setUp
    (by
      intro s hs
      rcases G.setUp s hs with ⟨d, hd, rfl⟩ | ⟨n, hn, rfl⟩ | ⟨n, hn, rfl⟩
      · exact ⟨rfl, hl.symm, by rw [hl]; exact hd⟩
      · exact ⟨_, _, _, a0, hn⟩
      · exact ⟨_, _, _, a1, hn⟩)
    (by rw [hl]; exact G.dims) (lit "untitled_zone") zj
  have vin : ∀ (j y n : Nat), (varsOf P.setUp)[j]? = some (y, n) → (y = 0 ∧ n < P.nx) ∨ (y = 1 ∧ n < P.nu) := by
    have key : ∀ ss : List SetUp, (∀ s ∈ ss, (∃ d < P.D, s = .dims 0 P.D d) ∨ (∃ n < P.nx, s = .data 0 n) ∨ ∃ n < P.nu, s = .data 1 n) →
        ∀ c ∈ varsOf ss, (c.1 = 0 ∧ c.2 < P.nx) ∨ (c.1 = 1 ∧ c.2 < P.nu) := by
      intro ss
      induction ss with
      | nil => intro _ c hc; cases hc
      | cons s ss ih =>
        intro h c hc
        have h' := ih fun s hs => h s (List.mem_cons_of_mem _ hs)
        rcases h s List.mem_cons_self with ⟨d, hd, rfl⟩ | ⟨n, hn, rfl⟩ | ⟨n, hn, rfl⟩
        · exact h' c hc
        · rcases List.mem_cons.1 hc with rfl | hc
          · exact .inl ⟨rfl, hn⟩
          · exact h' c hc
        · rcases List.mem_cons.1 hc with rfl | hc
          · exact .inr ⟨rfl, hn⟩
          · exact h' c hc
    intro j y n hj
    exact key _ G.setUp (y, n) (List.mem_of_getElem? hj)
  -- the loop
  have R0 : Reach (fun _ _ => true) chk w2 (withVals aw (valsOf aw)) := by rw [withVals_valsOf]; exact R2
  have nothing : ∀ xs : List Int, (fun y n => valsOf aw (y, n, xs)) = fun _ _ => none := by
    intro xs
    funext y n
    rw [← haw]
    simp only [valsOf, AWorld.set, AWorld.init]
    split
    · rename_i k es' val h
      by_cases h1 : y = 1
      · rw [if_pos h1] at h; cases h; rfl
      · rw [if_neg h1] at h
        by_cases h0 : y = 0
        · rw [if_pos h0] at h; cases h; rfl
        · rw [if_neg h0] at h; cases h
    · rfl
  choose o ho1 ho2 using G.out
  obtain ⟨w3, σ, r, R3, g1, -⟩ := point_loop R0 (x := 0) (ts := List.replicate P.D .ALL) (body := P.body) a0 (by simp [hl])
    (by
      intro c hc
      obtain ⟨k, h1, h2, h3⟩ := comp c.1 c.2 (G.comps c hc)
      refine ⟨k, es, _, h1, ?_, h3, ?_⟩
      · intro l h; rw [h2] at h; exact List.eq_of_mem_replicate h
      · intro xs h; rw [h2]; exact all_has hl h)
    (by simpa using G.idx) o (fun xs _ => by rw [nothing]; exact ho1 xs)
  have objs : w3.objs = w2.objs := C70_loops [pointLoop 0 (List.replicate P.D .ALL) P.body] (by rw [runLoops_cons r]; rfl)
  obtain ⟨f, z', he, hfz, hfv, hfp, hfn, hft, hfy, hfa, hzd, hzn, hzs, hza, hzsel⟩ := echo_any P strict z
  refine ⟨w3, z, f, ?_, he, ⟨_, R3⟩, ?_⟩
  · unfold Prog.main
    rw [M.bind_ok (onWorld_ok decls), M.bind_ok hz, onWorld_ok r]
  intro E echo enc s hs bytes room short used time hopen
  -- the file
  have path : cstr s.f.path = lit "./untitled_file.plt" := by
    unfold TecFile.path; rw [hs, hfp, hfn]; rfl
  have zf' : ZoneFor (mkShape es (List.replicate P.D .center)) z' := by
    have zf : ZoneFor (mkShape es (List.replicate P.D .center)) z := zf
    unfold ZoneFor at zf ⊢
    simpa only [hzsel] using zf
  have name : z'.ZoneName = lit "untitled_zone" := by rw [hzn, zr]; rfl
  have strand : z'.StrandId = -1 := by rw [hzs, zr]; rfl
  have aux : z'.Auxiliary = [] := by rw [hza, zr]; rfl
  have dlen : z'.Data.length = Fs.length := by rw [hzd, va.1, G.count]
  have nlen : P.names.length = Fs.length := G.names
  have few := G.few
  -- the functions
  let F : Nat → List Int → V := fun j => Fs.getD j (Fs.getD 0 (Fs[0]'few.1))
  have hF : ∀ (j : Nat) (G : List Int → V), Fs[j]? = some G → F j = G := by
    intro j G h; simp only [F, List.getD_eq_getElem?_getD, h, Option.getD_some]
  have fill : Filled aw (withVals aw σ) es (List.replicate P.D .center) (varsOf P.setUp) F := by
    intro j y n hj
    obtain ⟨k, h1, h2, h3⟩ := comp y n (vin j y n hj)
    refine ⟨k, _, _, h1, withVals_arr h1, h2, h3, fun p hpt => ?_⟩
    have hj' : j < Fs.length := by rw [← G.count]; exact (List.getElem?_eq_some_iff.1 hj).1
    rw [g1 p (block_tags hl hpt) y n, ho2 p j y n hj _ (List.getElem?_eq_getElem hj'), hF j _ (List.getElem?_eq_getElem hj')]
  have one : OneZone s.f z' := by
    refine ⟨by rw [hs, hfz], ?_, by rw [hs, hfv, dlen, nlen]⟩
    rw [hs, hfv]; intro e; rw [e] at nlen; simp at nlen; omega
  have brief : s.f.Brief E := by
    rw [hs]
    refine ⟨short, by rw [hfz]; simp, used, time, by rw [hfn]; decide, by rw [hfp]; decide, by rw [hft]; decide, by rw [hfy]; decide,
      by rw [hfv]; exact G.short, (by rw [hfa]; intro e he; cases he), ?_⟩
    intro y hy
    rw [hfz] at hy
    obtain rfl : y = _ := List.mem_singleton.1 hy
    refine ⟨by rw [name]; decide, by rw [strand]; decide, by rw [aux]; intro e he; cases he⟩
  have texts : FileTexts s.f := by
    rw [hs]
    refine ⟨by rw [hfy]; decide, by rw [hft]; decide, by rw [hfv]; omega, by rw [hfv]; exact G.clean, ?_, by rw [hfa]; intro e he; cases he⟩
    intro y hy
    rw [hfz] at hy
    obtain rfl : y = _ := List.mem_singleton.1 hy
    refine ⟨by rw [name]; decide, by rw [strand]; decide, by rw [aux]; intro e he; cases he⟩
  have va' : VarsAre chk w2 .double 8 (varsOf P.setUp) z'.Data := by rw [hzd]; exact va
  have sizes : ∀ d ∈ z'.Data, d.size = 8 := by
    intro d hd
    obtain ⟨j, hj⟩ := List.getElem?_of_mem hd
    have hj' : j < (varsOf P.setUp).length := by rw [← va'.1]; exact (List.getElem?_eq_some_iff.1 hj).1
    obtain ⟨p, -, h⟩ := va'.2 j _ _ (List.getElem?_eq_getElem hj')
    rw [hj] at h; cases h; rfl
  have hls : es.length = (List.replicate P.D Loc.center).length := by simp [hl]
  have selLen : (selection (z'.sel 0) (z'.sel 1) (z'.sel 2)).length ≤ points (mkShape es (List.replicate P.D .center)) := by
    have := congrArg List.length (selection_block zf')
    rw [List.length_map, List.length_map, mkShape_map hls] at this
    rw [this]
    exact block_le hls
  have length : s.f.lengthOf Zone.selectedPoints < 9223372036854775808 := by
    rw [hs]
    unfold TecFile.lengthOf
    rw [hfz, hfv, hft, hfa]
    simp only [List.map_cons, List.map_nil, List.sum_cons, List.sum_nil]
    have hd : Zone.dataLen z' (selection (z'.sel 0) (z'.sel 1) (z'.sel 2)).length ≤ 200 + 40 * points (mkShape es (List.replicate P.D .center)) := by
      unfold Zone.dataLen
      have : (z'.Data.map fun d => (selection (z'.sel 0) (z'.sel 1) (z'.sel 2)).length * d.size) =
          List.replicate Fs.length ((selection (z'.sel 0) (z'.sel 1) (z'.sel 2)).length * 8) := by
        rw [List.eq_replicate_iff]
        refine ⟨by rw [List.length_map, dlen], ?_⟩
        intro b hb
        obtain ⟨d, hd, rfl⟩ := List.mem_map.1 hb
        rw [sizes d hd]
      rw [this, dlen, List.sum_replicate_nat]
      have : Fs.length * ((selection (z'.sel 0) (z'.sel 1) (z'.sel 2)).length * 8) ≤ 5 * (points (mkShape es (List.replicate P.D .center)) * 8) :=
        Nat.mul_le_mul few.2 (Nat.mul_le_mul_right _ selLen)
      omega
    have hh : Zone.headLen z' = 112 := by
      unfold Zone.headLen
      rw [name, aux]; rfl
    have ht : textLen (lit "untitled") = 36 := rfl
    have ha : auxLen [] = 0 := rfl
    have := G.text
    have hd' : z'.dataLen (Zone.selectedPoints z') ≤ _ := hd
    rw [hh, ht, ha]
    omega
  have pts : points (mkShape es (List.replicate P.D .center)) ≤ 2147483647 := by omega
  rcases C70 (E := E) echo R2 R3 objs zf' (T := .double) (t := .double) hT va' fill pos pts one bytes brief texts length
    (by rw [path]; exact hopen) with ⟨s', c, b, k1, k2, k3, k4, k5⟩ | ⟨⟨k, n, hk⟩, -⟩
  swap
  · rw [room k n] at hk; cases hk
  rw [path] at k2
  refine ⟨s', c, _, b, k1, k2, k3, ?_, ?_, ?_⟩
  · show s.f.Variables = _; rw [hs, hfv]
  · apply List.ext_getElem?
    intro j
    rw [List.getElem?_map]
    by_cases hj : j < Fs.length
    · rw [k5 j (by rw [G.count]; exact hj), List.getElem?_eq_getElem hj, Option.map_some, hF j _ (List.getElem?_eq_getElem hj)]
    · rw [List.getElem?_eq_none (by rw [k4, G.count]; omega), List.getElem?_eq_none (by omega)]
      rfl
  -- loading
  intro C cd junk' fs hfs m fr mroom
  have pos' : ∀ e ∈ es.map (fun e => (⟨0, e.i, 0⟩ : Ext)), 1 ≤ e.i := by
    intro e he
    obtain ⟨e', h', rfl⟩ := List.mem_map.1 he
    exact pos e' h'
  have hp' : 5 * points (mkShape (es.map fun e => (⟨0, e.i, 0⟩ : Ext)) (List.replicate P.D .center)) < 4294967296 := by
    have := inner_le (es := es) (ls := List.replicate P.D .center)
    omega
  have hl' : (es.map fun e => (⟨0, e.i, 0⟩ : Ext)).length = P.D := by rw [List.length_map, hl]
  obtain ⟨w4, n4, e4, R4⟩ := make_any R3 (x := 2) junk' (es := es.map fun e => (⟨0, e.i, 0⟩ : Ext)) (by simp only [withVals, a2]) G.dim hl'
    (by rw [nlen]; exact few.1 : 0 < P.names.length) (by rw [nlen]; exact few.2) pos' hp'
  have hmap : (es.map fun e => (⟨0, e.i, 0⟩ : Ext)).map (·.i) = es.map (·.i) := by rw [List.map_map]; rfl
  have hvars : s.f.Variables = P.names := by rw [hs, hfv]
  have st := export_stored (T := .double) R2 R3 objs zf' hT va' fill pos pts one bytes brief length k1 (.inr rfl)
  obtain ⟨L4, Q4⟩ := R4.rel
  have hfs' : fs (cstr s.f.path) = s'.fs (cstr s.f.path) := by rw [path, hfs, k2]
  obtain ⟨w', m', val', q1, q2, q3, q4, -⟩ := st.vars cd chk Q4
    (x := 2) (k := P.kind P.names.length) (es₂ := es.map fun e => (⟨0, e.i, 0⟩ : Ext)) (val := fun _ _ => none)
    (by simp only [AWorld.set, if_pos]; rfl) (by rw [hmap]; exact List.forall₂_same.2 fun _ _ => Nat.le_refl _) P.names.zipIdx
    (by
      intro v hv
      obtain ⟨v, i⟩ := v
      have := List.mem_zipIdx_iff_getElem?.1 hv
      rw [hvars]
      exact ⟨List.mem_of_getElem? this, (List.getElem?_eq_some_iff.1 this).1⟩)
    (by rw [zipIdx_snd]; exact List.nodup_range) fr (fun k => mroom k _) (fs := fs) hfs'
  rw [hs, hfp] at q1
  refine ⟨w', m', ?_, q2.1, ?_, hK _ _ _ _ _ _ ⟨fun c hc => ?_, fun k n => by rw [q2.2.1]; exact mroom k n,
    ⟨E, echo, s, s', enc, F, st, rfl, by rw [hs, hfp], by rw [hs, hfn], hvars, cd, hF, hfs'⟩, ⟨_, L4, val', q3, by simp only [AWorld.set, if_pos]⟩⟩⟩
  · unfold Prog.load Prog.kind
    have : onArrays (S := Heap Byte) (runOps chk [.makeSized 2 ⟨P.names.length, List.replicate P.D .center⟩ junk' (es.map fun e => (⟨0, e.i, 0⟩ : Ext))]) (w3, m) =
        .ok () (w4, m) := by
      unfold onArrays
      simp only
      rw [runOps_cons e4]; rfl
    rw [M.bind_ok this]
    exact q1
  · intro j Fj hj p hpt c
    have hjl : j < P.names.length := by rw [nlen]; exact (List.getElem?_eq_some_iff.1 hj).1
    have hb : HasPt (mkShape (es.map fun e => (⟨0, e.i, 0⟩ : Ext)) (List.replicate P.D .center)) p :=
      blockPts_has (by simp [hl]) (by rw [hmap]; exact hpt)
    have hpl : p.length = P.D := by rw [hasPt_length hb, mkShape_len (by simp [hl])]; simp
    have hpc : point p (List.replicate es.length .C) = p := by rw [hl, ← hpl]; exact point_center p
    have hval : Valid (P.kind P.names.length) (es.map fun e => (⟨0, e.i, 0⟩ : Ext)) j p (List.replicate es.length .C) :=
      ⟨by rw [hpl]; simp [Prog.kind], hjl, by
        rw [hl]
        have := flags_center (ls := List.replicate P.D Loc.center) fun l h => List.eq_of_mem_replicate h
        rw [List.length_replicate] at this
        exact this, by rw [hpc]; exact hb⟩
    rw [q3.read c (val := val') (by simp only [AWorld.set, if_pos]) hval, hpc]
    have hq := q4 (P.names[j], j) (List.mem_zipIdx_iff_getElem?.2 (List.getElem?_eq_getElem hjl)) j
        (by rw [hvars]; exact idxOf_nodup G.diff (List.getElem?_eq_getElem hjl)) p hpt
    simp only at hq
    rw [hq, hF j _ hj]
    rfl
  · rw [q2.1]; exact fr c (Nat.le_trans q2.2.2 hc)

theorem good_saves {P : Prog V} {Fs : List (List Int → V)} (G : Good P Fs) {es : List Ext} (hl : es.length = P.D) (pos : ∀ e ∈ es, 1 ≤ e.i)
    (hp : 5 * points (mkShape es (List.replicate P.D .center)) < 4294967296) : Saves P es Fs :=
  good_saves_then G hl pos hp fun _ _ _ _ _ _ _ => trivial

end Verif
