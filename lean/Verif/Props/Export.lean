import Verif.Proof.Export4
/-!
# C69, C70: arrays in a Tecplot file
-/
set_option linter.unusedSimpArgs false
namespace Verif.Props
open Spec Tec
variable {V : Type} {mem : Nat → Nat → Bool} {chk : Bool} {w w₀ w₁ : World V} {aw aw₀ aw₁ : AWorld V}

/-- C69: describing arrays to a zone, as the programs do.  In any reachable state, for an allocated array `x` without
half-located dimensions: the assignments `Max_C(D, d) = x.size().size(d, RA::ALL)`, `Begin_C(D, d) = … RA::N`,
`End_C(D, d) = … RA::P` for all dimensions `d`, in any order and mixed with any number of
`Data.push_back(TEC_DATA(y.data_pt(n)))` for existing components of allocated arrays, run through, leave the arrays alone, select
exactly the interior of `x` with the last index along the first dimension of the file, and make the variables of
the zone those components in the order of the calls; everything else of the zone stays as it was constructed. -/
theorem C69 (R : Reach mem chk w aw) {x : Nat} {k : Kind} {es : List Ext} {val : Nat → List Int → Option V}
    (hx : aw.arr x = some (k, .ready es val)) (hc : ∀ l ∈ k.locs, l = .center) {T : Pointee} {t : TecType} (hT : (T.type, t) ∈ tecTypes)
    (hv : T.volatile = false) (ss : List SetUp) (ok : ∀ s ∈ ss, SetUp.Ok aw x es.length s) (all : ∀ d < es.length, SetUp.dims x es.length d ∈ ss)
    (name : Str) (junk : Int) :
    ∃ z, runSetUp chk T ss (w, Zone.new name junk) = .ok () (w, z) ∧ ZoneFor (mkShape es k.locs) z ∧
      VarsAre chk w t T.type.size (varsOf ss) z.Data ∧
      z = { Zone.new name junk with Max := z.Max, Begin := z.Begin, End := z.End, Data := z.Data } := by
  obtain ⟨L, Q⟩ := R.rel
  obtain ⟨hlen, h0, h3, -⟩ := Q.rank hx
  obtain ⟨N, locs⟩ := k
  simp only at hlen
  obtain ⟨z, ds, r, h1, h2, h4, h5, h6⟩ := setUp_run (chk := chk) Q hx h3 hT hv ss ok (Zone.new name junk)
  refine ⟨z, r, ?_, by rw [h1]; exact h2, h6⟩
  have hs : ∀ (d : Nat) (e : Ext) (l : Loc), es[d]? = some e → l ∈ locs → z.sel (es.length - 1 - d) = interiorSel ⟨e, l⟩ := by
    intro d e l he hl
    have hd : d < es.length := (List.getElem?_eq_some_iff.1 he).1
    rw [h4 d e he (all d hd), hc l hl]
    have : ((Zone.new name junk).sel (es.length - 1 - d)).skip = 1 := by
      generalize es.length - 1 - d = i
      match i with
      | 0 => rfl
      | 1 => rfl
      | _ + 2 => rfl
    rw [this]
    rfl
  have hu : ∀ i < 3, es.length ≤ i → z.sel i = unitSel := by
    intro i hi hle
    rw [h5 i hi (fun d hd _ => by omega)]
    match i, hi with
    | 0, _ => rfl
    | 1, _ => rfl
    | 2, _ => rfl
  match es, locs, hlen, h0 with
  | [e0], [l0], _, _ => exact ⟨hs 0 e0 l0 rfl (by simp), hu 1 (by decide) (by simp), hu 2 (by decide) (by simp)⟩
  | [e0, e1], [l0, l1], _, _ => exact ⟨hs 1 e1 l1 rfl (by simp), hs 0 e0 l0 rfl (by simp), hu 2 (by decide) (by simp)⟩
  | [e0, e1, e2], [l0, l1, l2], _, _ => exact ⟨hs 2 e2 l2 rfl (by simp), hs 1 e1 l1 rfl (by simp), hs 0 e0 l0 rfl (by simp)⟩

/-- C70: arrays described to a zone (C69) in a reachable state, then filled by any statements that keep the objects (all
loops do: C70_loops), then written.  If the interior of every variable is assigned, the arrays have points in every
dimension and at most 2³¹ - 1 points per component, and the texts fit: `write_plt` returns, or throws for lack of memory.  When
it returns, the file is a file of the format; its only zone holds, variable by variable, exactly the numbers of the
interior points, the last index fastest. -/
theorem C70 {E : Env} (echo : Bool) {s : FSt} (R₀ : Reach mem chk w₀ aw₀) (R₁ : Reach mem chk w₁ aw₁) (same : w₁.objs = w₀.objs)
    {es : List Ext} {locs : List Loc} {z : Zone} (hz : ZoneFor (mkShape es locs) z) {T : CType} {t : TecType} (hT : (T, t) ∈ tecTypes)
    {vs : List (Nat × Nat)} (hv : VarsAre chk w₀ t T.size vs z.Data) {F : Nat → List Int → V} (fill : Filled aw₀ aw₁ es locs vs F)
    (pos : ∀ e ∈ es, 1 ≤ e.i) (pts : points (mkShape es locs) ≤ 2147483647)
    (one : OneZone s.f z) {enc : V → Str} (bytes : ByteView T.size enc w₁.h s.h)
    (brief : s.f.Brief E) (texts : FileTexts s.f) (len : s.f.lengthOf Zone.selectedPoints < 9223372036854775808)
    (ho : E.canOpen (cstr s.f.path) = true) :
    (∃ s' c b, TecFile.write_plt E echo s = .ok () s' ∧ s'.fs (cstr s.f.path) = some c ∧
      readWhole c = some (headOf s.f (fun z => ((z.sel 0).picks.length, (z.sel 1).picks.length, (z.sel 2).picks.length)), [b]) ∧
      FileHolds enc es vs F b) ∨
    ((∃ k n, s.h.mem k n = false) ∧ ∃ t, TecFile.write_plt E echo s = .err (.text (lit "maybe out of memory: std::bad_alloc")) t) := by
  obtain ⟨data, wr, valid, typed, hlen, hdata⟩ := export_ready (E := E) R₀ R₁ same hz hT hv fill pos pts one bytes brief len
  rcases C50 E echo s (fun _ => data) wr valid ho with ⟨s', r⟩ | oom
  · left
    obtain ⟨c, B, f1, f2, f3, f4⟩ := C60 wr.ready texts typed r
    obtain ⟨b, hb, body⟩ := f4 0 z (by rw [one.zones]; rfl)
    have eB : B = [b] := by
      rw [one.zones] at f3
      match B, f3 with
      | [b'], _ => cases hb; rfl
    refine ⟨s', c, b, r, f1, by rw [f2, eB], by rw [body.values, hv.1], ?_⟩
    intro j hj
    obtain ⟨p, h, -, -, hv'⟩ := hdata j vs[j].1 vs[j].2 (List.getElem?_eq_getElem hj)
    rw [body.value j _ h]
    congr 1
    have key : ∀ f : Int → Nat, (selection (z.sel 0) (z.sel 1) (z.sel 2)).map (fun p => f (place (z.sel 0) (z.sel 1) p)) =
        (blockPts (es.map fun e => e.i)).map fun p => f (offset (mkShape es locs) p : Nat) := by
      intro f
      have := congrArg (List.map f) (selection_block hz)
      rw [List.map_map, List.map_map, mkShape_map hlen] at this
      exact this
    rw [key fun o => little (item T.size (data j) o)]
    exact List.map_congr_left fun q hq => by rw [hv' q hq]
  · exact .inr oom

/-- loops of user programs keep the objects: pointers taken before them stay those of the arrays -/
theorem C70_loops (ls : List (Loop V)) (h : runLoops chk ls w = .ok () w₁) : w₁.objs = w.objs := SameObjs.loops ls _ _ _ h

/-! ## The hypotheses can hold -/

/-- the bytes of a memory; unassigned elements are zeros -/
def heapBytes (size : Nat) (enc : V → Str) (mem' : Nat → Nat → Bool) (h : Heap V) : Heap Byte where
  blk B := match h.blk B with
    | none => none
    | some (.vals len c) => some (.vals (len * size) fun i => some ((((c (i / size)).map enc).getD []).getD (i % size) 0))
    | some (.ptrs len c) => some (.ptrs len c)
  next := h.next
  mem := mem'

/-- every reachable state has a memory of bytes, if all numbers have as many bytes -/
theorem byteView_exists (R : Reach mem chk w aw) {size : Nat} {enc : V → Str} (h : ∀ v, (enc v).length = size) (mem' : Nat → Nat → Bool) :
    ByteView size enc w.h (heapBytes size enc mem' w.h) := by
  obtain ⟨L, Q⟩ := R.rel
  refine ⟨?_, ?_⟩
  · intro c hc
    have : w.h.blk c = none := by
      cases e : w.h.blk c with
      | none => rfl
      | some x =>
        have := Q.lt c (by rw [e]; rfl)
        simp only [heapBytes] at hc
        omega
    simp only [heapBytes, this]
  · intro B len c hb
    refine ⟨fun i => (((c (i / size)).map enc).getD []).getD (i % size) 0, by simp only [heapBytes, hb], ?_⟩
    intro i hi v hv
    apply List.ext_getElem
    · rw [window_length, h]
    · intro j hj hj'
      rw [window_length] at hj
      have e1 : (i * size + j) / size = i := by rw [Nat.mul_comm, Nat.mul_add_div (by omega), Nat.div_eq_of_lt hj, Nat.add_zero]
      have e2 : (i * size + j) % size = j := by rw [Nat.mul_comm, Nat.mul_add_mod, Nat.mod_eq_of_lt hj]
      simp only [window, List.getElem_map, List.getElem_range', Nat.one_mul, e1, e2, hv, Option.map_some, Option.getD_some]
      rw [List.getD_eq_getElem?_getD, List.getElem?_eq_getElem hj']
      rfl

/-! ## What is wrong: half-located dimensions -/

/-- an array of 2 × 2 interior points whose second dimension is half-located, so that its rows have three elements -/
def halfOps : List (Op Int) := [.makeSized 0 ⟨1, [.center, .half]⟩ (fun _ => .null) [⟨0, 2, 0⟩, ⟨0, 2, 0⟩]]

/-- the positions in the array the zone selects, after the set-up -/
def halfPlaces : Option (List Int) :=
  match (do onWorld (runOps true halfOps); runSetUp true ⟨.double, false, false⟩ [.dims 0 2 0, .dims 0 2 1, .data 0 0])
    ((World.init fun _ _ => true : World Int), Zone.new (lit "zone") 0) with
  | .ok _ (_, z) => some ((selection (z.sel 0) (z.sel 1) (z.sel 2)).map (place (z.sel 0) (z.sel 1)))
  | _ => none

/-- C69 (what is wrong): the idiom does not work for half-located dimensions, since `size(d, RA::ALL)` does not count the additional
point.  The positions written are not those of the interior points. -/
theorem C69_half : halfPlaces = some [0, 1, 2, 3] ∧
    (blockPts [2, 2]).map (fun p => offset (mkShape [⟨0, 2, 0⟩, ⟨0, 2, 0⟩] [.center, .half]) p) = [0, 1, 3, 4] := by
  refine ⟨by decide +kernel, by decide +kernel⟩

end Verif.Props
