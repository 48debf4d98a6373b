import Verif.Spec.Export
import Verif.Spec.RoundTrip
import Verif.Proof.Client1
import Verif.Props.TecData
/-!
# Describing arrays to a Tecplot file: the set-up
-/
set_option linter.unusedSimpArgs false
namespace Verif
open Spec Tec
variable {V : Type} {mem : Nat → Nat → Bool} {chk : Bool} {w : World V} {aw : AWorld V} {L : List Nat}

/-- the number of points in a zone of an array -/
def tagCount (e : Ext) (t : RA) : Nat := (tagEnd e.i e.p t - tagBegin e.n e.i t).toNat

theorem Obj.extent_eq (chk : Bool) {o : Obj} {es : List Ext} (s : Sized o es) {d : Nat} {e : Ext} (he : es[d]? = some e) (t : RA) :
    o.extent chk d t = .ok (tagCount e t) := by
  cases s with
  | @d1 o e0 h h0 =>
    match d, he with
    | 0, he => cases he; simp only [Obj.extent, h]; exact (D1.sz_acc_0 chk _ h0 t).2.2.1
  | @d2 o e0 e1 h h0 h1 =>
    match d, he with
    | 0, he => cases he; simp only [Obj.extent, h]; exact (D2.sz_acc_0 chk _ _ h0 t).2.2.1
    | 1, he => cases he; simp only [Obj.extent, h]; exact (D2.sz_acc_1 chk _ _ h1 t).2.2.1
  | @d3 o e0 e1 e2 h h0 h1 h2 =>
    match d, he with
    | 0, he => cases he; simp only [Obj.extent, h]; exact (D3.sz_acc_0 chk _ _ _ h0 t).2.2.1
    | 1, he => cases he; simp only [Obj.extent, h]; exact (D3.sz_acc_1 chk _ _ _ h1 t).2.2.1
    | 2, he => cases he; simp only [Obj.extent, h]; exact (D3.sz_acc_2 chk _ _ _ h2 t).2.2.1

theorem mkShape_mem {es : List Ext} {ls : List Loc} (hl : es.length = ls.length) {e : Ext} (he : e ∈ es) : ∃ l, Dim.mk e l ∈ mkShape es ls := by
  induction es generalizing ls with
  | nil => cases he
  | cons a es ih =>
    cases ls with
    | nil => simp at hl
    | cons l ls =>
      rcases List.mem_cons.1 he with rfl | he
      · exact ⟨l, by simp [mkShape]⟩
      · obtain ⟨l', h'⟩ := ih (by simpa using hl) he
        exact ⟨l', by simp [mkShape, h']⟩

theorem Rel.ext_fits (R : Rel mem w aw L) {x : Nat} {k : Kind} {es : List Ext} {val : Nat → List Int → Option V}
    (hx : aw.arr x = some (k, .ready es val)) {e : Ext} (he : e ∈ es) : e.Fits := by
  obtain ⟨o, ho, hk, h0, r⟩ := R.arr_some hx
  cases r with
  | ready r fits pos vals =>
    obtain ⟨l, hl⟩ := mkShape_mem r.len he
    exact fitsExt fits hl

theorem extent_run (R : Rel mem w aw L) {x : Nat} {k : Kind} {es : List Ext} {val : Nat → List Int → Option V}
    (hx : aw.arr x = some (k, .ready es val)) {d : Nat} {e : Ext} (he : es[d]? = some e) (t : RA) :
    extentOf chk x d t w = .ok (tagCount e t : Int) w := by
  have hf := R.ext_fits hx (List.mem_of_getElem? he)
  obtain ⟨o, ho, hk, h0, r⟩ := R.arr_some hx
  cases r with
  | ready r fits pos vals =>
    unfold extentOf
    have : World.access x (fun _ o => (o.extent chk d t : M (Heap V) Nat)) w = .ok (tagCount e t) w := by
      simp only [World.access, ho, Obj.extent_eq chk (r.sized fits) he t, M.monadLift_eq, M.liftM_eq, M.lift_ok]
      rfl
    rw [M.bind_ok this]
    unfold Ext.Fits at hf
    rw [toI32_of_lt (by cases t <;> simp only [tagCount, tagEnd, tagBegin] <;> omega)]
    rfl

theorem onWorld_ok {α : Type} {m : M (World V) α} {z : Zone} {a : α} {w' : World V} (h : m w = .ok a w') : onWorld m (w, z) = .ok a (w', z) := by
  simp only [onWorld, h]

theorem onZone_ok {α : Type} {m : M Zone α} {z z' : Zone} {a : α} (h : m z = .ok a z') : onZone m (w, z) = .ok a (w, z') := by
  simp only [onZone, h]

/-- the zone after the three assignments for one dimension -/
def Zone.described (z : Zone) (i : Nat) (a b e : Int) : Zone :=
  { z with Max := z.Max.set i a, Begin := z.Begin.set i b, End := z.End.set i e }

theorem described_sel (z : Zone) {i j : Nat} (hi : i < 3) (hj : j < 3) (a b e : Int) :
    (Zone.described z j a b e).sel i = if i = j then ⟨a, (z.sel i).skip, b, e⟩ else z.sel i := by
  match i, j, hi, hj with
  | 0, 0, _, _ => rfl
  | 0, 1, _, _ => rfl
  | 0, 2, _, _ => rfl
  | 1, 0, _, _ => rfl
  | 1, 1, _, _ => rfl
  | 1, 2, _, _ => rfl
  | 2, 0, _, _ => rfl
  | 2, 1, _, _ => rfl
  | 2, 2, _, _ => rfl

theorem dims_run (R : Rel mem w aw L) {x : Nat} {k : Kind} {es : List Ext} {val : Nat → List Int → Option V}
    (hx : aw.arr x = some (k, .ready es val)) {D d : Nat} {e : Ext} (he : es[d]? = some e) (hD : D ≤ 3) (hd : d < D) (T : Pointee) (z : Zone) :
    (SetUp.dims x D d).exec chk T (w, z) = .ok () (w, Zone.described z (D - 1 - d) (e.n + e.i + e.p : Nat) e.n e.p) := by
  have c1 : tagCount e .ALL = e.n + e.i + e.p := by simp only [tagCount, tagEnd, tagBegin]; omega
  have c2 : tagCount e .N = e.n := by simp only [tagCount, tagEnd, tagBegin]; omega
  have c3 : tagCount e .P = e.p := by simp only [tagCount, tagEnd, tagBegin]; omega
  have m : ∀ z v, Zone.setMax_C D d v z = .ok () { z with Max := z.Max.set (D - 1 - d) v } := by
    intro z v; unfold Zone.setMax_C; rw [Props.rowIndex_ok hD hd]; rfl
  have b : ∀ z v, Zone.setBegin_C D d v z = .ok () { z with Begin := z.Begin.set (D - 1 - d) v } := by
    intro z v; unfold Zone.setBegin_C; rw [Props.rowIndex_ok hD hd]; rfl
  have n : ∀ z v, Zone.setEnd_C D d v z = .ok () { z with End := z.End.set (D - 1 - d) v } := by
    intro z v; unfold Zone.setEnd_C; rw [Props.rowIndex_ok hD hd]; rfl
  simp only [SetUp.exec]
  rw [M.bind_ok (onWorld_ok (extent_run R hx he .ALL)), M.bind_ok (onZone_ok (m _ _)), M.bind_ok (onWorld_ok (extent_run R hx he .N)),
    M.bind_ok (onZone_ok (b _ _)), M.bind_ok (onWorld_ok (extent_run R hx he .P)), onZone_ok (n _ _), c1, c2, c3]
  rfl

theorem data_run (R : Rel mem w aw L) {y n : Nat} {k : Kind} {es : List Ext} {val : Nat → List Int → Option V}
    (hy : aw.arr y = some (k, .ready es val)) (hn : n < k.N) {T : Pointee} {t : TecType} (hT : (T.type, t) ∈ Props.tecTypes) (hv : T.volatile = false)
    (z : Zone) : ∃ p, IsDataPt chk w T.type.size y n p ∧
    (SetUp.data y n).exec chk T (w, z) = .ok () (w, { z with Data := z.Data ++ [{ type := t, size := T.type.size, DataP := p, buf := .null }] }) := by
  obtain ⟨o, B, cell, ho, -, -, h1, -⟩ := R.addr hy
  refine ⟨_, ⟨k, o, _, ho, h1 n hn chk, rfl⟩, ?_⟩
  simp only [SetUp.exec]
  have : World.access y (fun k o => o.data_pt chk k n) w = .ok (.at B (n * points (mkShape es k.locs))) w := by
    simp only [World.access, ho, h1 n hn chk]
  rw [M.bind_ok (onWorld_ok this), (Props.C61 _ hT hv).1, M.lift_ok, pure_bind]
  rfl

theorem VarsAre.cons {t : TecType} {size y n : Nat} {vs : List (Nat × Nat)} {ds : List TecData} {p : Ptr} (hp : IsDataPt chk w size y n p)
    (h : VarsAre chk w t size vs ds) : VarsAre chk w t size ((y, n) :: vs) ({ type := t, size := size, DataP := p, buf := .null } :: ds) := by
  refine ⟨by simp [h.1], fun j y' n' hj => ?_⟩
  cases j with
  | zero => cases hj; exact ⟨p, hp, rfl⟩
  | succ j => exact h.2 j y' n' hj

theorem setUp_run (R : Rel mem w aw L) {x : Nat} {k : Kind} {es : List Ext} {val : Nat → List Int → Option V}
    (hx : aw.arr x = some (k, .ready es val)) (hD : es.length ≤ 3) {T : Pointee} {t : TecType} (hT : (T.type, t) ∈ Props.tecTypes)
    (hv : T.volatile = false) (ss : List SetUp) (ok : ∀ s ∈ ss, SetUp.Ok aw x es.length s) (z : Zone) :
    ∃ z' ds, runSetUp chk T ss (w, z) = .ok () (w, z') ∧ z'.Data = z.Data ++ ds ∧ VarsAre chk w t T.type.size (varsOf ss) ds ∧
      (∀ d e, es[d]? = some e → SetUp.dims x es.length d ∈ ss →
        z'.sel (es.length - 1 - d) = ⟨(e.n + e.i + e.p : Nat), (z.sel (es.length - 1 - d)).skip, e.n, e.p⟩) ∧
      (∀ i < 3, (∀ d < es.length, SetUp.dims x es.length d ∈ ss → i ≠ es.length - 1 - d) → z'.sel i = z.sel i) ∧
      z' = { z with Max := z'.Max, Begin := z'.Begin, End := z'.End, Data := z'.Data } := by
  induction ss generalizing z with
  | nil => exact ⟨z, [], rfl, by simp, ⟨rfl, fun j y n h => by simp [varsOf] at h⟩, fun _ _ _ h => by simp at h, fun _ _ _ => rfl, rfl⟩
  | cons s ss ih =>
    have hs := ok s (by simp)
    have hss : ∀ s ∈ ss, SetUp.Ok aw x es.length s := fun s h => ok s (by simp [h])
    cases s with
    | data y n =>
      obtain ⟨k', es', val', hy, hn⟩ := hs
      obtain ⟨p, hp, e⟩ := data_run (chk := chk) R hy hn hT hv z
      obtain ⟨z', ds, r, h1, h2, h3, h4, h5⟩ := ih hss { z with Data := z.Data ++ [{ type := t, size := T.type.size, DataP := p, buf := .null }] }
      refine ⟨z', _ :: ds, ?_, by rw [h1]; simp, VarsAre.cons hp h2, ?_, ?_, h5⟩
      · unfold runSetUp; rw [M.bind_ok e, r]
      · intro d e he hm
        rw [h3 d e he (by simpa using hm)]; rfl
      · intro i hi hm
        rw [h4 i hi (fun d hd h => hm d hd (by simp [h]))]; rfl
    | dims x' D d =>
      obtain ⟨rfl, rfl, hd⟩ := hs
      obtain ⟨e, he⟩ : ∃ e, es[d]? = some e := ⟨_, List.getElem?_eq_getElem hd⟩
      have r0 := dims_run (chk := chk) R hx he hD hd T z
      obtain ⟨z', ds, r, h1, h2, h3, h4, h5⟩ := ih hss (Zone.described z (es.length - 1 - d) (e.n + e.i + e.p : Nat) e.n e.p)
      refine ⟨z', ds, ?_, h1, h2, ?_, ?_, h5⟩
      · unfold runSetUp; rw [M.bind_ok r0, r]
      · intro d' e' he' hm
        have hd' : d' < es.length := (List.getElem?_eq_some_iff.1 he').1
        by_cases hin : SetUp.dims x' es.length d' ∈ ss
        · rw [h3 d' e' he' hin, described_sel _ (by omega) (by omega)]
          split <;> rfl
        · have : d' = d := by
            rcases List.mem_cons.1 hm with h | h
            · cases h; rfl
            · exact absurd h hin
          subst this
          rw [he] at he'; cases he'
          rw [h4 _ (by omega) (fun d'' hd'' h e => hin (by
            have : d'' = d' := by omega
            rw [← this]; exact h)), described_sel _ (by omega) (by omega), if_pos rfl]
      · intro i hi hm
        rw [h4 i hi (fun d hd h => hm d hd (by simp [h])), described_sel _ hi (by omega), if_neg (hm d hd (by simp))]

end Verif
