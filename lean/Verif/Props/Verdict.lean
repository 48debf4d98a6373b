import Verif.Proof.AllocAll2
import Verif.Props.LifecycleAll
/-!
# C07 and C11 for all `unsigned` arguments
-/
namespace Verif.Props
open Spec
variable {V : Type} {mem : Nat → Nat → Bool} {chk : Bool} {w : World V} {aw : AWorld V}

theorem call_ub {f : Kind → M (St V Obj) Unit} {x : Nat} {k : Kind} {o : Obj} {u : UB} (hb : w.objs x = some (k, o))
    (h : f k ⟨w.h, o⟩ = .ub u) : (do World.call x f; pure .unit : M (World V) (Ret V)) w = .ub u := by
  have : World.call x f w = .ub u := by unfold World.call; rw [hb]; simp only; rw [h]
  rw [M.bind_ub this]

/-- C07 for all `unsigned` arguments, in any build.  The specification `sizeVerdict` says which requests are refused: then
`realloc`, and `alloc` on an empty array, throw and nothing at all has changed.  Where it says undefined, both are
undefined; where it says passed, `realloc` on an empty array throws and changes nothing, and whatever `alloc`
throws on an empty array, it does not throw because of the sizes.  So a request with virtual points but without
interior is refused as the claim says exactly if `sizeVerdict` refuses it. -/
theorem C07_exact (R : Reach mem chk w aw) {x : Nat} {k : Kind} {a : AArr V} (hx : aw.arr x = some (k, a)) (c : Bool)
    (es : List Ext) (hl : es.length = k.locs.length) (hu : Unsigned es) :
    match sizeVerdict 0 es with
    | .refused d => exec c (.realloc x es) w = .err (.sizeIn d) w ∧ (a = .empty → exec c (.alloc x es) w = .err (.sizeIn d) w)
    | .undefined => (∃ u, exec c (.realloc x es) w = .ub u) ∧ (a = .empty → ∃ u, exec c (.alloc x es) w = .ub u)
    | .passed => a = .empty → exec c (.realloc x es) w = .err .isEmpty w ∧ ∀ e w', exec c (.alloc x es) w = .err e w' → e = .noMemory := by
  obtain ⟨L, R⟩ := R.rel
  obtain ⟨o, hb, hk, h0, r⟩ := R.arr_some hx
  have h1 := Obj.realloc_all c r.typed w.h hl hu
  have h2 : a = .empty → AllocAll Obj.data (sizeVerdict 0 es) (Obj.alloc c k es ⟨w.h, o⟩) ⟨w.h, o⟩ := by
    rintro rfl
    cases r with
    | empty e => exact Obj.alloc_all c e w.h hl hu
  cases hv : sizeVerdict 0 es with
  | refused d =>
    rw [hv] at h1
    exact ⟨call_err_same (f := fun k => Obj.realloc c k es) hb h1,
      fun ha => call_err_same (f := fun k => Obj.alloc c k es) hb ((h2 ha).refused d hv)⟩
  | undefined =>
    rw [hv] at h1
    exact ⟨⟨_, call_ub (f := fun k => Obj.realloc c k es) hb h1⟩,
      fun ha => ⟨_, call_ub (f := fun k => Obj.alloc c k es) hb ((h2 ha).undefined hv)⟩⟩
  | passed =>
    rw [hv] at h1
    intro ha
    refine ⟨?_, fun e w' he => ?_⟩
    · subst ha
      cases r with
      | empty e =>
        simp only at h1
        rw [M.bind_err (Obj.clear_empty _ e)] at h1
        exact call_err_same (f := fun k => Obj.realloc c k es) hb h1
    · have h3 := (h2 ha).passed hv
      change (do World.call x (fun k => Obj.alloc c k es); pure .unit : M (World V) (Ret V)) w = _ at he
      rw [M.bind_run] at he
      unfold World.call at he
      rw [hb] at he
      simp only at he
      cases hr : Obj.alloc c k es ⟨w.h, o⟩ with
      | ok u t => rw [hr] at he; cases he
      | err e' t => rw [hr] at he; cases he; exact h3.err _ _ hr
      | ub u => rw [hr] at he; cases he

/-- requests of all kinds: interior in every dimension or no point at all pass, virtual points without interior are refused;
but 2^32-1 and one virtual points pass, 2^30 and 2^30 are undefined, and only the second dimension is blamed -/
example : sizeVerdict 0 [⟨1, 5, 1⟩, ⟨0, 0, 0⟩] = .passed ∧ sizeVerdict 0 [⟨1, 5, 1⟩, ⟨0, 0, 3⟩] = .refused 1 ∧
    sizeVerdict 0 [⟨4294967295, 0, 1⟩] = .passed ∧ sizeVerdict 0 [⟨1073741824, 0, 1073741824⟩] = .undefined ∧
    sizeVerdict 0 [⟨4294967295, 0, 1⟩, ⟨1, 0, 0⟩] = .refused 1 ∧ Unsigned [⟨4294967295, 0, 1⟩, ⟨1, 0, 0⟩] := by decide

/-- the claim C07 makes about a request with virtual points but without interior is true exactly if `sizeVerdict` refuses it -/
theorem C07_exact_iff (R : Reach mem chk w aw) {x : Nat} {k : Kind} (hx : aw.arr x = some (k, .empty)) (c : Bool)
    (es : List Ext) (hl : es.length = k.locs.length) (hu : Unsigned es) :
    (∃ d, exec c (.alloc x es) w = .err (.sizeIn d) w) ↔ ∃ d, sizeVerdict 0 es = .refused d := by
  have h := C07_exact R hx c es hl hu
  constructor
  · rintro ⟨d, hd⟩
    cases hv : sizeVerdict 0 es with
    | refused d => exact ⟨d, rfl⟩
    | undefined => rw [hv] at h; obtain ⟨u, hu⟩ := h.2 rfl; rw [hd] at hu; cases hu
    | passed => rw [hv] at h; have := (h rfl).2 _ _ hd; cases this
  · rintro ⟨d, hd⟩
    rw [hd] at h
    exact ⟨d, h.2 rfl⟩

/-- within machine range the sizeVerdict is the claim -/
theorem C07_exact_fits (es : List Ext) (h : DimsFit es) (d : Nat) :
    (∀ n, sizeErrs d es = some (.sizeIn n) ↔ sizeVerdict d es = .refused n) ∧ (sizeErrs d es = none ↔ sizeVerdict d es = .passed) := by
  induction es generalizing d with
  | nil => simp [sizeErrs, sizeVerdict]
  | cons e es ih =>
    have he := h e (by simp)
    have ih := ih (fun e he => h e (by simp [he])) (d + 1)
    unfold sizeErrs sizeVerdict
    have ha : asInt e.n = e.n := by unfold asInt; rw [if_pos (by omega)]
    have hb : asInt e.p = e.p := by unfold asInt; rw [if_pos (by omega)]
    rw [ha, hb]
    by_cases hi : e.i = 0
    · rw [if_neg (show ¬ e.i ≠ 0 by simp [hi]), if_neg (show ¬ ((e.n : Int) + e.p < -2147483648 ∨ 2147483647 < (e.n : Int) + e.p) by omega)]
      by_cases hz : e.n + e.p = 0
      · rw [if_neg (by simp [hz]), if_neg (show ¬ (e.n : Int) + e.p ≠ 0 by omega)]; exact ih
      · rw [if_pos ⟨hi, hz⟩, if_pos (show (e.n : Int) + e.p ≠ 0 by omega)]
        exact ⟨fun n => by simp, by simp⟩
    · rw [if_neg (by simp [hi]), if_pos hi]; exact ih

example : DimsFit [⟨1, 5, 1⟩, ⟨0, 0, 3⟩] ∧ sizeErrs 0 [⟨1, 5, 1⟩, ⟨0, 0, 3⟩] = some (.sizeIn 1) := by
  refine ⟨?_, by decide⟩
  intro e he; simp at he; rcases he with rfl | rfl <;> decide

/-- C11 beyond machine range: if the elements asked for do not fit `unsigned`, the storage never has that many: whenever
`alloc` returns normally, the member `data` is null or points to fewer than 2^32 elements, hence not to as many as asked for. -/
theorem C11_never (R : Reach mem chk w aw) {x : Nat} {k : Kind} (hx : aw.arr x = some (k, .empty)) (c : Bool)
    (es : List Ext) (hl : es.length = k.locs.length) (hu : Unsigned es) (hp : 4294967296 ≤ k.N * points (mkShape es k.locs))
    {w' : World V} (hw : exec c (.alloc x es) w = .ok .unit w') :
    ¬ ∃ o B cell, w'.objs x = some (k, o) ∧ o.data = .at B 0 ∧ w'.h.blk B = some (.vals (k.N * points (mkShape es k.locs)) cell) := by
  obtain ⟨L, R⟩ := R.rel
  obtain ⟨o, hb, hk, h0, r⟩ := R.arr_some hx
  have em : ObjEmpty k o := by cases r with | empty e => exact e
  have h2 := Obj.alloc_all c em w.h hl hu
  have hd : o.data = .null := by
    cases em with
    | d1 e => exact e.data
    | d2 e => exact e.data
    | d3 e => exact e.data
  change (do World.call x (fun k => Obj.alloc c k es); pure .unit : M (World V) (Ret V)) w = _ at hw
  rw [M.bind_run] at hw
  unfold World.call at hw
  rw [hb] at hw
  simp only at hw
  rintro ⟨o', B, cell, g1, g2, g3⟩
  cases hr : Obj.alloc c k es ⟨w.h, o⟩ with
  | ok u t =>
    rw [hr] at hw; cases hw
    have ho : t.o = o' := by
      simp only [World.put, if_true] at g1
      cases g1; rfl
    have h3 : t = ⟨w.h, o⟩ ∨ Held Obj.data t := by
      cases hv : sizeVerdict 0 es with
      | refused d => have := h2.refused d hv; rw [hr] at this; cases this
      | undefined => have := h2.undefined hv; rw [hr] at this; cases this
      | passed => exact (h2.passed hv).ok _ hr
    rcases h3 with rfl | ⟨B', len, cell', q1, q2, q3, -⟩
    · rw [← ho, hd] at g2; cases g2
    · rw [ho, g2] at q1
      obtain ⟨rfl⟩ : B = B' := by injection q1
      change t.h.blk B = _ at g3
      rw [q2] at g3
      obtain ⟨rfl⟩ : len = k.N * points (mkShape es k.locs) := by injection g3 with g3; injection g3
      omega
  | err e t => rw [hr] at hw; cases hw
  | ub u => rw [hr] at hw; cases hw

/-- C11 with the points of every dimension in machine range: whenever `alloc` on an empty array returns normally for a shape that
has points, the array has got what was asked for exactly if all elements together fit `unsigned`. -/
theorem C11_exact (R : Reach mem chk w aw) {x : Nat} {k : Kind} (hx : aw.arr x = some (k, .empty))
    (es : List Ext) (hl : es.length = k.locs.length) (hd : DimsFit es) {w' : World V} (hw : exec chk (.alloc x es) w = .ok .unit w')
    (hp : points (mkShape es k.locs) ≠ 0) :
    (exec chk (.size x) w' = .ok (.sizes (es.map fun e => ((e.n : Int), (e.i : Int), (e.p : Int)))) w' ∧
      ∃ o B cell, w'.objs x = some (k, o) ∧ o.data = .at B 0 ∧ w'.h.blk B = some (.vals (k.N * points (mkShape es k.locs)) cell))
    ↔ k.N * points (mkShape es k.locs) < 4294967296 := by
  have hu : Unsigned es := fun e he => by have := hd e he; omega
  constructor
  · rintro ⟨-, h⟩
    rcases Nat.lt_or_ge (k.N * points (mkShape es k.locs)) 4294967296 with hlt | hge
    · exact hlt
    · exact absurd h (C11_never R hx chk es hl hu hge hw)
  · intro hlt
    have hs : SizesOk k es := by
      refine ⟨hl, ?_, hlt⟩
      revert hl
      generalize k.locs = ls
      clear hw hx hp hlt R hu
      intro hl
      induction es generalizing ls with
      | nil => intro d h; simp [mkShape] at h
      | cons a es ih =>
        cases ls with
        | nil => simp at hl
        | cons l ls =>
          intro d h
          simp only [mkShape, List.mem_cons] at h
          rcases h with rfl | h
          · exact hd a (by simp)
          · exact ih (fun e he => hd e (by simp [he])) ls (by simpa using hl) d h
    have hst : ∃ r, allocEmpty mem aw.next k es = r ∧
        astep mem chk aw (.alloc x es) = some (evOf r.err, { aw.set x (some (k, r.arr)) with next := aw.next + r.used }) :=
      ⟨_, rfl, by simp only [astep, hx, if_pos hs, allocStep]⟩
    obtain ⟨r, hr, hst⟩ := hst
    obtain ⟨w'', h1, h2⟩ := R.step hst
    rw [hw] at h1
    cases her : r.err with
    | some e => rw [her] at h1; simp [evOf, Obs] at h1
    | none =>
      rw [her] at h1; simp only [evOf, Obs] at h1; cases h1
      have he : sizeErrs 0 es = none := by
        cases hse : sizeErrs 0 es with
        | none => rfl
        | some d => rw [← hr] at her; unfold allocEmpty at her; rw [hse] at her; cases her
      subst hr
      obtain ⟨val, hval⟩ := allocEmpty_ready he hp her
      rw [hval] at h2
      obtain ⟨L, R'⟩ := h2.rel
      have hx' : ({ aw.set x (some (k, AArr.ready es val)) with next := aw.next + (allocEmpty mem aw.next k es : LRes V).used } : AWorld V).arr x
          = some (k, .ready es val) := by simp only [AWorld.set, if_true]
      refine ⟨R'.size chk hx', ?_⟩
      obtain ⟨o, hb, -, -, r⟩ := R'.arr_some hx'
      cases r with
      | @ready _ _ B cell r fits pos vals =>
        refine ⟨o, B, cell, hb, ?_, r.blk⟩
        cases r with
        | d1 r => exact r.data
        | d2 r => exact r.data
        | d3 r => exact r.data

/-- requests on both sides of the bound -/
example : 3 * points (mkShape [⟨1, 100, 1⟩, ⟨2, 50, 2⟩] [.center, .half]) < 4294967296 ∧
    4294967296 ≤ 7 * points (mkShape [⟨0, 1073741824, 0⟩] [.center]) ∧ Unsigned [⟨0, 1073741824, 0⟩] := by decide

end Verif.Props
