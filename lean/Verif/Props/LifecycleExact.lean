import Verif.Props.Lifecycle
import Verif.Proof.LifecycleExact
/-!
# C09 and C10, exactly

`C09_partial` and `C10_partial` leave out what happens when memory runs out half way.
Here it is said in full: which failures of `alloc` leave the array empty, what state the
others leave it in and how to get out of it; and which histories lose memory.
-/
namespace Verif.Props
open Spec
variable {V : Type} {mem : Nat → Nat → Bool} {chk : Bool} {w : World V} {aw : AWorld V}

/-- C09, exactly.  `alloc` on an empty array, for a shape with points, makes the requests
of `requests` one after the other until one is refused; let `g` be the number granted.
If all are granted it returns.  If not it throws `no more memory`.  When already the first
one is refused (`g = 0`) the array is empty.  When a later one is refused the array is not
empty: `size()` reports what was asked for, every later `alloc` is refused as on an
allocated array, and `clear` — and only then everything is as if the `alloc` had not been
tried, except that `g + 1` requests were made — returns normally. -/
theorem C09_exact (R : Reach mem chk w aw) {x : Nat} {k : Kind} (hx : aw.arr x = some (k, .empty))
    (es : List Ext) (hs : SizesOk k es) (he : sizeErrs 0 es = none) (hp : points (mkShape es k.locs) ≠ 0)
    {g : Nat} (hg : g = granted mem aw.next (requests k.N (mkShape es k.locs))) :
    (g = (requests k.N (mkShape es k.locs)).length → ∃ w', exec chk (.alloc x es) w = .ok .unit w') ∧
    (g ≠ (requests k.N (mkShape es k.locs)).length → ∃ w', exec chk (.alloc x es) w = .err .noMemory w' ∧
      (g = 0 → exec chk (.size x) w' = .ok (.sizes (k.locs.map fun _ => (0, 0, 0))) w' ∧
        exec chk (.clear x) w' = .err .isEmpty w' ∧ Reach mem chk w' { aw with next := aw.next + 1 }) ∧
      (g ≠ 0 → exec chk (.size x) w' = .ok (.sizes (es.map fun e => ((e.n : Int), (e.i : Int), (e.p : Int)))) w' ∧
        (∀ es', es'.length = k.locs.length → exec chk (.alloc x es') w' = .err .notEmpty w') ∧
        ∃ w'', exec chk (.clear x) w' = .ok .unit w'' ∧ Reach mem chk w'' { aw with next := aw.next + (g + 1) })) := by
  have hst : astep mem chk aw (.alloc x es) = some (evOf (allocEmpty mem aw.next k es : LRes V).err,
      { aw.set x (some (k, (allocEmpty mem aw.next k es : LRes V).arr)) with next := aw.next + (allocEmpty mem aw.next k es : LRes V).used }) := by
    simp only [astep, hx, if_pos hs, allocStep]
  have hr : (allocEmpty mem aw.next k es : LRes V) =
      if g = (requests k.N (mkShape es k.locs)).length then ⟨none, .ready es (fun _ _ => none), g⟩
      else if g = 0 then ⟨some .noMemory, .empty, 1⟩
      else ⟨some .noMemory, .broken es g, g + 1⟩ := by
    unfold allocEmpty
    rw [he]; simp only; rw [if_neg hp, ← hg]
  obtain ⟨w', h1, h2⟩ := R.step hst
  rw [hr] at h1 h2
  constructor
  · intro h
    rw [if_pos h] at h1
    exact ⟨w', h1⟩
  · intro h
    rw [if_neg h] at h1 h2
    refine ⟨w', ?_, fun h0 => ?_, fun h0 => ?_⟩
    · split at h1 <;> exact h1
    · rw [if_pos h0] at h2
      simp only [set_same aw hx] at h2
      obtain ⟨L, R'⟩ := h2.rel
      have hx' : ({ aw with next := aw.next + 1 } : AWorld V).arr x = some (k, .empty) := hx
      exact ⟨R'.size chk hx', (C07_partial h2 hx' chk es hs.1).2.1 rfl, h2⟩
    · rw [if_neg h0] at h2
      obtain ⟨L, R'⟩ := h2.rel
      have hx' : ({ aw.set x (some (k, .broken es g)) with next := aw.next + (g + 1) } : AWorld V).arr x = some (k, .broken es g) := by
        simp [AWorld.set]
      refine ⟨R'.size chk hx', fun es' hl => (C07_partial h2 hx' chk es' hl).1 (by simp), ?_⟩
      have hc : astep mem chk ({ aw.set x (some (k, .broken es g)) with next := aw.next + (g + 1) } : AWorld V) (.clear x)
          = some (.ret .unit, { aw with next := aw.next + (g + 1) }) := by
        have h5 : ∀ a1 : AWorld V, a1.arr x = some (k, .broken es g) → astep mem chk a1 (.clear x) = some (.ret .unit, a1.set x (some (k, .empty))) := by
          intro a1 h; simp only [astep, h, clearStep, evOf]
        rw [h5 _ hx']
        simp only [AWorld.set, Option.some.injEq, Prod.mk.injEq, true_and, AWorld.mk.injEq, and_true]
        funext y
        by_cases hy : y = x
        · subst hy; simp [hx]
        · simp [hy]
      obtain ⟨w'', h3, h4⟩ := h2.step hc
      exact ⟨w'', h3, h4⟩

/-- both cases occur: two of three requests granted, and none -/
example : granted (fun k _ => k != 2) 0 (requests 1 (mkShape [⟨0, 2, 0⟩, ⟨0, 3, 0⟩, ⟨0, 1, 0⟩] [.center, .center, .half])) = 2 ∧
    (requests 1 (mkShape [⟨0, 2, 0⟩, ⟨0, 3, 0⟩, ⟨0, 1, 0⟩] [.center, .center, .half])).length = 3 ∧
    granted (fun k _ => k != 0) 0 (requests 1 (mkShape [⟨0, 2, 0⟩, ⟨0, 3, 0⟩, ⟨0, 1, 0⟩] [.center, .center, .half])) = 0 ∧
    SizesOk ⟨1, [.center, .center, .half]⟩ [⟨0, 2, 0⟩, ⟨0, 3, 0⟩, ⟨0, 1, 0⟩] ∧
    sizeErrs 0 [⟨0, 2, 0⟩, ⟨0, 3, 0⟩, ⟨0, 1, 0⟩] = none ∧
    points (mkShape [⟨0, 2, 0⟩, ⟨0, 3, 0⟩, ⟨0, 1, 0⟩] [.center, .center, .half]) ≠ 0 := by decide

/-- C10, exactly: after a history inside the contract at whose end all arrays are destroyed,
a block is still allocated if and only if somewhere in the history a sizing constructor
was granted some of its memory and refused the rest. -/
theorem C10_exact (ops : List (Op V)) {evs : List (Ev V)} (h : arun mem chk ops AWorld.init = some (evs, aw))
    (hend : ∀ x, aw.arr x = none) :
    ∃ w, run chk ops (World.init mem) = some (evs, w) ∧ ((∃ b, w.h.blk b ≠ none) ↔ HalfWay mem chk (AWorld.init : AWorld V) ops) := by
  obtain ⟨w, L, h3, -, h4, h5, -⟩ := C10_partial ops h hend
  refine ⟨w, h3, ?_⟩
  rw [← (arun_leaks h).2]
  constructor
  · rintro ⟨b, hb⟩ h0
    have : b ∈ L := (h5 b).1 (Option.isSome_iff_ne_none.2 hb)
    have h0 : aw.leaked = 0 := h0
    rw [h0] at h4
    rw [List.length_eq_zero_iff.1 h4] at this
    simp at this
  · intro h0
    have h0 : aw.leaked ≠ 0 := h0
    cases L with
    | nil => exact (h0 h4.symm).elim
    | cons b L => exact ⟨b, Option.isSome_iff_ne_none.1 ((h5 b).2 (by simp))⟩

/-- a history in which a sizing constructor fails half way, and one in which it fails at
once: both end with no array -/
example : (∃ evs, ∃ aw : AWorld Int, arun (fun k _ => k == 0) true
      [.makeSized 0 ⟨1, [.center, .center]⟩ (fun _ => .null) [⟨0, 1, 0⟩, ⟨0, 1, 0⟩]] AWorld.init = some (evs, aw) ∧ aw.leaked = 1) ∧
    (∃ evs, ∃ aw : AWorld Int, arun (fun k _ => k != 0) true
      [.makeSized 0 ⟨1, [.center, .center]⟩ (fun _ => .null) [⟨0, 1, 0⟩, ⟨0, 1, 0⟩]] AWorld.init = some (evs, aw) ∧ aw.leaked = 0) :=
  ⟨⟨_, _, rfl, rfl⟩, ⟨_, _, rfl, rfl⟩⟩

end Verif.Props
