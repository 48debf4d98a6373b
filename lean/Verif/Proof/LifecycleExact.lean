import Verif.Proof.Lifecycle
import Verif.Spec.LifecycleExact
/-!
# The count of lost blocks grows exactly when a sizing constructor fails half way
-/
namespace Verif
open Spec
variable {V : Type} {mem : Nat → Nat → Bool} {chk : Bool}

theorem heldBy_allocEmpty (next : Nat) (k : Kind) (es : List Ext) :
    (allocEmpty mem next k es : LRes V).err.isSome ∧ heldBy (allocEmpty mem next k es : LRes V).arr ≠ 0 ↔
      sizeErrs 0 es = none ∧ points (mkShape es k.locs) ≠ 0 ∧ granted mem next (requests k.N (mkShape es k.locs)) ≠ 0 ∧
      granted mem next (requests k.N (mkShape es k.locs)) ≠ (requests k.N (mkShape es k.locs)).length := by
  unfold allocEmpty
  cases he : sizeErrs 0 es with
  | some e => simp [heldBy]
  | none =>
    by_cases hp : points (mkShape es k.locs) = 0
    · simp [hp, heldBy]
    · by_cases h1 : granted mem next (requests k.N (mkShape es k.locs)) = (requests k.N (mkShape es k.locs)).length
      · simp [hp, h1]
      · by_cases h2 : granted mem next (requests k.N (mkShape es k.locs)) = 0
        · simp only [h2, hp, if_false]
          rw [h2] at h1
          simp [h1, heldBy]
        · simp [hp, h1, h2, heldBy]

theorem astep_leaks {aw aw' : AWorld V} {op : Op V} {ev : Ev V} (hs : astep mem chk aw op = some (ev, aw')) :
    aw.leaked ≤ aw'.leaked ∧
    (aw'.leaked ≠ aw.leaked ↔ ∃ x k j es, op = .makeSized x k j es ∧ FailsHalf mem aw.next k es) := by
  by_cases hop : ∃ x k j es, op = .makeSized x k j es
  · obtain ⟨x, k, j, es, rfl⟩ := hop
    have hf : (∃ x' k' j' es', Op.makeSized (V := V) x k j es = .makeSized x' k' j' es' ∧ FailsHalf mem aw.next k' es') ↔ FailsHalf mem aw.next k es := by
      constructor
      · rintro ⟨_, _, _, _, h, hf⟩; cases h; exact hf
      · intro h; exact ⟨_, _, _, _, rfl, h⟩
    rw [hf]
    simp only [astep] at hs
    split at hs
    · split at hs
      · rename_i h0
        cases hs
        exact ⟨Nat.le_refl _, fun h => (h rfl).elim, fun h => (h.comps h0).elim⟩
      · rename_i h0
        have hh := heldBy_allocEmpty (V := V) (mem := mem) aw.next k es
        have hfi : FailsHalf mem aw.next k es ↔ (sizeErrs 0 es = none ∧ points (mkShape es k.locs) ≠ 0 ∧ granted mem aw.next (requests k.N (mkShape es k.locs)) ≠ 0 ∧
            granted mem aw.next (requests k.N (mkShape es k.locs)) ≠ (requests k.N (mkShape es k.locs)).length) :=
          ⟨fun h => ⟨h.sizes, h.pts, h.some_, h.not_all⟩, fun h => ⟨h0, h.1, h.2.1, h.2.2.1, h.2.2.2⟩⟩
        rw [hfi, ← hh]
        split at hs
        · rename_i he
          cases hs
          rw [he]
          exact ⟨Nat.le_refl _, fun h => (h rfl).elim, fun h => by simp at h⟩
        · rename_i e he
          cases hs
          rw [he]
          simp
    · cases hs
  · have hno : ∀ x k j es, op ≠ .makeSized x k j es := fun x k j es h => hop ⟨x, k, j, es, h⟩
    have h := astep_leaked hno hs
    exact ⟨Nat.le_of_eq h.symm, fun h' => (h' h).elim, fun ⟨x, k, j, es, h', _⟩ => (hno x k j es h').elim⟩

theorem arun_leaks {ops : List (Op V)} {aw aw' : AWorld V} {evs : List (Ev V)} (hs : arun mem chk ops aw = some (evs, aw')) :
    aw.leaked ≤ aw'.leaked ∧ (aw'.leaked ≠ aw.leaked ↔ HalfWay mem chk aw ops) := by
  induction ops generalizing aw evs with
  | nil =>
    cases hs
    refine ⟨Nat.le_refl _, fun h => (h rfl).elim, ?_⟩
    rintro ⟨b, x, k, j, es, a, _, _, h, -⟩
    simp at h
  | cons op ops ih =>
    simp only [arun] at hs
    split at hs
    · cases hs
    · rename_i e aw1 h1
      simp only [Option.map_eq_some_iff] at hs
      obtain ⟨⟨es, aw2⟩, h4, h5⟩ := hs
      obtain ⟨-, h5⟩ := Prod.mk.inj h5
      have h5 : aw2 = aw' := h5
      subst h5
      obtain ⟨l1, i1⟩ := astep_leaks h1
      obtain ⟨l2, i2⟩ := ih h4
      refine ⟨Nat.le_trans l1 l2, ?_⟩
      have hsplit : aw2.leaked ≠ aw.leaked ↔ aw1.leaked ≠ aw.leaked ∨ aw2.leaked ≠ aw1.leaked := by omega
      rw [hsplit, i1, i2]
      constructor
      · rintro (⟨x, k, j, es', rfl, hf⟩ | ⟨b, x, k, j, es', a, evs', aw3, rfl, hr, hf⟩)
        · exact ⟨[], x, k, j, es', ops, _, _, rfl, rfl, hf⟩
        · refine ⟨op :: b, x, k, j, es', a, e :: evs', aw3, rfl, ?_, hf⟩
          simp only [arun, h1, hr]; rfl
      · rintro ⟨b, x, k, j, es', a, evs', aw3, hb, hr, hf⟩
        cases b with
        | nil =>
          simp only [List.nil_append, List.cons.injEq] at hb
          obtain ⟨rfl, rfl⟩ := hb
          cases hr
          exact .inl ⟨x, k, j, es', rfl, hf⟩
        | cons o b =>
          simp only [List.cons_append, List.cons.injEq] at hb
          obtain ⟨rfl, rfl⟩ := hb
          simp only [arun, h1, Option.map_eq_some_iff] at hr
          obtain ⟨⟨es3, aw4⟩, h6, h7⟩ := hr
          obtain ⟨-, rfl⟩ := Prod.mk.inj h7
          exact .inr ⟨b, x, k, j, es', a, es3, aw4, rfl, h6, hf⟩

end Verif
