import Verif.Props.CopyAll
import Verif.Props.Copy
/-!
# C25, C27, C28: what a checked copy does with zones that lie inside the arrays

All cases: it throws or copies, never anything else, and exactly when the one and when the other.
-/
namespace Verif.Props
open Spec
variable {V : Type} {mem : Nat → Nat → Bool} {chk : Bool} {w : World V} {aw : AWorld V}

/-- C25, C27, C28, every case: a checked copy whose zones lie inside the arrays and whose anchors are in machine range — between two arrays
or inside one — either throws, and nothing at all has changed, or returns, and then the points written are read as the source's
values before the call and all others as before.  It throws exactly if in some dimension one of the zones begins where the other ends or
behind it, or if it is a copy inside one array and the written zone and its source, both with the closing points, overlap in every dimension. -/
theorem C25_exact (R : Reach mem chk w aw) {x y : Nat} {k : Kind} {es es' : List Ext} {val val' : Nat → List Int → Option V}
    (hx : aw.arr x = some (k, .ready es val)) (hy : aw.arr y = some (k, .ready es' val')) {args : Obj.CopyArgs}
    (ok : CopyOk k es es' args) :
    ((∃ e, exec true (.copy x y args) w = .err e w) ↔
      (∃ d ∈ (copyPlan es es' args).dims k, ¬ d.Over) ∨ (x = y ∧ ∀ d ∈ (copyPlan es es' args).dims k, d.Clash)) ∧
    ((∀ d ∈ (copyPlan es es' args).dims k, d.Over) → (x = y → ∃ d ∈ (copyPlan es es' args).dims k, ¬ d.Clash) →
      ∃ w', exec true (.copy x y args) w = .ok .unit w' ∧ ∀ c' n xs fs, Valid k es n xs fs →
        (Writes ((copyPlan es es' args).dims k) (point xs fs) →
          ∃ zs gs, Valid k es' n zs gs ∧ point zs gs = image ((copyPlan es es' args).dims k) (point xs fs) ∧
          ∃ b, exec c' (.read y n zs gs) w = .ok (.val b) w ∧ exec c' (.read x n xs fs) w' = .ok (.val b) w') ∧
        (¬ Writes ((copyPlan es es' args).dims k) (point xs fs) →
          ∃ b, exec c' (.read x n xs fs) w = .ok (.val b) w ∧ exec c' (.read x n xs fs) w' = .ok (.val b) w')) := by
  obtain ⟨L, R⟩ := R.rel
  obtain ⟨l1, l2, l3, l4⟩ := R.plan_len hx hy ok.1
  have meet : (∀ d ∈ (copyPlan es es' args).dims k, d.Over) → (x = y → ∃ d ∈ (copyPlan es es' args).dims k, ¬ d.Clash) →
      ∃ w', exec true (.copy x y args) w = .ok .unit w' ∧ ∀ c' n xs fs, Valid k es n xs fs →
        (Writes ((copyPlan es es' args).dims k) (point xs fs) →
          ∃ zs gs, Valid k es' n zs gs ∧ point zs gs = image ((copyPlan es es' args).dims k) (point xs fs) ∧
          ∃ b, exec c' (.read y n zs gs) w = .ok (.val b) w ∧ exec c' (.read x n xs fs) w' = .ok (.val b) w') ∧
        (¬ Writes ((copyPlan es es' args).dims k) (point xs fs) →
          ∃ b, exec c' (.read x n xs fs) w = .ok (.val b) w ∧ exec c' (.read x n xs fs) w' = .ok (.val b) w') := by
    intro ho hc
    obtain ⟨w', L', h1, R'⟩ := R.copied true hx hy ok ho (fun h => by
      obtain ⟨d, hd, hn⟩ := hc h.1
      exact hn (h.2 d hd))
    refine ⟨w', h1, fun c' n xs fs v => ⟨fun hw => ?_, fun hw => ⟨_, R.read c' hx v, ?_⟩⟩⟩
    · obtain ⟨zs, gs, vz, hz⟩ := valid_of_pt (R.len hy) v.comp (writes_from (R.len hy) l1 l3 l4 ok.2.2.1 hw)
      refine ⟨zs, gs, vz, hz, _, R.read c' hy vz, ?_⟩
      have := R'.read c' (x := x) (by simp only [AWorld.set, if_true]; rfl) v
      rw [if_pos hw] at this
      rw [this, hz]; rfl
    · have := R'.read c' (x := x) (by simp only [AWorld.set, if_true]; rfl) v
      rw [if_neg hw] at this
      exact this
  refine ⟨⟨fun ⟨e, he⟩ => ?_, fun h => R.refused hx hy ok (h.imp (fun ⟨d, hd, hn⟩ h => hn (h d hd)) id)⟩, meet⟩
  by_contra hn
  rw [not_or] at hn
  obtain ⟨w', h1, -⟩ := meet (fun d hd => by
      by_contra h
      exact hn.1 ⟨d, hd, h⟩) (fun h => by
      by_contra h'
      exact hn.2 ⟨h, fun d hd => by
        by_contra h''
        exact h' ⟨d, hd, h''⟩⟩)
  rw [h1] at he
  cases he

/-- C25: when such a copy returns, the points written are the ones C25 speaks of — common to both zones, or closing the last common cell of a half located
dimension — exactly if the zones have a common point in every dimension, or have none in some center located dimension, where nothing is written then. -/
theorem C25_claim {ds : List CopyDim} (h : ∀ d ∈ ds, 0 ≤ d.R.2 ∧ 0 ≤ d.r.2) (ho : ∀ d ∈ ds, d.Over) :
    (∀ ys, Writes ds ys ↔ Takes ds ys) ↔ (∀ d ∈ ds, d.Meets) ∨ ∃ d ∈ ds, d.loc = .center ∧ ¬ d.Meets := by
  have none_takes : ∀ (ds : List CopyDim), (∃ d ∈ ds, ¬ d.Meets) → ∀ ys, ¬ Takes ds ys := by
    intro ds
    induction ds with
    | nil => rintro ⟨d, hd, -⟩; cases hd
    | cons d ds ih =>
      rintro ⟨e, he, hn⟩ ys ht
      cases ys with
      | nil => exact ht
      | cons y ys =>
        rcases List.mem_cons.1 he with rfl | he
        · rcases ht.1 with h | ⟨-, h⟩ <;> exact hn ⟨_, h⟩
        · exact ih ⟨e, he, hn⟩ ys ht.2
  have meets : ∀ d : CopyDim, d.lo < d.hi → d.Meets := by
    intro d hd
    unfold CopyDim.lo CopyDim.hi at hd
    refine ⟨d.lo, ?_⟩
    unfold CopyDim.Common Seg CopyDim.image CopyDim.lo
    omega
  have le : ∀ d ∈ ds, d.lo ≤ d.hi := by
    intro d hd
    have := h d hd
    have := ho d hd
    unfold CopyDim.Over at this
    unfold CopyDim.lo CopyDim.hi
    omega
  constructor
  · intro hw
    by_contra hn
    rw [not_or] at hn
    have hm : ∃ d ∈ ds, ¬ d.Meets := by
      by_contra h'
      exact hn.1 fun d hd => by
        by_contra h''
        exact h' ⟨d, hd, h''⟩
    have key : ∀ d ∈ ds, d.lo < d.hi + d.loc.toNat := by
      intro d hd
      have := le d hd
      by_cases hdm : d.Meets
      · obtain ⟨y, hy⟩ := hdm
        have : d.lo < d.hi := by
          unfold CopyDim.Common Seg CopyDim.image at hy
          unfold CopyDim.lo CopyDim.hi
          omega
        have := loc_le d.loc
        omega
      · cases hl : d.loc with
        | center => exact (hn.2 ⟨d, hd, hl, hdm⟩).elim
        | half => simp [Loc.toNat]; omega
    have wr : ∀ ds : List CopyDim, (∀ d ∈ ds, d.lo < d.hi + d.loc.toNat) → Writes ds (ds.map CopyDim.lo) := by
      intro ds
      induction ds with
      | nil => intro _; trivial
      | cons d ds ih => intro h; exact ⟨⟨le_refl _, h d (by simp)⟩, ih fun d hd => h d (by simp [hd])⟩
    exact none_takes ds hm _ ((hw _).1 (wr ds key))
  · rintro (hm | ⟨d, hd, hc, hn⟩) ys
    · exact (takes_iff hm ys).symm
    · refine ⟨fun hw => ?_, fun ht => (none_takes ds ⟨d, hd, hn⟩ ys ht).elim⟩
      exfalso
      have : ∀ (ds : List CopyDim) (ys : List Int), Writes ds ys → ∀ d ∈ ds, ∃ y, d.Writes y := by
        intro ds
        induction ds with
        | nil => intro ys _ d hd; cases hd
        | cons e ds ih =>
          intro ys hw d hd
          cases ys with
          | nil => exact hw.elim
          | cons y ys =>
            rcases List.mem_cons.1 hd with rfl | hd
            · exact ⟨y, hw.1⟩
            · exact ih ys hw.2 d hd
      obtain ⟨y, h1, h2⟩ := this ds ys hw d hd
      rw [hc] at h2
      simp [Loc.toNat] at h2
      exact hn (meets d (by omega))

/-- every case occurs inside the contract: zones that meet in two arrays … -/
example : CopyOk ⟨1, [.center, .half]⟩ [⟨0, 8, 0⟩, ⟨0, 8, 0⟩] [⟨0, 8, 0⟩, ⟨0, 8, 0⟩] (.ranges [(0, 2), (0, 2)] [(1, 2), (1, 2)] [0, 0] [0, 0]) ∧
    ∀ d ∈ copyDims [.center, .half] [(0, 2), (0, 2)] [(1, 2), (1, 2)] [0, 0] [0, 0], d.Over := by decide

/-- … zones that touch, which is refused … -/
example : CopyOk ⟨1, [.center]⟩ [⟨0, 8, 0⟩] [⟨0, 8, 0⟩] (.ranges [(0, 2)] [(2, 2)] [0] [0]) ∧
    ∃ d ∈ copyDims [.center] [(0, 2)] [(2, 2)] [0] [0], ¬ d.Over := by decide

/-- … a copy inside one array that is refused, and one that is not: the closing points keep a distance … -/
example : CopyOk ⟨1, [.half]⟩ [⟨0, 8, 0⟩] [⟨0, 8, 0⟩] (.ranges [(0, 2)] [(2, 2)] [0] [2]) ∧
    (∀ d ∈ copyDims [.half] [(0, 2)] [(2, 2)] [0] [2], d.Over ∧ d.Clash) ∧
    CopyOk ⟨1, [.half]⟩ [⟨0, 8, 0⟩] [⟨0, 8, 0⟩] (.ranges [(0, 2)] [(3, 2)] [0] [3]) ∧
    ∀ d ∈ copyDims [.half] [(0, 2)] [(3, 2)] [0] [3], d.Over ∧ ¬ d.Clash := by decide

/-- … and an empty zone strictly inside the other one: in a half located dimension a point is written that C25 does not speak of -/
example : CopyOk ⟨1, [.half]⟩ [⟨0, 4, 0⟩] [⟨0, 4, 0⟩] (.ranges [(0, 4)] [(2, 0)] [0] [0]) ∧
    (∀ d ∈ copyDims [.half] [(0, 4)] [(2, 0)] [0] [0], d.Over) ∧ Writes (copyDims [.half] [(0, 4)] [(2, 0)] [0] [0]) [2] := by decide

end Verif.Props
