import Verif.Proof.Tags
/-!
# Arithmetic of mirror and periodic indices
-/
namespace Verif.Spec

theorem mirror_facts (e : Ext) (hbig : 2 * (e.n + e.i + e.p) < 2147483648) (fl : Side) :
    (∀ ii jj, InI32 ii → (i32 (2 * sideBound e fl) >>= fun t => i32 (t - ii)) = .ok jj →
      (i32 (2 * sideBound e fl) >>= fun t => i32 (t - jj)) = .ok ii) ∧
    (∀ ii, (i32 (2 * sideBound e fl) >>= fun t => i32 (t - ii)) = .ok ii ↔ ii = sideBound e fl) ∧
    (∀ k : Int, -(e.n + e.i + e.p : Int) ≤ k → k ≤ e.n + e.i + e.p →
      (i32 (2 * sideBound e fl) >>= fun t => i32 (t - outward e fl k)) = .ok (outward e fl (-k))) ∧
    (0 < e.i →
      ((∀ ii, Virtual e fl ii →
          ∃ jj, (i32 (2 * sideBound e fl) >>= fun t => i32 (t - ii)) = .ok jj ∧ Interior e jj) ↔
        sideCount e fl < e.i)) := by
  have hb : InI32 (2 * sideBound e fl) := by
    cases fl <;> simp [sideBound, InI32]; omega
  simp only [i32_ok hb, Out.ok_bind, i32_eq_ok]
  refine ⟨?_, ?_, ?_, ?_⟩
  · rintro ii jj hi ⟨h1, h2⟩
    refine ⟨?_, by omega⟩
    unfold InI32 at *; omega
  · intro ii
    constructor
    · rintro ⟨-, h⟩; omega
    · intro h; refine ⟨?_, by omega⟩
      have : 2 * sideBound e fl - ii = sideBound e fl := by omega
      rw [this]; unfold InI32 at *; omega
  · intro k h1 h2
    cases fl <;> simp only [sideBound, outward, InI32] <;> omega
  · intro hi
    cases fl
    · simp only [Virtual, sideBound, sideCount, Interior, InI32]
      constructor
      · intro h
        by_cases hn : e.n = 0
        · omega
        · obtain ⟨jj, h1, h2⟩ := h (-(e.n : Int)) (by omega); omega
      · intro h ii hii
        exact ⟨-ii, by omega⟩
    · simp only [Virtual, sideBound, sideCount, Interior, InI32]
      constructor
      · intro h
        by_cases hn : e.p = 0
        · omega
        · obtain ⟨jj, h1, h2⟩ := h ((e.i : Int) + e.p - 1) (by omega); omega
      · intro h ii hii
        exact ⟨2 * ((e.i : Int) - 1) - ii, by omega⟩

theorem periodic_facts (e : Ext) (h : e.Fits) :
    (∀ ii jj, InI32 ii → InI32 jj →
      (i32 (-FL.N.sign * ((e.i : Int) - 1) + ii) = .ok jj ↔ jj = ii + ((e.i : Int) - 1)) ∧
      (i32 (-FL.P.sign * ((e.i : Int) - 1) + ii) = .ok jj ↔ jj = ii - ((e.i : Int) - 1)) ∧
      (i32 (-FL.N.sign * ((e.i : Int) - 1) + ii) = .ok jj ↔
        i32 (-FL.P.sign * ((e.i : Int) - 1) + jj) = .ok ii)) ∧
    (0 < e.i → i32 (-FL.N.sign * ((e.i : Int) - 1) + 0) = .ok ((e.i : Int) - 1) ∧
      i32 (-FL.P.sign * ((e.i : Int) - 1) + ((e.i : Int) - 1)) = .ok 0) ∧
    (0 < e.i → ∀ fl : Side,
      ((∀ ii, Virtual e fl ii →
          ∃ jj, i32 (-fl.fl.sign * ((e.i : Int) - 1) + ii) = .ok jj ∧ Interior e jj) ↔
        sideCount e fl < e.i)) := by
  simp only [i32_eq_ok, FL.sign, Ext.Fits] at *
  refine ⟨?_, ?_, ?_⟩
  · intro ii jj h1 h2
    unfold InI32 at *
    refine ⟨?_, ?_, ?_⟩ <;> omega
  · intro h1; unfold InI32; omega
  · intro hi fl
    cases fl
    · simp only [Virtual, sideCount, Interior, InI32, Side.fl]
      constructor
      · intro h
        by_cases hn : e.n = 0
        · omega
        · obtain ⟨jj, h1, h2⟩ := h (-(e.n : Int)) (by omega); omega
      · intro h ii hii
        exact ⟨ii + ((e.i : Int) - 1), by omega⟩
    · simp only [Virtual, sideCount, Interior, InI32, Side.fl]
      constructor
      · intro h
        by_cases hn : e.p = 0
        · omega
        · obtain ⟨jj, h1, h2⟩ := h ((e.i : Int) + e.p - 1) (by omega); omega
      · intro h ii hii
        exact ⟨ii - ((e.i : Int) - 1), by omega⟩

end Verif.Spec
