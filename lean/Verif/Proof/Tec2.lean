import Mathlib.Tactic.Linarith
import Verif.Spec.TecMem
import Verif.Proof.Tec1
import Verif.Proof.HeapLemmas
/-!
# Lemmas about zone buffers
-/
namespace Verif.Tec
open Spec

theorem length_upto (b e : Int) : (upto b e).length = (e - b).toNat := by simp [upto]

theorem length_picks_le (b e k : Int) : (picks b e k).length ≤ (e - b).toNat := by
  unfold picks; exact (List.length_filter_le _ _).trans (length_upto b e).le

theorem loopS_eq {σ : Type} (body : Int → M σ Unit) {e k : Int} (hk : 0 < k) {f : Nat} :
    ∀ {b : Int}, (∀ s ∈ picks b e k, InI32 (s + k)) → (picks b e k).length < f →
      loopS body e k f b = runAll body (picks b e k) := by
  induction f with
  | zero => intro b _ h; omega
  | succ f ih =>
    intro b hs hf
    unfold loopS
    by_cases hb : b < e
    · rw [picks_cons hk hb] at hs hf ⊢
      rw [if_pos hb, runAll_cons]
      refine congrArg (fun g => body b >>= g) (funext fun _ => ?_)
      rw [i32_ok (hs b (by simp))]
      simp only [M.liftM_eq, M.lift_ok, pure_bind]
      exact ih (fun s h => hs s (by simp [h])) (by simpa using hf)
    · rw [if_neg hb, picks_nil (by omega)]; rfl

/-- a loop over the selected indices -/
theorem forS_eq {σ : Type} (body : Int → M σ Unit) {b e k : Int} (hk : 0 < k) (hb : InI32 b) (he : InI32 e)
    (hs : ∀ s ∈ picks b e k, InI32 (s + k)) : forS b e k body = runAll body (picks b e k) := by
  apply loopS_eq body hk hs
  have := length_picks_le b e k
  unfold InI32 at *; omega

theorem picks_map_idx {b e k : Int} (hk : 0 < k) :
    (picks b e k).map (fun s => ((s - b) / k).toNat) = List.range (picks b e k).length := by
  apply List.ext_getElem
  · simp
  · intro n h1 h2
    rw [List.getElem_map, picks_getElem hk, List.getElem_range]
    rw [show b + k * (n : Int) - b = n * k by rw [Int.mul_comm]; omega, Int.mul_ediv_cancel _ (by omega)]
    simp

theorem range_mul (X Y : Nat) :
    (List.range Y).flatMap (fun b => (List.range X).map fun a => a + X * b) = List.range (X * Y) := by
  induction Y with
  | zero => simp
  | succ Y ih =>
    rw [List.range_succ, List.flatMap_append, ih, Nat.mul_succ, List.range_add]
    simp only [List.flatMap_cons, List.flatMap_nil, List.append_nil]
    congr 1
    apply List.map_congr_left; intro a _; omega

theorem map_pos_flat {α β γ : Type} (xs : List α) (ys : List β) (fx : α → Nat) (fy : β → Nat) {X Y : Nat}
    (hx : xs.map fx = List.range X) (hy : ys.map fy = List.range Y) (mk : α → β → γ) (pos : γ → Nat)
    (hp : ∀ a b, pos (mk a b) = fx a + X * fy b) :
    (ys.flatMap fun y => xs.map fun x => mk x y).map pos = List.range (X * Y) := by
  rw [List.map_flatMap]
  simp only [List.map_map, Function.comp_def, hp]
  rw [← range_mul, ← hy, List.flatMap_map]
  refine congrArg (fun f => List.flatMap f ys) (funext fun y => ?_)
  rw [← hx, List.map_map]; rfl

/-! ## Runs of `memcpy` -/

theorem memcpy_ok {h : Heap Byte} {d s o i n dl sl : Nat} {dc sc : Nat → Option Byte}
    (hd : h.blk d = some (.vals dl dc)) (hs : h.blk s = some (.vals sl sc)) (hn : d ≠ s) (h1 : o + n ≤ dl) (h2 : i + n ≤ sl) :
    memcpy (.at d o) (.at s i) n h =
      .ok () (h.upd d (some (.vals dl fun k => if o ≤ k ∧ k < o + n then sc (k - o + i) else dc k))) := by
  simp only [memcpy, hd, hs]
  rw [if_pos ⟨h1, h2, .inl hn⟩]

/-- consecutive pieces of `w` bytes are filled one after the other -/
theorem runAll_fill {ι : Type} (step : ι → M (Heap Byte) Unit) (pos src : ι → Nat) {d s L sl w : Nat} {sc : Nat → Option Byte}
    (hne : d ≠ s) (l : List ι) :
    ∀ (m : Nat) (h : Heap Byte) (dc : Nat → Option Byte), l.map pos = List.range' m l.length →
      h.blk d = some (.vals L dc) → h.blk s = some (.vals sl sc) → w * (m + l.length) ≤ L →
      (∀ x ∈ l, src x + w ≤ sl ∧ ∀ g : Heap Byte, ∀ c, g.blk d = some (.vals L c) → g.blk s = some (.vals sl sc) →
        w * pos x + w ≤ L → step x g = memcpy (.at d (w * pos x)) (.at s (src x)) w g) →
      ∃ dc', runAll step l h = .ok () (h.upd d (some (.vals L dc'))) ∧ (∀ k < w * m, dc' k = dc k) ∧
        (List.range' (w * m) (w * l.length)).map dc' = l.flatMap fun x => (List.range' (src x) w).map sc := by
  induction l with
  | nil =>
    intro m h dc _ hd _ _ _
    exact ⟨dc, by rw [Heap.upd_self h d _ hd]; rfl, fun _ _ => rfl, by simp⟩
  | cons x l ih =>
    intro m h dc hp hd hs hL hst
    simp only [List.length_cons, List.range'_succ, List.map_cons, List.cons.injEq] at hp
    obtain ⟨hp0, hp1⟩ := hp
    obtain ⟨hb, he⟩ := hst x (by simp)
    have hL' : w * m + w ≤ L := by
      refine le_trans ?_ hL
      rw [List.length_cons, Nat.mul_add, Nat.mul_add]; omega
    have e := he h dc hd hs (by rw [hp0]; exact hL')
    rw [hp0, memcpy_ok hd hs hne hL' hb] at e
    generalize hdc1 : (fun k => if w * m ≤ k ∧ k < w * m + w then sc (k - w * m + src x) else dc k) = dc1 at e
    obtain ⟨dc', r1, r2, r3⟩ := ih (m + 1) (h.upd d (some (.vals L dc1))) dc1 hp1 (Heap.upd_blk_same _ _ _)
      (by rw [Heap.upd_blk_ne _ _ (Ne.symm hne)]; exact hs) (by rw [List.length_cons] at hL; rw [show m + 1 + l.length = m + (l.length + 1) by omega]; exact hL)
      (fun y hy => hst y (by simp [hy]))
    refine ⟨dc', ?_, ?_, ?_⟩
    · rw [runAll_cons, M.bind_ok e, r1, Heap.upd_upd]
    · intro k hk
      rw [r2 k (by rw [Nat.mul_add]; omega), ← hdc1]
      simp only []
      rw [if_neg (by omega)]
    · rw [List.length_cons, List.flatMap_cons, show w * (l.length + 1) = w + w * l.length by rw [Nat.mul_add]; omega,
        ← List.range'_append_1, List.map_append]
      rw [Nat.mul_add, Nat.mul_one] at r3
      rw [r3]
      congr 1
      apply List.ext_getElem
      · simp
      · intro n h1 h2
        simp only [List.length_map, List.length_range'] at h1
        simp only [List.getElem_map, List.getElem_range', Nat.one_mul]
        rw [r2 _ (by rw [Nat.mul_add]; omega), ← hdc1]
        simp only []
        rw [if_pos (by omega)]
        congr 1; omega

end Verif.Tec
