import Verif.Spec.TecMinMax
import Verif.Proof.Tec5
/-!
# Lemmas about `get_minmax`
-/
namespace Verif.Tec
open Spec

theorem loopZ_inv {σ A : Type} (body : Nat → A → M σ A) (I : Nat → A → Prop) (s : σ)
    (n : Nat) : ∀ (i : Nat) (a : A), (∀ j, i ≤ j → j < i + n → ∀ a, I j a → ∃ a', body j a s = .ok a' s ∧ I (j + 1) a') → I i a →
      ∃ a', loopZ body n i a s = .ok a' s ∧ I (i + n) a' := by
  induction n with
  | zero => intro i a _ h; exact ⟨a, rfl, h⟩
  | succ n ih =>
    intro i a hb h
    obtain ⟨a1, r1, h1⟩ := hb i (le_refl _) (by omega) a h
    obtain ⟨a2, r2, h2⟩ := ih (i + 1) a1 (fun j hj hj' => hb j (by omega) (by omega)) h1
    refine ⟨a2, ?_, by rw [show i + (n + 1) = i + 1 + n by omega]; exact h2⟩
    unfold loopZ
    rw [M.bind_ok r1, r2]

theorem get_minmax_ok {σ T κ : Type} [LinearOrder κ] (key : T → κ) (gt lt : T → T → Bool)
    (data : Nat → M σ T) (v : Nat → T) {N : Nat} (hN : 0 < N) {s : σ} (hd : ∀ i < N, data i s = .ok (v i) s)
    (hgt : ∀ i < N, ∀ j < N, gt (v i) (v j) = decide (key (v j) < key (v i)))
    (hlt : ∀ i < N, ∀ j < N, lt (v i) (v j) = decide (key (v i) < key (v j))) :
    ∃ mm, get_minmax gt lt data N s = .ok mm s ∧ IsMinMax key v N mm := by
  unfold get_minmax
  rw [M.bind_ok (hd 0 hN), M.bind_ok (hd 0 hN)]
  generalize hn : (if N % 2 ≠ 0 then (N - 1) / 2 else N / 2) = n
  have hn2 : 2 * n ≤ N ∧ (N % 2 ≠ 0 → 2 * n = N - 1) ∧ (¬N % 2 ≠ 0 → 2 * n = N) := by
    subst hn; split <;> omega
  obtain ⟨mm, r, inv⟩ := loopZ_inv (minmaxStep gt lt data)
    (fun k mm => (∃ i < N, v i = mm.1) ∧ (∃ i < N, v i = mm.2) ∧ ∀ i, (i < 2 * k ∨ i = 0) → key mm.1 ≤ key (v i) ∧ key (v i) ≤ key mm.2)
    s n 0 (v 0, v 0) (by
      rintro k - hk mm ⟨⟨i1, l1, e1⟩, ⟨i2, l2, e2⟩, hb⟩
      have ha : 2 * k < N := by omega
      have hb' : 2 * k + 1 < N := by omega
      unfold minmaxStep
      rw [M.bind_ok (hd _ ha), M.bind_ok (hd _ hb')]
      rw [hgt _ ha _ hb']
      obtain ⟨m1, m2⟩ := mm
      simp only at e1 e2 hb
      subst e1 e2
      have split2 : ∀ i, i < 2 * (k + 1) ∨ i = 0 → (i < 2 * k ∨ i = 0) ∨ i = 2 * k ∨ i = 2 * k + 1 := by intro i hi; omega
      by_cases hc : key (v (2 * k + 1)) < key (v (2 * k))
      · rw [if_pos (by simpa using hc)]
        simp only [hgt _ ha _ l2, hlt _ hb' _ l1]
        refine ⟨_, rfl, ?_, ?_, ?_⟩
        · split
          · exact ⟨_, hb', rfl⟩
          · exact ⟨_, l1, rfl⟩
        · dsimp only; split
          · exact ⟨_, ha, rfl⟩
          · exact ⟨_, l2, rfl⟩
        · intro i hi
          simp only [decide_eq_true_eq]
          rcases split2 i hi with h | rfl | rfl
          · obtain ⟨q1, q2⟩ := hb i h
            constructor
            · split
              · exact le_trans (le_of_lt ‹_›) q1
              · exact q1
            · split
              · exact le_trans q2 (le_of_lt ‹_›)
              · exact q2
          · constructor
            · split
              · exact le_of_lt hc
              · exact le_trans (not_lt.mp ‹_›) (le_of_lt hc)
            · split
              · exact le_refl _
              · exact not_lt.mp ‹_›
          · constructor
            · split
              · exact le_refl _
              · exact not_lt.mp ‹_›
            · split
              · exact le_of_lt hc
              · exact le_trans (le_of_lt hc) (not_lt.mp ‹_›)
      · rw [if_neg (by simpa using hc)]
        have hc' := not_lt.mp hc
        simp only [hgt _ hb' _ l2, hlt _ ha _ l1]
        refine ⟨_, rfl, ?_, ?_, ?_⟩
        · split
          · exact ⟨_, ha, rfl⟩
          · exact ⟨_, l1, rfl⟩
        · dsimp only; split
          · exact ⟨_, hb', rfl⟩
          · exact ⟨_, l2, rfl⟩
        · intro i hi
          simp only [decide_eq_true_eq]
          rcases split2 i hi with h | rfl | rfl
          · obtain ⟨q1, q2⟩ := hb i h
            constructor
            · split
              · exact le_trans (le_of_lt ‹_›) q1
              · exact q1
            · split
              · exact le_trans q2 (le_of_lt ‹_›)
              · exact q2
          · constructor
            · split
              · exact le_refl _
              · exact not_lt.mp ‹_›
            · split
              · exact hc'
              · exact le_trans hc' (not_lt.mp ‹_›)
          · constructor
            · split
              · exact hc'
              · exact le_trans (not_lt.mp ‹_›) hc'
            · split
              · exact le_refl _
              · exact not_lt.mp ‹_›)
    ⟨⟨0, hN, rfl⟩, ⟨0, hN, rfl⟩, fun i hi => by
      have : i = 0 := by omega
      subst this; exact ⟨le_refl _, le_refl _⟩⟩
  rw [M.bind_ok r]
  rw [Nat.zero_add] at inv
  obtain ⟨⟨i1, l1, e1⟩, ⟨i2, l2, e2⟩, hb⟩ := inv
  obtain ⟨m1, m2⟩ := mm
  simp only at e1 e2 hb
  subst e1 e2
  by_cases ho : N % 2 ≠ 0
  · rw [if_pos ho, M.bind_ok (hd (N - 1) (by omega))]
    have hl : N - 1 < N := by omega
    rw [hlt _ hl _ l1, hgt _ hl _ l2]
    simp only [decide_eq_true_eq]
    have sp : ∀ i < N, (i < 2 * n ∨ i = 0) ∨ i = N - 1 := by intro i hi; omega
    by_cases c1 : key (v (N - 1)) < key (v i1)
    · rw [if_pos c1]
      refine ⟨_, rfl, ⟨_, hl, rfl⟩, ⟨_, l2, rfl⟩, ?_⟩
      intro i hi
      rcases sp i hi with h | rfl
      · exact ⟨le_trans (le_of_lt c1) (hb i h).1, (hb i h).2⟩
      · refine ⟨le_refl _, le_trans (le_of_lt c1) ?_⟩
        exact le_trans (hb 0 (.inr rfl)).1 (hb 0 (.inr rfl)).2
    · rw [if_neg c1]
      by_cases c2 : key (v i2) < key (v (N - 1))
      · rw [if_pos c2]
        refine ⟨_, rfl, ⟨_, l1, rfl⟩, ⟨_, hl, rfl⟩, ?_⟩
        intro i hi
        rcases sp i hi with h | rfl
        · exact ⟨(hb i h).1, le_trans (hb i h).2 (le_of_lt c2)⟩
        · exact ⟨not_lt.mp c1, le_refl _⟩
      · rw [if_neg c2]
        refine ⟨_, rfl, ⟨_, l1, rfl⟩, ⟨_, l2, rfl⟩, ?_⟩
        intro i hi
        rcases sp i hi with h | rfl
        · exact hb i h
        · exact ⟨not_lt.mp c1, not_lt.mp c2⟩
  · rw [if_neg ho]
    refine ⟨_, rfl, ⟨_, l1, rfl⟩, ⟨_, l2, rfl⟩, ?_⟩
    intro i hi
    exact hb i (.inl (by omega))

theorem window_succ {α : Type} (c : Nat → α) (o n : Nat) : window c o (n + 1) = c o :: window c (o + 1) n := by
  simp [window, List.range'_succ]

/-- reading initialised bytes -/
theorem loadBytes_ok {h : Heap Byte} {b len : Nat} {c : Nat → Option Byte} (hb : h.blk b = some (.vals len c)) (l : Str) :
    ∀ o, o + l.length ≤ len → window c o l.length = l.map some → loadBytes l.length (.at b o) h = .ok l h := by
  induction l with
  | nil => intro o _ _; rfl
  | cons x l ih =>
    intro o hl hw
    rw [List.length_cons, window_succ, List.map_cons, List.cons.injEq] at hw
    rw [List.length_cons] at hl
    rw [List.length_cons]
    unfold loadBytes
    rw [M.bind_ok (Heap.lval_at hb (by show o < len; omega)), M.bind_ok (Heap.loadV_at hb (by omega)), hw.1]
    simp only []
    rw [M.bind_ok (Heap.padd_at (r := o + 1) hb (by omega) (by show _ ≤ len; omega)), M.bind_ok (ih (o + 1) (by omega) hw.2)]
    rfl

theorem window_slice {α β : Type} {c : Nat → α} {o n w k : Nat} {l : List β} {g : β → α} (h : window c o n = l.map g) (hk : k + w ≤ n) :
    window c (o + k) w = ((l.drop k).take w).map g := by
  rw [List.map_take, List.map_drop, ← h]
  unfold window
  rw [← List.map_drop, ← List.map_take, List.drop_range', Nat.mul_one, show n - k = w + (n - k - w) by omega,
    ← List.range'_append_1, List.take_left' (by simp)]

theorem loadElem_ok {h : Heap Byte} {t : TecType} {p : Ptr} {l : Str} {N i : Nat} (H : Holds h p (l.map some))
    (hl : l.length = N * t.bytes) (hi : i < N) : loadElem t p i h = .ok (elem t.bytes l i) h := by
  obtain ⟨b, o, len, c, rfl, hb, hle, hw⟩ := H
  rw [List.length_map] at hle hw
  have hm : i * t.bytes + t.bytes ≤ N * t.bytes := by
    have := Nat.mul_le_mul_right t.bytes (by omega : i + 1 ≤ N)
    rw [Nat.add_mul, Nat.one_mul] at this; exact this
  unfold loadElem
  rw [M.bind_ok (Heap.padd_at (r := o + i * t.bytes) hb (by push_cast; rfl) (by show _ ≤ len; omega))]
  have hs := window_slice (k := i * t.bytes) (w := t.bytes) hw (by omega)
  have hlen : ((l.drop (i * t.bytes)).take t.bytes).length = t.bytes := by
    rw [List.length_take, List.length_drop]; omega
  have := loadBytes_ok hb ((l.drop (i * t.bytes)).take t.bytes) (o + i * t.bytes) (by omega) (by rw [hlen]; exact hs)
  rw [hlen] at this
  rw [M.bind_ok this]; rfl

theorem TecData.minmax_ok {h : Heap Byte} {d : TecData} {l : Str} {N : Nat} (ht : d.type ≠ .null) (H : Holds h d.buf (l.map some))
    (hl : l.length = N * d.type.bytes) (hN : 0 < N) (hk : ∀ i < N, (d.type.key (elem d.type.bytes l i)).isSome) :
    ∃ mm, d.minmax N h = .ok (d.type.toF64 mm.1, d.type.toF64 mm.2) h ∧
      IsMinMax (fun n => (d.type.key n).getD 0) (elem d.type.bytes l) N mm := by
  have lt_eq : ∀ i < N, ∀ j < N, d.type.lt (elem d.type.bytes l i) (elem d.type.bytes l j) =
      decide ((d.type.key (elem d.type.bytes l i)).getD 0 < (d.type.key (elem d.type.bytes l j)).getD 0) := by
    intro i hi j hj
    obtain ⟨a, ha⟩ := Option.isSome_iff_exists.mp (hk i hi)
    obtain ⟨b, hb⟩ := Option.isSome_iff_exists.mp (hk j hj)
    unfold TecType.lt
    rw [ha, hb]; rfl
  obtain ⟨mm, r, m⟩ := get_minmax_ok (fun n => (d.type.key n).getD 0) (fun a b => d.type.lt b a) d.type.lt (loadElem d.type d.buf)
    (elem d.type.bytes l) hN (s := h) (fun i hi => loadElem_ok H hl hi) (fun i hi j hj => lt_eq j hj i hi) lt_eq
  refine ⟨mm, ?_, m⟩
  unfold TecData.minmax
  rw [if_neg ht, M.bind_ok r]; rfl

end Verif.Tec
