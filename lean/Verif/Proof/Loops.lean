import Verif.Spec.Loops
import Verif.Proof.Acc
/-!
# Loops as runs over lists
-/
namespace Verif
open Spec

variable {σ : Type}

theorem M.ext {α : Type} {m m' : M σ α} (h : ∀ s, m s = m' s) : m = m' := funext h

@[simp] theorem runAll_nil {α : Type} (fn : α → M σ Unit) : runAll fn [] = pure () := rfl
theorem runAll_cons {α : Type} (fn : α → M σ Unit) (a : α) (l : List α) :
    runAll fn (a :: l) = (fn a >>= fun _ => runAll fn l) := rfl
theorem runAll_append {α : Type} (fn : α → M σ Unit) (l l' : List α) :
    runAll fn (l ++ l') = (runAll fn l >>= fun _ => runAll fn l') := by
  induction l with
  | nil => rfl
  | cons a l ih => simp only [List.cons_append, runAll_cons, ih, bind_assoc]
theorem runAll_map {α β : Type} (g : α → β) (fn : β → M σ Unit) (l : List α) :
    runAll fn (l.map g) = runAll (fun a => fn (g a)) l := by
  induction l with
  | nil => rfl
  | cons a l ih => simp only [List.map_cons, runAll_cons, ih]

@[simp] theorem foldAll_nil {α T : Type} (fn : T → α → M σ T) (t : T) : foldAll fn t [] = pure t := rfl
theorem foldAll_cons {α T : Type} (fn : T → α → M σ T) (t : T) (a : α) (l : List α) :
    foldAll fn t (a :: l) = (fn t a >>= fun t' => foldAll fn t' l) := rfl
theorem foldAll_append {α T : Type} (fn : T → α → M σ T) (t : T) (l l' : List α) :
    foldAll fn t (l ++ l') = (foldAll fn t l >>= fun t' => foldAll fn t' l') := by
  induction l generalizing t with
  | nil => simp [pure_bind]
  | cons a l ih => simp only [List.cons_append, foldAll_cons, ih, bind_assoc]
theorem foldAll_map {α β T : Type} (g : α → β) (fn : T → β → M σ T) (t : T) (l : List α) :
    foldAll fn t (l.map g) = foldAll (fun t a => fn t (g a)) t l := by
  induction l generalizing t with
  | nil => rfl
  | cons a l ih => simp only [List.map_cons, foldAll_cons, ih]

/-- `k` consecutive integers from `b` -/
def ints (b : Int) : Nat → List Int
  | 0 => []
  | k + 1 => b :: ints (b + 1) k

theorem mem_ints {b x : Int} {k : Nat} : x ∈ ints b k ↔ b ≤ x ∧ x < b + k := by
  induction k generalizing b with
  | zero => simp [ints] <;> omega
  | succ k ih => simp only [ints, List.mem_cons, ih]; omega

theorem ints_sorted (b : Int) (k : Nat) : (ints b k).Pairwise intLt := by
  induction k generalizing b with
  | zero => exact List.Pairwise.nil
  | succ k ih =>
    refine List.Pairwise.cons ?_ (ih _)
    intro x hx; rw [mem_ints] at hx; unfold intLt; omega

theorem enum_ints (b : Int) (s : Int) (h : 0 ≤ s) : Enumerates (ints b s.toNat) (Seg b s) intLt :=
  ⟨fun x => by rw [mem_ints]; unfold Seg; omega, ints_sorted _ _⟩

/-- `k` consecutive naturals from `b` -/
def nats (b : Nat) : Nat → List Nat
  | 0 => []
  | k + 1 => b :: nats (b + 1) k

theorem mem_nats {b x k : Nat} : x ∈ nats b k ↔ b ≤ x ∧ x < b + k := by
  induction k generalizing b with
  | zero => simp [nats] <;> omega
  | succ k ih => simp only [nats, List.mem_cons, ih]; omega

theorem nats_sorted (b : Nat) (k : Nat) : (nats b k).Pairwise natLt := by
  induction k generalizing b with
  | zero => exact List.Pairwise.nil
  | succ k ih =>
    refine List.Pairwise.cons ?_ (ih _)
    intro x hx; rw [mem_nats] at hx; unfold natLt; omega

theorem enum_nats (b e : Nat) (h : b ≤ e) :
    Enumerates (nats b (e - b)) (fun n => b ≤ n ∧ n < e) natLt :=
  ⟨fun x => by rw [mem_nats]; omega, nats_sorted _ _⟩

/-- all pairs, first component outermost -/
def pairs {α β : Type} (l : List α) (m : List β) : List (α × β) := l.flatMap fun a => m.map fun b => (a, b)

theorem pairs_cons {α β : Type} (a : α) (l : List α) (m : List β) :
    pairs (a :: l) m = m.map (fun b => (a, b)) ++ pairs l m := by simp [pairs]

theorem enum_pairs {α β : Type} {l : List α} {m : List β} {P : α → Prop} {Q : β → Prop}
    {lt : α → α → Prop} {lt' : β → β → Prop} (h : Enumerates l P lt) (h' : Enumerates m Q lt') :
    Enumerates (pairs l m) (fun p => P p.1 ∧ Q p.2) (lexLt lt lt') := by
  constructor
  · rintro ⟨a, b⟩
    simp [pairs, h.1, h'.1]
  · obtain ⟨-, h2⟩ := h
    induction l with
    | nil => exact List.Pairwise.nil
    | cons a l ih =>
      rw [pairs_cons, List.pairwise_append]
      rw [List.pairwise_cons] at h2
      refine ⟨?_, ih h2.2, ?_⟩
      · rw [List.pairwise_map]
        exact h'.2.imp fun h => Or.inr ⟨rfl, h⟩
      · rintro p hp ⟨c, d⟩ hq
        simp only [List.mem_map] at hp
        obtain ⟨b, -, rfl⟩ := hp
        simp only [pairs, List.mem_flatMap, List.mem_map] at hq
        obtain ⟨c', hc, d', -, hh⟩ := hq
        cases hh
        exact Or.inl (h2.1 _ hc)

theorem runAll_pairs {α β : Type} (l : List α) (m : List β) (fn : α × β → M σ Unit) :
    runAll fn (pairs l m) = runAll (fun a => runAll (fun b => fn (a, b)) m) l := by
  induction l with
  | nil => rfl
  | cons a l ih => rw [pairs_cons, runAll_append, runAll_map, ih, runAll_cons]

theorem foldAll_pairs {α β T : Type} (l : List α) (m : List β) (fn : T → α × β → M σ T) (t : T) :
    foldAll fn t (pairs l m) = foldAll (fun t a => foldAll (fun t b => fn t (a, b)) t m) t l := by
  induction l generalizing t with
  | nil => rfl
  | cons a l ih => rw [pairs_cons, foldAll_append, foldAll_map, foldAll_cons]; simp only [ih]

theorem loopI_eq (body : Int → M σ Unit) (k : Nat) (i : Int) : loopI body k i = runAll body (ints i k) := by
  induction k generalizing i with
  | zero => rfl
  | succ k ih => simp only [loopI, ints, runAll_cons, ih]

theorem forI_eq (b s : Int) (h : 0 ≤ s) (body : Int → M σ Unit) :
    forI b (b + s) body = runAll body (ints b s.toNat) := by
  unfold forI
  rw [if_pos (by omega), loopI_eq]
  congr 2; omega

theorem loopU_eq (body : Nat → M σ Unit) (k : Nat) (i : Nat) (h : i + k ≤ 4294967296) :
    loopU body k i = runAll body (nats i k) := by
  induction k generalizing i with
  | zero => rfl
  | succ k ih =>
    simp only [loopU, nats, runAll_cons]
    cases k with
    | zero => rfl
    | succ k => rw [u32_of_lt (by omega), ih _ (by omega)]

theorem forU_eq (b e : Nat) (h : b ≤ e) (he : e < 4294967296) (body : Nat → M σ Unit) :
    forU b e body = runAll body (nats b (e - b)) := by
  unfold forU
  have : u32 (e + 4294967296 - b) = e - b := by unfold u32; omega
  rw [this, loopU_eq _ _ _ (by omega)]

/-- the counter of an inverted `unsigned` loop wraps around -/
theorem forU_wrap (b e : Nat) (h : e < b) (hb : b < 4294967296) (body : Nat → M σ Unit) :
    forU b e body = runAll body (nats b (4294967296 - b) ++ nats 0 e) := by
  unfold forU
  have hk : u32 (e + 4294967296 - b) = (4294967296 - b) + e := by unfold u32; omega
  rw [hk, runAll_append]
  have : ∀ k b, b < 4294967296 → b + k = 4294967296 →
      loopU body (k + e) b = (runAll body (nats b k) >>= fun _ => runAll body (nats 0 e)) := by
    intro k
    induction k with
    | zero => intro b hb hk; omega
    | succ k ih =>
      intro b hb hk
      have : k + 1 + e = (k + e) + 1 := by omega
      rw [this]
      simp only [loopU, nats, runAll_cons, bind_assoc]
      congr 1; funext _
      cases k with
      | zero =>
        have h0 : u32 (b + 1) = 0 := by unfold u32; omega
        rw [h0, Nat.zero_add, loopU_eq _ _ _ (by omega)]; rfl
      | succ k => rw [u32_of_lt (by omega)]; exact ih _ (by omega) (by omega)
  exact this _ b hb (by omega)

theorem loopIAcc_eq {T : Type} (body : Int → T → M σ T) (k : Nat) (i : Int) (t : T) :
    loopIAcc body k i t = foldAll (fun t i => body i t) t (ints i k) := by
  induction k generalizing i t with
  | zero => rfl
  | succ k ih => simp only [loopIAcc, ints, foldAll_cons, ih]

theorem forIAcc_eq {T : Type} (b s : Int) (h : 0 ≤ s) (t : T) (body : Int → T → M σ T) :
    forIAcc b (b + s) t body = foldAll (fun t i => body i t) t (ints b s.toNat) := by
  unfold forIAcc
  rw [if_pos (by omega), loopIAcc_eq]
  congr 2; omega

theorem loopUAcc_eq {T : Type} (body : Nat → T → M σ T) (k : Nat) (i : Nat) (t : T) (h : i + k ≤ 4294967296) :
    loopUAcc body k i t = foldAll (fun t i => body i t) t (nats i k) := by
  induction k generalizing i t with
  | zero => rfl
  | succ k ih =>
    simp only [loopUAcc, nats, foldAll_cons]
    congr 1; funext t'
    cases k with
    | zero => rfl
    | succ k => rw [u32_of_lt (by omega), ih _ _ (by omega)]

theorem forUAcc_eq {T : Type} (b e : Nat) (h : b ≤ e) (he : e < 4294967296) (t : T) (body : Nat → T → M σ T) :
    forUAcc b e t body = foldAll (fun t i => body i t) t (nats b (e - b)) := by
  unfold forUAcc
  have : u32 (e + 4294967296 - b) = e - b := by unfold u32; omega
  rw [this, loopUAcc_eq _ _ _ _ (by omega)]

/-- an inverted `int` loop never returns normally: whatever the body does without
throwing, the counter overflows -/
theorem forI_inverted (b e : Int) (h : e < b) (body : Int → M σ Unit) :
    forI b e body = (runAll body (ints b (INT_MAX - b + 1).toNat) >>= fun _ => M.undef .overflow) := by
  unfold forI
  rw [if_neg (by omega), loopI_eq]

theorem runAll_ok {α : Type} (fn : α → M σ Unit) (l : List α) (s : σ) (h : ∀ a ∈ l, fn a s = .ok () s) :
    runAll fn l s = .ok () s := by
  induction l with
  | nil => rfl
  | cons a l ih =>
    rw [runAll_cons, M.bind_ok (h a (by simp))]
    exact ih fun a ha => h a (by simp [ha])

/-- a run split at the element that ends it -/
theorem runAll_stop {α : Type} (fn : α → M σ Unit) (l l' : List α) (a : α) (s s1 : σ)
    (h : runAll fn l s = .ok () s1) :
    (∀ e s2, fn a s1 = .err e s2 → runAll fn (l ++ a :: l') s = .err e s2) := by
  intro e s2 h2
  rw [runAll_append, M.bind_ok h, runAll_cons, M.bind_err h2]

/-- bounds of an axis -/
theorem D2.RangeT.begin_axis (chk : Bool) (r : D2.RangeT) {d : Nat} (h : d < 2) :
    r.begin_ chk d = .ok (r.axis d).1 := by
  match d, h with
  | 0, _ => simp [axis]
  | 1, _ => simp [axis]
theorem D2.RangeT.end_axis (chk : Bool) (r : D2.RangeT) {d : Nat} (h : d < 2) :
    r.end_ chk d = i32 ((r.axis d).1 + (r.axis d).2) := by
  match d, h with
  | 0, _ => simp [axis]
  | 1, _ => simp [axis]
theorem D3.RangeT.begin_axis (chk : Bool) (r : D3.RangeT) {d : Nat} (h : d < 3) :
    r.begin_ chk d = .ok (r.axis d).1 := by
  match d, h with
  | 0, _ => simp [axis]
  | 1, _ => simp [axis]
  | 2, _ => simp [axis]
theorem D3.RangeT.end_axis (chk : Bool) (r : D3.RangeT) {d : Nat} (h : d < 3) :
    r.end_ chk d = i32 ((r.axis d).1 + (r.axis d).2) := by
  match d, h with
  | 0, _ => simp [axis]
  | 1, _ => simp [axis]
  | 2, _ => simp [axis]

theorem D2.RangeT.axis_nonneg {r : D2.RangeT} (h : r.NonNeg) (d : Nat) : 0 ≤ (r.axis d).2 := by
  unfold NonNeg at h; unfold axis; split <;> simp [h]
theorem D3.RangeT.axis_nonneg {r : D3.RangeT} (h : r.NonNeg) (d : Nat) : 0 ≤ (r.axis d).2 := by
  unfold NonNeg at h; unfold axis; split <;> simp [h]
theorem D2.RangeT.axis_fit {r : D2.RangeT} (h : r.EndsFit) (d : Nat) :
    InI32 ((r.axis d).1 + (r.axis d).2) := by
  unfold EndsFit at h; unfold axis; split <;> simp [h]
theorem D3.RangeT.axis_fit {r : D3.RangeT} (h : r.EndsFit) (d : Nat) :
    InI32 ((r.axis d).1 + (r.axis d).2) := by
  unfold EndsFit at h; unfold axis; split <;> simp [h]

theorem leaves_fold {σ α T : Type} (ans : Ref σ T) (l : List α) (fn : T → α → M σ T) (h : ∀ t p, Leaves ans (fn t p)) (t : T) :
    Leaves ans (foldAll fn t l) := by
  induction l generalizing t with
  | nil => intro s; constructor <;> intro a s' h <;> cases h; rfl
  | cons p l ih =>
    intro s
    rw [foldAll_cons, M.bind_run]
    cases hm : fn t p s with
    | ok t' s1 =>
      have h1 := (h t p s).1 _ _ hm
      have h2 := ih t' s1
      simp only [h1] at h2
      exact h2
    | err e s1 =>
      have h1 := (h t p s).2 _ _ hm
      constructor
      · intro a s' hh; cases hh
      · intro e' s' hh; cases hh; exact h1
    | ub u => constructor <;> intro a s' hh <;> cases hh

theorem reduceSpec_err {σ α T : Type} (l : List α) (ans : Ref σ T) (reduce : T → T → M σ T) (fn : α → M σ T)
    (hr : ∀ x t, Leaves ans (reduce x t)) (hf : ∀ p, Leaves ans (fn p)) (s s' : σ) (e : Err)
    (h : reduceSpec l ans reduce fn s = .err e s') : ans.get s' = ans.get s := by
  have hb : ∀ t p, Leaves ans (do let x ← fn p; reduce x t : M σ T) := by
    intro t p s
    rw [M.bind_run]
    cases hm : fn p s with
    | ok x s1 =>
      have h1 := (hf p s).1 _ _ hm
      have h2 := hr x t s1
      simp only [h1] at h2
      exact h2
    | err e s1 =>
      have h1 := (hf p s).2 _ _ hm
      constructor
      · intro a s' hh; cases hh
      · intro e' s' hh; cases hh; exact h1
    | ub u => constructor <;> intro a s' hh <;> cases hh
  have hl := leaves_fold ans l _ hb (ans.get s) s
  simp only [reduceSpec, Ref.read, Ref.write, M.bind_run] at h
  cases hm : foldAll (fun t p => do let x ← fn p; reduce x t) (ans.get s) l s with
  | ok t s1 =>
    rw [hm] at h; simp only at h
    have h1 := hl.1 _ _ hm
    have h2 := hr t (ans.get s1) s1
    cases hq : reduce t (ans.get s1) s1 with
    | ok a s2 => rw [hq] at h; cases h
    | err e' s2 => rw [hq] at h; simp only at h; cases h; rw [h2.2 _ _ hq, h1]
    | ub u => rw [hq] at h; cases h
  | err e' s1 => rw [hm] at h; simp only at h; cases h; exact hl.2 _ _ hm
  | ub u => rw [hm] at h; cases h

end Verif
