import Verif.Proof.XPool3
/-! # `MemPoolT`: all operations, in any order -/
namespace Verif.Proof
open Verif.Xml Verif.Xml.Pool Verif.Spec.Items

variable {per : Nat} {p : MP} {s : St} {bl : List Nat} {fl : List Item}

theorem mp_step (h : Holds per p s bl fl) (hper : 0 < per) (k : Nat) (hk : bl.length < k) (o : Op) (hm : may s o) :
    ∃ a p' s' bl' fl', exec per k o p = .ok a p' ∧ Step s o a s' ∧ Holds per p' s' bl' fl' ∧ bl'.length ≤ bl.length + 1 := by
  cases o with
  | alloc =>
    obtain ⟨it, p', bl', fl', e, hn, -, hl, h'⟩ := mp_alloc h hper hm
    exact ⟨_, p', _, bl', fl', M.bind_ok e, .alloc it hn, h', hl⟩
  | free it =>
    obtain ⟨p', e, h'⟩ := mp_free h hm
    exact ⟨_, p', _, _, _, M.bind_ok e, .free it, h', Nat.le_succ _⟩
  | freeNull => exact ⟨_, p, _, _, _, rfl, .freeNull, h, Nat.le_succ _⟩
  | write it v =>
    obtain ⟨p', e, h'⟩ := mp_write h hm v
    exact ⟨_, p', _, _, _, M.bind_ok e, .write it v, h', Nat.le_succ _⟩
  | read it =>
    obtain ⟨hi, v, hv⟩ := hm
    exact ⟨_, p, _, _, _, M.bind_ok (mp_read h hi hv), .read hv, h, Nat.le_succ _⟩
  | setTracked =>
    obtain ⟨p', e, h'⟩ := mp_setTracked h hm
    exact ⟨_, p', _, _, _, M.bind_ok e, .setTracked, h', Nat.le_succ _⟩
  | current =>
    refine ⟨_, p, _, _, _, ?_, .current, h, Nat.le_succ _⟩
    rw [← h.cur]; rfl
  | untracked =>
    refine ⟨_, p, _, _, _, ?_, .untracked, h, Nat.le_succ _⟩
    rw [← h.untracked]; rfl
  | clear =>
    obtain ⟨p', e, h', -⟩ := mp_clear h k hk
    exact ⟨_, p', _, _, _, M.bind_ok e, .clear, h', Nat.zero_le _⟩

theorem mp_steps (hper : 0 < per) (k : Nat) (os : List Op) : ∀ {p : MP} {s : St} {bl : List Nat} {fl : List Item}, Holds per p s bl fl → bl.length + os.length < k → safe os s →
    ∃ as p' s' bl' fl', execAll per k os p = .ok as p' ∧ Steps s os as s' ∧ Holds per p' s' bl' fl' ∧ bl'.length ≤ bl.length + os.length := by
  induction os with
  | nil => intro p s bl fl h _ _; exact ⟨[], p, s, bl, fl, rfl, .nil s, h, Nat.le_refl _⟩
  | cons o os ih =>
    intro p s bl fl h hk ⟨hm, hx⟩
    simp only [List.length_cons] at hk
    obtain ⟨a, p₁, s₁, bl₁, fl₁, e, hs, h₁, hl⟩ := mp_step h hper k (by omega) o hm
    obtain ⟨as, p₂, s₂, bl₂, fl₂, e₂, hs₂, h₂, hl₂⟩ := ih h₁ (by omega) (hx a s₁ hs)
    exact ⟨a :: as, p₂, s₂, bl₂, fl₂, (M.bind_ok e).trans (M.bind_ok e₂), .cons hs hs₂, h₂, by simp only [List.length_cons]; omega⟩

/-- an item is taken and given back -/
def takeAndReturn (per : Nat) : M MP Unit := do
  let it ← Alloc per (fun _ => true) (fun _ => true)
  Free per (some it)

def churn (per : Nat) : Nat → M MP Unit
  | 0 => pure ()
  | m + 1 => do
    takeAndReturn per
    churn per m

theorem mp_churn (hper : 0 < per) (m : Nat) : ∀ {p : MP} {s : St} {bl : List Nat} {fl : List Item}, Holds per p s bl fl → s.used = [] → ((s.n + m : Nat) : Int) ≤ INT_MAX →
    ∃ p' s' bl' fl', churn per m p = .ok () p' ∧ Holds per p' s' bl' fl' ∧ s'.used = [] ∧ s'.n = s.n + m := by
  induction m with
  | zero => intro p s bl fl h hu hn; exact ⟨p, s, bl, fl, rfl, h, hu, rfl⟩
  | succ m ih =>
    intro p s bl fl h hu hn
    obtain ⟨it, p₁, bl₁, fl₁, e₁, -, -, -, h₁⟩ := mp_alloc h hper ⟨by push_cast at hn ⊢; omega, by rw [hu]; decide⟩
    obtain ⟨p₂, e₂, h₂⟩ := mp_free h₁ (it := it) (List.mem_cons_self ..)
    obtain ⟨p₃, s₃, bl₃, fl₃, e₃, h₃, hu₃, hn₃⟩ := ih h₂ (by simp [hu]) (by dsimp only; push_cast at hn ⊢; omega)
    refine ⟨p₃, s₃, bl₃, fl₃, ?_, h₃, hu₃, by rw [hn₃]; dsimp only; omega⟩
    exact (M.bind_ok ((M.bind_ok e₁).trans e₂)).trans e₃

/-- the counter at its end -/
theorem mp_full (h : Holds per p s bl fl) (hfl : fl ≠ []) (hu : s.used = []) (hn : (s.n : Int) = INT_MAX) : Alloc per (fun _ => true) (fun _ => true) p = .ub .overflow := by
  obtain ⟨it, fl, rfl⟩ := List.exists_cons_of_ne_nil hfl
  have hm := h.free
  generalize hroot : p.root = rt at hm
  cases hm with
  | @cons _ nx _ e hl =>
  obtain ⟨h1, h2⟩ := (h.all it).1 (by simp)
  unfold Alloc
  rw [M.get_bind_run, hroot]
  dsimp only
  unfold takeItem
  rw [M.get_bind_run, hroot]
  dsimp only
  have er : rdNext per it p = .ok nx p := by
    unfold rdNext
    rw [M.bind_ok (mp_rd ((h.live _).2 h1) h2), e]; rfl
  rw [M.bind_ok er, mp_i32 (by rw [h.cur]; omega) (by rw [h.cur, hu]; decide)]
  have : i32 (p.n + 1) = .ub .overflow := if_neg fun hi => by
    have : p.n + 1 ≤ INT_MAX := hi.2
    rw [h.n, hn] at this
    omega
  rw [this]
  rfl

theorem mp_churn_nonempty (hper : 0 < per) (m : Nat) : ∀ {p p' : MP} {s s' : St} {bl bl' : List Nat} {fl fl' : List Item}, Holds per p s bl fl → Holds per p' s' bl' fl' →
    s.used = [] → s'.used = [] → ((s.n + (m + 1) : Nat) : Int) ≤ INT_MAX → churn per (m + 1) p = .ok () p' → fl' ≠ [] := by
  induction m with
  | zero =>
    intro p p' s s' bl bl' fl fl' h h' hu hu' hn e
    obtain ⟨it, p₁, bl₁, fl₁, e₁, -, -, -, h₁⟩ := mp_alloc h hper ⟨by push_cast at hn ⊢; omega, by rw [hu]; decide⟩
    obtain ⟨p₂, e₂, h₂⟩ := mp_free h₁ (it := it) (List.mem_cons_self ..)
    have : churn per 1 p = .ok () p₂ := M.bind_ok ((M.bind_ok e₁).trans e₂)
    rw [this] at e
    cases e
    rintro rfl
    have a := h₂.free
    have b := h'.free
    generalize p'.root = r at a b
    cases a; cases b
  | succ m ih =>
    intro p p' s s' bl bl' fl fl' h h' hu hu' hn e
    obtain ⟨it, p₁, bl₁, fl₁, e₁, -, -, -, h₁⟩ := mp_alloc h hper ⟨by push_cast at hn ⊢; omega, by rw [hu]; decide⟩
    obtain ⟨p₂, e₂, h₂⟩ := mp_free h₁ (it := it) (List.mem_cons_self ..)
    have : churn per (m + 2) p = churn per (m + 1) p₂ := M.bind_ok ((M.bind_ok e₁).trans e₂)
    rw [this] at e
    exact ih h₂ h' (by simp [hu]) hu' (by dsimp only; push_cast at hn ⊢; omega) e

theorem churn_succ (per m : Nat) : ∀ p p' : MP, churn per m p = .ok () p' → takeAndReturn per p' = .ub .overflow → churn per (m + 1) p = .ub .overflow := by
  induction m with
  | zero => intro p p' e e'; cases e; exact M.bind_ub e'
  | succ m ih =>
    intro p p' e e'
    have e : (takeAndReturn per >>= fun _ => churn per m) p = _ := e
    rw [M.bind_run] at e
    show (takeAndReturn per >>= fun _ => churn per (m + 1)) p = _
    cases h : takeAndReturn per p with
    | err x y => rw [h] at e; cases e
    | ub x => rw [h] at e; cases e
    | ok a p₁ =>
      rw [h] at e
      rw [M.bind_ok h]
      exact ih p₁ p' e e'

theorem mp_churn_limit (hper : 0 < per) (m : Nat) (hm : (m : Int) = INT_MAX + 1) : churn per m make = .ub .overflow := by
  obtain ⟨j, rfl⟩ : ∃ j, m = j + 2 := ⟨m - 2, by unfold INT_MAX at hm; omega⟩
  have hj : ((start.n + (j + 1) : Nat) : Int) = INT_MAX := by
    show ((0 + (j + 1) : Nat) : Int) = INT_MAX
    push_cast at hm ⊢; omega
  obtain ⟨p, s, bl, fl, e, h, hu, hn⟩ := mp_churn hper (j + 1) (mp_make per) rfl (Int.le_of_eq hj)
  have hne := mp_churn_nonempty hper j (mp_make per) h rfl hu (Int.le_of_eq hj) e
  exact churn_succ per (j + 1) _ _ e (M.bind_ub (mp_full h hne hu (by rw [hn]; exact hj)))

end Verif.Proof
