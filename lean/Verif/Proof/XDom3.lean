import Verif.Proof.XDom2
import Mathlib.Order.WellFoundedSet
/-!
# Walks over children, cycles, new nodes
-/
set_option linter.unusedSimpArgs false
namespace Verif
open Spec Xml.Dom

/-! ## walks -/

theorem Outs.next_mid {s : Dom} {K : Nat → List Nat} {A : List Nat} (S : Outs s K A) {p c : Nat} {pre post : List Nat} (e : K p = pre ++ c :: post) :
    s.live c = true ∧ s.next c = post.head? ∧ s.prev c = pre.getLast? := by
  have hnd : (pre ++ c :: post).Nodup := e ▸ S.nodup p
  obtain ⟨n1, n2, n3⟩ := nodup_mid hnd
  have m : c ∈ K p := by rw [e]; simp
  obtain ⟨k1, k2, k3, k4, k5, k6⟩ := S.kid p c m
  rw [e, behind_mid n1] at k4
  rw [e, before_mid n1 n2] at k3
  exact ⟨k1, k4, k3⟩

theorem Outs.walk_next {s : Dom} {K : Nat → List Nat} {A : List Nat} (S : Outs s K A) {p : Nat} (post : List Nat) :
    ∀ (n : Nat) (pre : List Nat), K p = pre ++ post → post.length < n → walk Dom.next n post.head? s = .ok post s := by
  induction post with
  | nil =>
    intro n pre _ hn
    cases n with
    | zero => cases hn
    | succ n => rfl
  | cons c r ih =>
    intro n pre e hn
    cases n with
    | zero => cases hn
    | succ n =>
      obtain ⟨h1, h2, _⟩ := S.next_mid e
      simp only [List.head?_cons, walk]
      rw [M.bind_ok (rd_ok h1), h2, M.bind_ok (ih n (pre ++ [c]) (by rw [e]; simp) (by simpa using hn))]
      rfl

theorem Outs.walk_prev {s : Dom} {K : Nat → List Nat} {A : List Nat} (S : Outs s K A) {p : Nat} (rpre : List Nat) :
    ∀ (n : Nat) (post : List Nat), K p = rpre.reverse ++ post → rpre.length < n → walk Dom.prev n rpre.head? s = .ok rpre s := by
  induction rpre with
  | nil =>
    intro n pre _ hn
    cases n with
    | zero => cases hn
    | succ n => rfl
  | cons c r ih =>
    intro n post e hn
    cases n with
    | zero => cases hn
    | succ n =>
      have e' : K p = r.reverse ++ c :: post := by rw [e]; simp
      obtain ⟨h1, _, h2⟩ := S.next_mid e'
      simp only [List.head?_cons, walk]
      rw [List.getLast?_reverse] at h2
      rw [M.bind_ok (rd_ok h1), h2, M.bind_ok (ih n (c :: post) e' (by simpa using hn))]
      rfl

theorem Outs.find_next {s : Dom} {K : Nat → List Nat} {A : List Nat} (S : Outs s K A) (f : Nat → Bool) {p : Nat} (post : List Nat) :
    ∀ (n : Nat) (pre : List Nat), K p = pre ++ post → post.length < n → Xml.Dom.find f Dom.next n post.head? s = .ok (post.find? f) s := by
  induction post with
  | nil =>
    intro n pre _ hn
    cases n with
    | zero => cases hn
    | succ n => rfl
  | cons c r ih =>
    intro n pre e hn
    cases n with
    | zero => cases hn
    | succ n =>
      obtain ⟨h1, h2, _⟩ := S.next_mid e
      simp only [List.head?_cons, Xml.Dom.find, List.find?_cons]
      cases f c with
      | true => rfl
      | false =>
        simp only [Bool.false_eq_true, if_false]
        rw [M.bind_ok (rd_ok h1), h2, ih n (pre ++ [c]) (by rw [e]; simp) (by simpa using hn)]

theorem Outs.find_prev {s : Dom} {K : Nat → List Nat} {A : List Nat} (S : Outs s K A) (f : Nat → Bool) {p : Nat} (rpre : List Nat) :
    ∀ (n : Nat) (post : List Nat), K p = rpre.reverse ++ post → rpre.length < n → Xml.Dom.find f Dom.prev n rpre.head? s = .ok (rpre.find? f) s := by
  induction rpre with
  | nil =>
    intro n pre _ hn
    cases n with
    | zero => cases hn
    | succ n => rfl
  | cons c r ih =>
    intro n post e hn
    cases n with
    | zero => cases hn
    | succ n =>
      have e' : K p = r.reverse ++ c :: post := by rw [e]; simp
      obtain ⟨h1, _, h2⟩ := S.next_mid e'
      simp only [List.head?_cons, Xml.Dom.find, List.find?_cons]
      cases f c with
      | true => rfl
      | false =>
        simp only [Bool.false_eq_true, if_false]
        rw [List.getLast?_reverse] at h2
        rw [M.bind_ok (rd_ok h1), h2, ih n (c :: post) e' (by simpa using hn)]

/-! ## cycles -/

/-- each node is in one list only -/
def OneParent (K : Nat → List Nat) : Prop := ∀ c p q, c ∈ K p → c ∈ K q → p = q

theorem Outs.oneParent {s : Dom} {K : Nat → List Nat} {A : List Nat} (S : Outs s K A) : OneParent K := by
  intro c p q h1 h2
  have a := (S.kid p c h1).2.1
  have b := (S.kid q c h2).2.1
  rw [a] at b
  exact Option.some.inj b

/-- an edge of the lists behind an insertion -/
theorem mem_moved {K : Nat → List Nat} {a p : Nat} {f : List Nat → List Nat} (nd : ∀ q, (K q).Nodup) (hf : ∀ l c, c ∈ f l → c ∈ l ∨ c = a) {c q : Nat}
    (h : c ∈ moved K a p f q) : (c ∈ K q ∧ c ≠ a) ∨ (c = a ∧ q = p) := by
  unfold moved at h
  have er : c ∈ (K q).erase a → c ∈ K q ∧ c ≠ a := fun h => ⟨List.mem_of_mem_erase h, fun e => (nd q).not_mem_erase (e ▸ h)⟩
  split at h
  · rename_i e
    rcases hf _ _ h with h | h
    · exact Or.inl (er h)
    · exact Or.inr ⟨h, e⟩
  · exact Or.inl (er h)

theorem moved_below {K : Nat → List Nat} {a p : Nat} {f : List Nat → List Nat} (nd : ∀ q, (K q).Nodup) (hf : ∀ l c, c ∈ f l → c ∈ l ∨ c = a)
    (h : ¬ Below K p a) {x y : Nat} (hb : Below (moved K a p f) x y) : Below K x y ∨ (Below K x a ∧ Below K p y) := by
  induction hb using Relation.ReflTransGen.head_induction_on with
  | refl => exact Or.inl Relation.ReflTransGen.refl
  | head e _ ih =>
    rcases mem_moved nd hf e with ⟨m, _⟩ | ⟨e1, e2⟩
    · rcases ih with ih | ⟨i1, i2⟩
      · exact Or.inl (Relation.ReflTransGen.head m ih)
      · exact Or.inr ⟨Relation.ReflTransGen.head m i1, i2⟩
    · subst e1 e2
      rcases ih with ih | ⟨i1, i2⟩
      · exact Or.inr ⟨Relation.ReflTransGen.refl, ih⟩
      · exact absurd i1 h

theorem Acyclic.moved {K : Nat → List Nat} (C : Acyclic K) {a p : Nat} {f : List Nat → List Nat} (nd : ∀ q, (K q).Nodup)
    (hf : ∀ l c, c ∈ f l → c ∈ l ∨ c = a) (h : ¬ Below K p a) : Acyclic (moved K a p f) := by
  intro x hx
  obtain ⟨y, e, r⟩ := Relation.TransGen.head'_iff.mp hx
  rcases mem_moved nd hf e with ⟨m, _⟩ | ⟨e1, e2⟩
  · rcases moved_below nd hf h r with r | ⟨r1, r2⟩
    · exact C x (Relation.TransGen.head' m r)
    · exact h (r2.trans (Relation.ReflTransGen.head m r1))
  · subst e1 e2
    rcases moved_below nd hf h r with r | ⟨r1, r2⟩
    · exact h r
    · exact h r1

/-- inserting a node below itself makes a cycle -/
theorem moved_cyclic {K : Nat → List Nat} {a p : Nat} {f : List Nat → List Nat} (hf : a ∈ f ((K p).erase a))
    (hm : ∀ c, c ∈ (K p).erase a → c ∈ f ((K p).erase a)) (h : Below K p a) : ¬ Acyclic (moved K a p f) := by
  intro C
  have key : ∀ x, Below K x a → Below (moved K a p f) x a := by
    intro x hx
    induction hx using Relation.ReflTransGen.head_induction_on with
    | refl => exact Relation.ReflTransGen.refl
    | @head x y e _ ih =>
      by_cases hx : x = a
      · subst hx; exact Relation.ReflTransGen.refl
      · refine Relation.ReflTransGen.head ?_ ih
        unfold moved
        have : x ∈ (K y).erase a := (List.mem_erase_of_ne hx).mpr e
        split
        · rename_i e; subst e; exact hm _ this
        · exact this
  refine C a (Relation.TransGen.head' (b := p) ?_ (key p h))
  unfold moved; rw [if_pos rfl]; exact hf

/-! ## finitely many nodes without a cycle -/

theorem wf_of_finite {r : Nat → Nat → Prop} {N : Nat} (hN : ∀ x y, r x y → x < N ∧ y < N) (C : ∀ c, ¬ Relation.TransGen r c c) : WellFounded r := by
  letI : Std.Irrefl (Relation.TransGen r) := ⟨C⟩
  letI : IsTrans Nat (Relation.TransGen r) := ⟨fun _ _ _ => Relation.TransGen.trans⟩
  letI : IsStrictOrder Nat (Relation.TransGen r) := {}
  have h : (Set.Iio N).WellFoundedOn (Relation.TransGen r) := (Set.finite_Iio N).wellFoundedOn
  rw [Set.wellFoundedOn_iff] at h
  exact Subrelation.wf (fun {x y} hxy => ⟨Relation.TransGen.single hxy, (hN x y hxy).1, (hN x y hxy).2⟩) h

/-- a bound of the numbers of nodes -/
def Few (s : Dom) : Prop := ∃ N, ∀ c, s.live c = true → c < N

theorem Outs.wf {s : Dom} {K : Nat → List Nat} {A : List Nat} (S : Outs s K A) (F : Few s) (C : Acyclic K) :
    WellFounded (fun c p => c ∈ K p) := by
  obtain ⟨N, hN⟩ := F
  exact wf_of_finite (fun x y h => ⟨hN x (S.kid y x h).1, hN y (S.live_of_kid h)⟩) C

theorem Outs.wf_up {s : Dom} {K : Nat → List Nat} {A : List Nat} (S : Outs s K A) (F : Few s) (C : Acyclic K) :
    WellFounded (fun p c => c ∈ K p) := by
  obtain ⟨N, hN⟩ := F
  refine wf_of_finite (N := N) (fun x y h => ⟨hN x (S.live_of_kid h), hN y (S.kid x y h).1⟩) (fun c h => C c ?_)
  exact Relation.transGen_swap.mp h

/-! ## new nodes -/

theorem Outs.newNode {s : Dom} {K : Nat → List Nat} (S : Outs s K []) {d c : Nat} (hd : s.live d = true) (hdd : s.doc d = d) (hc : s.live c = false) :
    ∃ s', Xml.Dom.newNode d c s = .ok () s' ∧ Outs s' K [] ∧ s'.live = put s.live c true ∧ s'.doc = put s.doc c d := by
  have cd : d ≠ c := fun e => by rw [e, hc] at hd; cases hd
  have hK : K c = [] := S.gone c hc
  have nk : ∀ p, c ∉ K p := fun p m => by rw [(S.kid p c m).1] at hc; cases hc
  have np : ∀ q x, x ∈ K q → q ≠ c ∧ x ≠ c := fun q x m => ⟨fun e => (by rw [e, hK] at m; cases m), fun e => nk q (e ▸ m)⟩
  have hl : ∀ q, put s.live c true q = true → q ≠ c → s.live q = true := fun q h1 h2 => by rwa [dput_ne _ _ h2] at h1
  unfold Xml.Dom.newNode
  rw [M.bind_ok (by rfl), wr_ok (by show put s.live c true d = true; rw [dput_ne _ _ cd]; exact hd)]
  refine ⟨_, rfl, ⟨S.nodup, ?_, ?_, ?_, ?_, ?_, ?_, ?_, fun a h => absurd h List.not_mem_nil⟩, rfl, rfl⟩
  · intro p hp
    by_cases e : p = c
    · rw [e, hK]
    · exact S.gone p (by have : put s.live c true p = false := hp
                         rwa [dput_ne _ _ e] at this)
  · intro p hp
    by_cases e : p = c
    · subst e; rw [hK]; simp
    · dsimp only; rw [dput_ne _ _ e, dput_ne _ _ e]; exact S.ends p (hl p hp e)
  · intro p x hx
    obtain ⟨e1, e2⟩ := np p x hx
    dsimp only
    rw [dput_ne _ _ e2, dput_ne _ _ e2, dput_ne _ _ e2, dput_ne _ _ e2, dput_ne _ _ e2, dput_ne _ _ e1]
    exact S.kid p x hx
  · intro x hx hp
    dsimp only at hp ⊢
    by_cases e : x = c
    · subst e; simp
    · rw [dput_ne _ _ e] at hp ⊢; rw [dput_ne _ _ e]; exact S.top x (hl x hx e) hp
  · intro x p hx hp
    dsimp only at hp ⊢
    by_cases e : x = c
    · subst e; simp at hp
    · rw [dput_ne _ _ e] at hp; exact S.child x p (hl x hx e) hp
  · intro x hx
    dsimp only
    by_cases e : x = c
    · subst e; rw [dput_self, dput_ne _ _ cd, dput_ne _ _ cd]; exact ⟨hd, hdd⟩
    · have := S.own x (hl x hx e)
      rw [dput_ne _ _ e]
      have e' : s.doc x ≠ c := fun e2 => by rw [e2, hc] at this; cases this.1
      rw [dput_ne _ _ e', dput_ne _ _ e']; exact this
  · intro d' h1 h2
    dsimp only at h1 h2 ⊢
    have e : d' ≠ c := by
      intro e
      subst e
      rw [dput_self] at h2
      exact cd h2
    rw [dput_ne _ _ e] at h1 h2
    obtain ⟨l1, l2⟩ := S.loose d' h1 h2
    have cn : c ∉ s.unlinked d' := fun m => by rw [((l2 c).mp m).1] at hc; cases hc
    by_cases ed : d' = d
    · subst ed
      rw [dput_self]
      refine ⟨List.nodup_append.mpr ⟨l1, by simp, fun x hx y hy => by
        simp only [List.mem_singleton] at hy; subst hy; exact fun e => cn (e ▸ hx)⟩, fun u => ?_⟩
      rw [List.mem_append, l2 u]
      by_cases eu : u = c
      · subst eu; simp [e.symm]
      · rw [dput_ne _ _ eu, dput_ne _ _ eu, dput_ne _ _ eu]; simp [eu]
    · rw [dput_ne _ _ ed]
      refine ⟨l1, fun u => ?_⟩
      rw [l2 u]
      by_cases eu : u = c
      · subst eu; simp [hc, Ne.symm ed]
      · rw [dput_ne _ _ eu, dput_ne _ _ eu, dput_ne _ _ eu]

theorem Outs.newDocument {s : Dom} {K : Nat → List Nat} (S : Outs s K []) {c : Nat} (hc : s.live c = false) :
    ∃ s', Xml.Dom.newDocument c s = .ok () s' ∧ Outs s' K [] ∧ s'.live = put s.live c true ∧ s'.doc = put s.doc c c := by
  have hK : K c = [] := S.gone c hc
  have nk : ∀ p, c ∉ K p := fun p m => by rw [(S.kid p c m).1] at hc; cases hc
  have np : ∀ q x, x ∈ K q → q ≠ c ∧ x ≠ c := fun q x m => ⟨fun e => (by rw [e, hK] at m; cases m), fun e => nk q (e ▸ m)⟩
  have hl : ∀ q, put s.live c true q = true → q ≠ c → s.live q = true := fun q h1 h2 => by rwa [dput_ne _ _ h2] at h1
  have nd : ∀ x, s.live x = true → s.doc x ≠ c := fun x hx e => by
    have := (S.own x hx).1
    rw [e, hc] at this; cases this
  refine ⟨_, rfl, ⟨S.nodup, ?_, ?_, ?_, ?_, ?_, ?_, ?_, fun a h => absurd h List.not_mem_nil⟩, rfl, rfl⟩
  · intro p hp
    by_cases e : p = c
    · rw [e, hK]
    · exact S.gone p (by have : put s.live c true p = false := hp
                         rwa [dput_ne _ _ e] at this)
  · intro p hp
    by_cases e : p = c
    · subst e; rw [hK]; simp
    · dsimp only; rw [dput_ne _ _ e, dput_ne _ _ e]; exact S.ends p (hl p hp e)
  · intro p x hx
    obtain ⟨e1, e2⟩ := np p x hx
    dsimp only
    rw [dput_ne _ _ e2, dput_ne _ _ e2, dput_ne _ _ e2, dput_ne _ _ e2, dput_ne _ _ e2, dput_ne _ _ e1]
    exact S.kid p x hx
  · intro x hx hp
    dsimp only at hp ⊢
    by_cases e : x = c
    · subst e; simp
    · rw [dput_ne _ _ e] at hp ⊢; rw [dput_ne _ _ e]; exact S.top x (hl x hx e) hp
  · intro x p hx hp
    dsimp only at hp ⊢
    by_cases e : x = c
    · subst e; simp at hp
    · rw [dput_ne _ _ e] at hp; exact S.child x p (hl x hx e) hp
  · intro x hx
    dsimp only
    by_cases e : x = c
    · subst e; simp
    · have := S.own x (hl x hx e)
      rw [dput_ne _ _ e, dput_ne _ _ (nd x (hl x hx e)), dput_ne _ _ (nd x (hl x hx e))]; exact this
  · intro d' h1 h2
    dsimp only at h1 h2 ⊢
    by_cases e : d' = c
    · subst e
      rw [dput_self]
      refine ⟨List.nodup_nil, fun u => ⟨fun h => absurd h List.not_mem_nil, ?_⟩⟩
      rintro ⟨u1, u2, u3, u4, u5⟩
      rw [dput_ne _ _ u2] at u1 u3
      exact absurd u3 (nd u u1)
    · rw [dput_ne _ _ e] at h1 h2 ⊢
      obtain ⟨l1, l2⟩ := S.loose d' h1 h2
      refine ⟨l1, fun u => ?_⟩
      rw [l2 u]
      by_cases eu : u = c
      · subst eu; simp [hc, Ne.symm e]
      · rw [dput_ne _ _ eu, dput_ne _ _ eu, dput_ne _ _ eu]

end Verif
