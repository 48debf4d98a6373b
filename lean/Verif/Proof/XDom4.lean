import Verif.Proof.XDom3
/-!
# Deletion of nodes
-/
set_option linter.unusedSimpArgs false
namespace Verif
open Spec Xml.Dom
open Classical

/-- the lists without the nodes of `D` -/
theorem pruned_false (K : Nat → List Nat) : pruned K (fun _ => False) = K := by
  funext q
  simp [pruned]

theorem mem_pruned {K : Nat → List Nat} {D : Nat → Prop} {c q : Nat} : c ∈ pruned K D q ↔ c ∈ K q ∧ ¬ D c ∧ ¬ D q := by
  unfold pruned
  split
  · rename_i h; simp [h]
  · rename_i h; simp [h]

theorem Outs.free {s : Dom} {K : Nat → List Nat} {A : List Nat} {a : Nat} (S : Outs s K (a :: A)) (hA : a ∉ A) (hK : K a = []) :
    Xml.Dom.free a s = .ok () { s with live := put s.live a false } ∧ Outs { s with live := put s.live a false } K A := by
  obtain ⟨a1, a2, a3⟩ := S.out a List.mem_cons_self
  have nk : ∀ p, a ∉ K p := fun p m => by
    have := (S.kid p a m).2.1
    rw [a2] at this; cases this
  have hl : ∀ q, put s.live a false q = true → s.live q = true ∧ q ≠ a := by
    intro q h
    have : q ≠ a := fun e => by rw [e, dput_self] at h; cases h
    rw [dput_ne _ _ this] at h
    exact ⟨h, this⟩
  have nd : ∀ x, s.live x = true → s.doc x ≠ a := fun x hx e => by
    have := (S.own x hx).2
    rw [e] at this
    exact a3 this
  refine ⟨by unfold Xml.Dom.free; rw [if_pos a1], S.nodup, ?_, ?_, ?_, ?_, ?_, ?_, ?_, ?_⟩
  · intro p hp
    by_cases e : p = a
    · rw [e, hK]
    · exact S.gone p (by have : put s.live a false p = false := hp
                         rwa [dput_ne _ _ e] at this)
  · intro p hp
    exact S.ends p (hl p hp).1
  · intro p c hc
    have e : c ≠ a := fun e => nk p (e ▸ hc)
    obtain ⟨k1, k2⟩ := S.kid p c hc
    exact ⟨by show put s.live a false c = true; rw [dput_ne _ _ e]; exact k1, k2⟩
  · intro c hc; exact S.top c (hl c hc).1
  · intro c p hc; exact S.child c p (hl c hc).1
  · intro c hc
    have := S.own c (hl c hc).1
    refine ⟨?_, this.2⟩
    show put s.live a false (s.doc c) = true
    rw [dput_ne _ _ (nd c (hl c hc).1)]; exact this.1
  · intro d h1 h2
    obtain ⟨l1, l2⟩ := S.loose d (hl d h1).1 h2
    refine ⟨l1, fun u => ?_⟩
    rw [l2 u]
    show _ ↔ put s.live a false u = true ∧ _
    by_cases e : u = a
    · subst e; simp
    · rw [dput_ne _ _ e]; simp [e]
  · intro b hb
    obtain ⟨b1, b2⟩ := S.out b (List.mem_cons_of_mem _ hb)
    exact ⟨by show put s.live a false b = true; rw [dput_ne _ _ (fun e : b = a => hA (e ▸ hb))]; exact b1, b2⟩

/-! ## subtrees -/

theorem acyclic_of_wf {K : Nat → List Nat} (W : WellFounded (fun c p => c ∈ K p)) : Acyclic K := by
  intro c h
  exact W.transGen.irrefl.irrefl c h

theorem Acyclic.mono {K K' : Nat → List Nat} (C : Acyclic K) (h : ∀ c p, c ∈ K' p → c ∈ K p) : Acyclic K' :=
  fun c hc => C c (Relation.TransGen.mono (fun x y e => h x y e) _ _ hc)

theorem Below.mono {K K' : Nat → List Nat} (h : ∀ c p, c ∈ K' p → c ∈ K p) {q a : Nat} (b : Below K' q a) : Below K q a :=
  Relation.ReflTransGen.mono (fun x y e => h x y e) _ _ b

/-- two nodes above one: one is above the other -/
theorem Below.chain {K : Nat → List Nat} (P : OneParent K) {q a b : Nat} (h1 : Below K q a) (h2 : Below K q b) : Below K a b ∨ Below K b a := by
  induction h1 using Relation.ReflTransGen.head_induction_on with
  | refl => exact Or.inl h2
  | head e h ih =>
    rcases Relation.ReflTransGen.cases_head h2 with e2 | ⟨p, e2, h3⟩
    · subst e2
      exact Or.inr (Relation.ReflTransGen.head e h)
    · have := P _ _ _ e e2
      subst this
      exact ih h3

/-- the subtrees of two children of one node have no node in common -/
theorem Below.apart {K : Nat → List Nat} (P : OneParent K) (C : Acyclic K) {q a b c : Nat} (ha : a ∈ K c) (hb : b ∈ K c) (hab : a ≠ b)
    (h1 : Below K q a) (h2 : Below K q b) : False := by
  have key : ∀ a b, a ∈ K c → b ∈ K c → a ≠ b → Below K a b → False := by
    intro a b ha hb hab h
    rcases Relation.ReflTransGen.cases_head h with e | ⟨p, e, h⟩
    · exact hab e
    · have := P _ _ _ e ha
      subst this
      exact C b (Relation.TransGen.head' hb h)
  rcases Below.chain P h1 h2 with h | h
  · exact key a b ha hb hab h
  · exact key b a hb ha hab.symm h

theorem Below.erase {K : Nat → List Nat} (C : Acyclic K) {q a : Nat} : Below (fun q => (K q).erase a) q a ↔ Below K q a := by
  constructor
  · exact Below.mono (fun c p h => List.mem_of_mem_erase h)
  · intro h
    induction h using Relation.ReflTransGen.head_induction_on with
    | refl => exact Relation.ReflTransGen.refl
    | @head x y e h ih =>
      refine Relation.ReflTransGen.head ?_ ih
      have : x ≠ a := by
        intro e2
        subst e2
        exact C x (Relation.TransGen.head' e h)
      exact (List.mem_erase_of_ne this).mpr e

theorem below_iff {K : Nat → List Nat} {q c : Nat} : Below K q c ↔ q = c ∨ ∃ a ∈ K c, Below K q a := by
  constructor
  · intro h
    rcases Relation.ReflTransGen.cases_tail h with e | ⟨a, h, e⟩
    · exact Or.inl e.symm
    · exact Or.inr ⟨a, e, h⟩
  · rintro (e | ⟨a, e, h⟩)
    · subst e; exact Relation.ReflTransGen.refl
    · exact h.tail e

/-- deleting a first child and then the others -/
theorem pruned_step {K : Nat → List Nat} (nd : ∀ q, (K q).Nodup) (P : OneParent K) (C : Acyclic K) {c a : Nat} {l : List Nat} (e : K c = a :: l)
    {K2 : Nat → List Nat} (h2 : K2 = pruned (fun q => (K q).erase a) (fun q => Below (fun q => (K q).erase a) q a)) :
    K2 c = l ∧ (∀ b ∈ l, ∀ q, Below K2 q b ↔ Below K q b) ∧
    pruned K2 (fun q => ∃ b ∈ l, Below K2 q b) = pruned K (fun q => ∃ b ∈ a :: l, Below K q b) := by
  have hb : (fun q => Below (fun q => (K q).erase a) q a) = fun q => Below K q a := by
    funext q; exact propext (Below.erase C)
  rw [hb] at h2
  have ha : a ∈ K c := by rw [e]; simp
  have nda : a ∉ l := by have := nd c; rw [e, List.nodup_cons] at this; exact this.1
  have hbel : ∀ b ∈ l, ¬ Below K b a := by
    intro b hb h
    exact Below.apart P C ha (by rw [e]; simp [hb] : b ∈ K c) (fun e => nda (e ▸ hb)) h Relation.ReflTransGen.refl
  have hca : ¬ Below K c a := fun h => C a (Relation.TransGen.head' ha h)
  have h1 : K2 c = l := by
    rw [h2]
    unfold pruned
    beta_reduce
    rw [if_neg hca, e, List.erase_cons_head]
    exact List.filter_eq_self.mpr (fun b hb => by simpa using hbel b hb)
  have hmem : ∀ x y, x ∈ K2 y ↔ x ∈ K y ∧ ¬ Below K x a ∧ ¬ Below K y a := by
    intro x y
    rw [h2, mem_pruned]
    constructor
    · rintro ⟨m1, m2, m3⟩; exact ⟨List.mem_of_mem_erase m1, m2, m3⟩
    · rintro ⟨m1, m2, m3⟩
      exact ⟨(List.mem_erase_of_ne (fun e : x = a => m2 (by rw [e]; exact Relation.ReflTransGen.refl))).mpr m1, m2, m3⟩
  have h3 : ∀ b ∈ l, ∀ q, Below K2 q b ↔ Below K q b := by
    intro b hb q
    have hbc : b ∈ K c := by rw [e]; simp [hb]
    have hab : a ≠ b := fun e => nda (e ▸ hb)
    constructor
    · exact Below.mono (fun x y h => ((hmem x y).mp h).1)
    · intro h
      induction h using Relation.ReflTransGen.head_induction_on with
      | refl => exact Relation.ReflTransGen.refl
      | @head x y m h ih =>
        refine Relation.ReflTransGen.head ((hmem x y).mpr ⟨m, fun h' => ?_, fun h' => ?_⟩) ih
        · exact Below.apart P C ha hbc hab h' (Relation.ReflTransGen.head m h)
        · exact Below.apart P C ha hbc hab h' h
  refine ⟨h1, h3, ?_⟩
  have hE : (fun q => ∃ b ∈ l, Below K2 q b) = fun q => ∃ b ∈ l, Below K q b := by
    funext q
    apply propext
    constructor
    · rintro ⟨b, m, h⟩; exact ⟨b, m, (h3 b m q).mp h⟩
    · rintro ⟨b, m, h⟩; exact ⟨b, m, (h3 b m q).mpr h⟩
  rw [hE, h2]
  funext q
  unfold pruned
  beta_reduce
  have hD : (∃ b ∈ a :: l, Below K q b) ↔ Below K q a ∨ ∃ b ∈ l, Below K q b := by simp
  by_cases d1 : Below K q a
  · rw [if_pos (hD.mpr (Or.inl d1)), if_pos d1]; simp
  · by_cases d2 : ∃ b ∈ l, Below K q b
    · rw [if_pos d2, if_pos (hD.mpr (Or.inr d2))]
    · rw [if_neg d1, if_neg d2, if_neg (fun h => (hD.mp h).elim d1 d2), (nd q).erase_eq_filter, List.filter_filter, List.filter_filter]
      apply List.filter_congr
      intro x hx
      have : (x = a) → Below K x a := fun e => e ▸ Relation.ReflTransGen.refl
      by_cases x1 : Below K x a
      · simp [x1]
      · have xa : x ≠ a := fun e => x1 (this e)
        simp [x1, xa]

/-- what a deletion leaves: exactly the nodes of `D` are gone -/
structure Deleted (s s' : Dom) (K : Nat → List Nat) (A : List Nat) (D : Nat → Prop) : Prop where
  outs : Outs s' (pruned K D) A
  live : ∀ q, s'.live q = true ↔ s.live q = true ∧ ¬ D q
  doc : s'.doc = s.doc

/-- what is known of `DeleteNode` at a node -/
def DelNode (K₀ : Nat → List Nat) (c : Nat) : Prop :=
  ∀ (s : Dom) (K : Nat → List Nat) (A : List Nat), (∀ q x, x ∈ K q → x ∈ K₀ q) → Outs s K (c :: A) → c ∉ A →
    ∃ n s', (∀ k, n ≤ k → DeleteNode k (some c) s = .ok () s') ∧ Deleted s s' K A (fun q => Below K q c)

theorem dput_same {α : Type} (f : Nat → α) (c : Nat) (v : α) (h : f c = v) : put f c v = f := by
  funext q
  unfold put
  split
  · rename_i e; rw [e, h]
  · rfl

theorem delChildren {K₀ : Nat → List Nat} (W : WellFounded (fun c p => c ∈ K₀ p)) {c : Nat} (H : ∀ a, a ∈ K₀ c → DelNode K₀ a) (l : List Nat) :
    ∀ (s : Dom) (K : Nat → List Nat) (A : List Nat), (∀ q x, x ∈ K q → x ∈ K₀ q) → Outs s K A → s.live c = true → K c = l →
    ∃ n s', (∀ k, n ≤ k → DeleteChildren k c s = .ok () s') ∧ Deleted s s' K A (fun q => ∃ a ∈ l, Below K q a) := by
  induction l with
  | nil =>
    intro s K A hK S hc e
    refine ⟨1, s, ?_, ?_, ?_, rfl⟩
    · intro k hk
      obtain ⟨k, rfl⟩ := Nat.exists_eq_add_of_le' hk
      have h1 := (S.ends c hc).1
      have h2 := (S.ends c hc).2
      rw [e] at h1 h2
      simp only [DeleteChildren]
      rw [M.bind_ok (rd_ok hc), h1, if_neg (by simp)]
      unfold setLast setFirst
      rw [M.bind_ok (wr_ok hc), wr_ok (by exact hc)]
      simp only [dput_same _ _ _ h1, dput_same _ _ _ h2]
      rw [dput_same s.last c none h2, dput_same s.first c none h1]
    · have : (fun q => ∃ a ∈ ([] : List Nat), Below K q a) = fun _ => False := by funext q; simp
      rw [this, pruned_false]; exact S
    · intro q; simp
  | cons a l ih =>
    intro s K A hK S hc e
    have ha : a ∈ K c := by rw [e]; simp
    have C : Acyclic K := Acyclic.mono (acyclic_of_wf W) (fun x q h => hK q x h)
    obtain ⟨u1, u2⟩ := S.unlink ha
    have hA : a ∉ A := fun m => by
      have := (S.out a m).2.1
      rw [(S.kid c a ha).2.1] at this; cases this
    obtain ⟨n1, s1, r1, D1⟩ := H a (hK c a ha) _ _ A (fun q x h => hK q x (List.mem_of_mem_erase h)) u2 hA
    obtain ⟨p1, p2, p3⟩ := pruned_step S.nodup S.oneParent C e (K2 := pruned (fun q => (K q).erase a) (fun q => Below (fun q => (K q).erase a) q a)) rfl
    have hc1 : s1.live c = true := by
      rw [D1.live]
      refine ⟨hc, fun h => ?_⟩
      exact C a (Relation.TransGen.head' ha ((Below.erase C).mp h))
    obtain ⟨n2, s2, r2, D2⟩ := ih s1 (pruned (fun q => (K q).erase a) (fun q => Below (fun q => (K q).erase a) q a)) A (fun q x h => hK q x (List.mem_of_mem_erase (mem_pruned.mp h).1)) D1.outs hc1 p1
    refine ⟨n1 + n2 + 2, s2, ?_, ?_, ?_, D2.doc.trans D1.doc⟩
    · intro k hk
      obtain ⟨k, rfl⟩ : ∃ j, k = j + 2 := ⟨k - 2, by omega⟩
      have h1 := (S.ends c hc).1
      rw [e] at h1
      rw [DeleteChildren]
      rw [M.bind_ok (rd_ok hc), h1, if_pos (by simp)]
      rw [M.bind_ok (s' := s1) (a := ())]
      · exact r2 (k + 1) (by omega)
      · rw [List.head?_cons, DeleteChild, M.bind_ok u1]
        exact r1 k (by omega)
    · rw [← p3]; exact D2.outs
    · intro q
      rw [D2.live, D1.live]
      have e1 : Below (fun q => (K q).erase a) q a ↔ Below K q a := Below.erase C
      rw [e1]
      show (s.live q = true ∧ _) ∧ _ ↔ _
      simp only [List.mem_cons, exists_eq_or_imp, not_or]
      have : (∃ b ∈ l, Below (pruned (fun q => (K q).erase a) fun q => Below (fun q => (K q).erase a) q a) q b) ↔ ∃ b ∈ l, Below K q b := by
        constructor
        · rintro ⟨b, m, h⟩; exact ⟨b, m, (p2 b m q).mp h⟩
        · rintro ⟨b, m, h⟩; exact ⟨b, m, (p2 b m q).mpr h⟩
      rw [this, and_assoc]

theorem delNode {K₀ : Nat → List Nat} (W : WellFounded (fun c p => c ∈ K₀ p)) (c : Nat) : DelNode K₀ c := by
  induction c using W.induction with
  | _ c ih =>
    intro s K A hK S hA
    obtain ⟨c1, c2, c3⟩ := S.out c List.mem_cons_self
    obtain ⟨n, s1, r, D⟩ := delChildren W ih (K c) s K (c :: A) hK S c1 rfl
    obtain ⟨o1, o2⟩ := S.own c c1
    have hu : c ∉ s.unlinked (s.doc c) := fun m => (((S.loose _ o1 o2).2 c).mp m).2.2.2.2 List.mem_cons_self
    have hk : pruned K (fun q => ∃ a ∈ K c, Below K q a) c = [] := by
      rw [List.eq_nil_iff_forall_not_mem]
      intro x hx
      obtain ⟨m1, m2, m3⟩ := mem_pruned.mp hx
      exact m2 ⟨x, m1, Relation.ReflTransGen.refl⟩
    obtain ⟨f1, f2⟩ := D.outs.free hA hk
    have nk : ∀ q, c ∉ K q := fun q m => by
      have := (S.kid q c m).2.1
      rw [c2] at this; cases this
    have hK' : pruned K (fun q => Below K q c) = pruned K (fun q => ∃ a ∈ K c, Below K q a) := by
      funext q
      by_cases e : q = c
      · subst e
        rw [hk]
        unfold pruned
        rw [if_pos (show Below K q q from Relation.ReflTransGen.refl)]
      · unfold pruned
        have h1 : Below K q c ↔ ∃ a ∈ K c, Below K q a := by rw [below_iff]; simp [e]
        by_cases h : Below K q c
        · rw [if_pos h, if_pos (h1.mp h)]
        · rw [if_neg h, if_neg (fun h' => h (h1.mpr h'))]
          apply List.filter_congr
          intro x hx
          have e' : x ≠ c := fun e' => nk q (e' ▸ hx)
          have h2 : Below K x c ↔ ∃ a ∈ K c, Below K x a := by rw [below_iff]; simp [e']
          simp [h2]
    refine ⟨n + 1, { s1 with live := put s1.live c false }, ?_, ⟨by rw [hK']; exact f2, ?_, D.doc⟩⟩
    · intro k hk
      obtain ⟨k, rfl⟩ : ∃ j, k = j + 1 := ⟨k - 1, by omega⟩
      rw [DeleteNode, M.bind_ok (rd_ok c1)]
      have hm : when_ (s.doc c != c) (MarkInUse (s.doc c) c) s = .ok () s := by
        unfold when_
        rw [if_pos (by simpa using c3), MarkInUse_run o1, marked_eq hu]
      rw [M.bind_ok hm, M.bind_ok (r k (by omega))]
      obtain ⟨d1, d2, d3⟩ := D.outs.out c List.mem_cons_self
      rw [M.bind_ok (rd_ok d1), d2]
      rw [M.bind_ok (show when_ (none : P).isSome (Unlink none (some c)) s1 = .ok () s1 from rfl)]
      have hz : when_ (s.doc c == c) (M.undef .null) s1 = .ok () s1 := by
        unfold when_
        rw [if_neg (by simpa using c3)]; rfl
      rw [M.bind_ok hz]
      exact f1
    · intro q
      show put s1.live c false q = true ↔ _
      by_cases e : q = c
      · subst e
        simp [Below, Relation.ReflTransGen.refl]
      · rw [dput_ne _ _ e, D.live, below_iff]
        simp [e]

end Verif
