import Verif.Model.Xml.StackDom
import Verif.Spec.XmlStackDom
import Verif.Proof.XDom6
/-!
# Deleting on a stack of limited size
-/
namespace Verif
open Spec Xml.Dom

theorem deep_congr {K K' : Nat → List Nat} (n : Nat) : ∀ c, (∀ q, Below K q c → K' q = K q) → (Deep K' n c ↔ Deep K n c) := by
  induction n with
  | zero => intro c _; exact Iff.rfl
  | succ n ih =>
    intro c h
    have e := h c Relation.ReflTransGen.refl
    constructor
    · rintro ⟨x, hx, hd⟩
      rw [e] at hx
      exact ⟨x, hx, (ih x fun q hb => h q (Relation.ReflTransGen.tail hb hx)).mp hd⟩
    · rintro ⟨x, hx, hd⟩
      exact ⟨x, by rw [e]; exact hx, (ih x fun q hb => h q (Relation.ReflTransGen.tail hb hx)).mpr hd⟩

theorem deep_mono {K K' : Nat → List Nat} (hK : ∀ q x, x ∈ K q → x ∈ K' q) (n : Nat) : ∀ c, Deep K n c → Deep K' n c := by
  induction n with
  | zero => intro c _; trivial
  | succ n ih =>
    rintro c ⟨x, hx, hd⟩
    exact ⟨x, hK c x hx, ih x hd⟩

theorem deep_erase {K : Nat → List Nat} (C : Acyclic K) (a n : Nat) : Deep (fun q => (K q).erase a) n a ↔ Deep K n a :=
  deep_congr n a fun _ hb => List.erase_of_not_mem fun m => C a (Relation.TransGen.head' m hb)

/-- what is below the other children is as it was -/
theorem deep_step {K : Nat → List Nat} {c a : Nat} {l : List Nat} (nd : ∀ p, (K p).Nodup) (P : OneParent K) (C : Acyclic K) (e : K c = a :: l) {b : Nat} (hb : b ∈ l)
    (n : Nat) : Deep (pruned (fun q => (K q).erase a) (fun q => Below (fun q => (K q).erase a) q a)) n b ↔ Deep K n b := by
  have ha : a ∈ K c := by rw [e]; simp
  have hbc : b ∈ K c := by rw [e]; simp [hb]
  have nda : a ∉ l := by have := nd c; rw [e] at this; exact (List.nodup_cons.mp this).1
  have hab : a ≠ b := fun e => nda (e ▸ hb)
  have hB : (fun q => Below (fun q => (K q).erase a) q a) = fun q => Below K q a := by funext q; exact propext (Below.erase C)
  refine deep_congr n b fun q hq => ?_
  rw [hB]
  have h1 : ¬ Below K q a := fun h => Below.apart P C ha hbc hab h hq
  have h2 : ∀ x ∈ K q, ¬ Below K x a := fun x hx h => Below.apart P C ha hbc hab h (Relation.ReflTransGen.head hx hq)
  unfold pruned
  beta_reduce
  rw [if_neg h1, List.erase_of_not_mem (fun m => h2 a m Relation.ReflTransGen.refl), List.filter_eq_self]
  intro x hx
  simpa using h2 x hx

/-- what is known of `DeleteNodeS` at a node -/
def DelNodeS (K₀ : Nat → List Nat) (c : Nat) : Prop :=
  ∀ (s : Dom) (K : Nat → List Nat) (A : List Nat) (r : Nat), (∀ q x, x ∈ K q → x ∈ K₀ q) → Outs s K (c :: A) → c ∉ A →
    (¬ Deep K r c → ∃ n s', (∀ k, n ≤ k → DeleteNodeS r k (some c) s = .ok () s') ∧ Deleted s s' K A (fun q => Below K q c)) ∧
    (Deep K r c → ∃ n, ∀ k, n ≤ k → DeleteNodeS r k (some c) s = .ub .overflow)

theorem delChildrenS {K₀ : Nat → List Nat} (W : WellFounded (fun c p => c ∈ K₀ p)) {c : Nat} (H : ∀ a, a ∈ K₀ c → DelNodeS K₀ a) (l : List Nat) :
    ∀ (s : Dom) (K : Nat → List Nat) (A : List Nat) (r : Nat), (∀ q x, x ∈ K q → x ∈ K₀ q) → Outs s K A → s.live c = true → K c = l →
    ((∀ a ∈ l, ¬ Deep K r a) → ∃ n s', (∀ k, n ≤ k → DeleteChildrenS r k c s = .ok () s') ∧ Deleted s s' K A (fun q => ∃ a ∈ l, Below K q a)) ∧
    ((∃ a ∈ l, Deep K r a) → ∃ n, ∀ k, n ≤ k → DeleteChildrenS r k c s = .ub .overflow) := by
  induction l with
  | nil =>
    intro s K A r hK S hc e
    refine ⟨fun _ => ⟨1, s, ?_, ?_, ?_, rfl⟩, fun ⟨a, m, _⟩ => absurd m List.not_mem_nil⟩
    · intro k hk
      obtain ⟨k, rfl⟩ := Nat.exists_eq_add_of_le' hk
      have h1 := (S.ends c hc).1
      have h2 := (S.ends c hc).2
      rw [e] at h1 h2
      simp only [DeleteChildrenS]
      rw [M.bind_ok (rd_ok hc), h1, if_neg (by simp)]
      unfold setLast setFirst
      rw [M.bind_ok (wr_ok hc), wr_ok (by exact hc)]
      rw [dput_same s.last c none h2, dput_same s.first c none h1]
    · have : (fun q => ∃ a ∈ ([] : List Nat), Below K q a) = fun _ => False := by funext q; simp
      rw [this, pruned_false]; exact S
    · intro q; simp
  | cons a l ih =>
    intro s K A r hK S hc e
    have ha : a ∈ K c := by rw [e]; simp
    have C : Acyclic K := Acyclic.mono (acyclic_of_wf W) (fun x q h => hK q x h)
    obtain ⟨u1, u2⟩ := S.unlink ha
    have hA : a ∉ A := fun m => by
      have := (S.out a m).2.1
      rw [(S.kid c a ha).2.1] at this; cases this
    obtain ⟨good, bad⟩ := H a (hK c a ha) _ _ A r (fun q x h => hK q x (List.mem_of_mem_erase h)) u2 hA
    rw [deep_erase C] at good bad
    have h1 := (S.ends c hc).1
    rw [e] at h1
    by_cases hda : Deep K r a
    · refine ⟨fun h => absurd hda (h a List.mem_cons_self), fun _ => ?_⟩
      obtain ⟨n, hn⟩ := bad hda
      refine ⟨n + 2, fun k hk => ?_⟩
      obtain ⟨k, rfl⟩ : ∃ j, k = j + 2 := ⟨k - 2, by omega⟩
      rw [DeleteChildrenS, M.bind_ok (rd_ok hc), h1, if_pos (by simp), M.bind_ub (u := .overflow)]
      rw [List.head?_cons, DeleteChildS, M.bind_ok u1]
      exact hn k (by omega)
    obtain ⟨n1, s1, r1, D1⟩ := good hda
    obtain ⟨p1, p2, p3⟩ := pruned_step S.nodup S.oneParent C e (K2 := pruned (fun q => (K q).erase a) (fun q => Below (fun q => (K q).erase a) q a)) rfl
    have hc1 : s1.live c = true := by
      rw [D1.live]
      refine ⟨hc, fun h => ?_⟩
      exact C a (Relation.TransGen.head' ha ((Below.erase C).mp h))
    obtain ⟨g2, b2⟩ := ih s1 (pruned (fun q => (K q).erase a) (fun q => Below (fun q => (K q).erase a) q a)) A r (fun q x h => hK q x (List.mem_of_mem_erase (mem_pruned.mp h).1)) D1.outs hc1 p1
    have hstep : ∀ k o, DeleteChildrenS r (k + 1) c s1 = o → n1 ≤ k → DeleteChildrenS r (k + 2) c s = o := by
      intro k o ho hk
      rw [DeleteChildrenS]
      rw [M.bind_ok (rd_ok hc), h1, if_pos (by simp)]
      rw [M.bind_ok (s' := s1) (a := ())]
      · exact ho
      · rw [List.head?_cons, DeleteChildS, M.bind_ok u1]
        exact r1 k (by omega)
    constructor
    · intro hs
      obtain ⟨n2, s2, r2, D2⟩ := g2 fun b hb h => hs b (List.mem_cons_of_mem _ hb) ((deep_step S.nodup S.oneParent C e hb r).mp h)
      refine ⟨n1 + n2 + 2, s2, ?_, ?_, ?_, D2.doc.trans D1.doc⟩
      · intro k hk
        obtain ⟨k, rfl⟩ : ∃ j, k = j + 2 := ⟨k - 2, by omega⟩
        exact hstep k _ (r2 (k + 1) (by omega)) (by omega)
      · rw [← p3]; exact D2.outs
      · intro q
        rw [D2.live, D1.live]
        have e1 : Below (fun q => (K q).erase a) q a ↔ Below K q a := Below.erase C
        rw [e1]
        show (s.live q = true ∧ _) ∧ _ ↔ _
        simp only [List.mem_cons, exists_eq_or_imp, not_or]
        have : (∃ b ∈ l, Below (pruned (fun q => (K q).erase a) fun q => Below (fun q => (K q).erase a) q a) q b) ↔ ∃ b ∈ l, Below K q b := by
          constructor
          · rintro ⟨b, m, h⟩; exact ⟨b, m, (p2 b m q).mp h⟩
          · rintro ⟨b, m, h⟩; exact ⟨b, m, (p2 b m q).mpr h⟩
        rw [this, and_assoc]
    · rintro ⟨b, hb, hdb⟩
      rcases List.mem_cons.mp hb with rfl | hb
      · exact absurd hdb hda
      obtain ⟨n2, r2⟩ := b2 ⟨b, hb, (deep_step S.nodup S.oneParent C e hb r).mpr hdb⟩
      refine ⟨n1 + n2 + 2, fun k hk => ?_⟩
      obtain ⟨k, rfl⟩ : ∃ j, k = j + 2 := ⟨k - 2, by omega⟩
      exact hstep k _ (r2 (k + 1) (by omega)) (by omega)

theorem delNodeS {K₀ : Nat → List Nat} (W : WellFounded (fun c p => c ∈ K₀ p)) (c : Nat) : DelNodeS K₀ c := by
  induction c using W.induction with
  | _ c ih =>
    intro s K A r hK S hA
    cases r with
    | zero => exact ⟨fun h => absurd trivial h, fun _ => ⟨0, fun k _ => by rw [DeleteNodeS]; rfl⟩⟩
    | succ r =>
    obtain ⟨c1, c2, c3⟩ := S.out c List.mem_cons_self
    obtain ⟨good, bad⟩ := delChildrenS W ih (K c) s K (c :: A) r hK S c1 rfl
    obtain ⟨o1, o2⟩ := S.own c c1
    have hu : c ∉ s.unlinked (s.doc c) := fun m => (((S.loose _ o1 o2).2 c).mp m).2.2.2.2 List.mem_cons_self
    have hm : when_ (s.doc c != c) (MarkInUse (s.doc c) c) s = .ok () s := by
      unfold when_
      rw [if_pos (by simpa using c3), MarkInUse_run o1, marked_eq hu]
    refine ⟨fun hs => ?_, fun hf => ?_⟩
    swap
    · obtain ⟨n, hn⟩ := bad hf
      refine ⟨n + 1, fun k hk => ?_⟩
      obtain ⟨k, rfl⟩ : ∃ j, k = j + 1 := ⟨k - 1, by omega⟩
      rw [DeleteNodeS, M.bind_ok (rd_ok c1), M.bind_ok hm, M.bind_ub (hn k (by omega))]
    obtain ⟨n, s1, r1, D⟩ := good fun a ha h => hs ⟨a, ha, h⟩
    have hk : pruned K (fun q => ∃ a ∈ K c, Below K q a) c = [] := by
      rw [List.eq_nil_iff_forall_not_mem]
      intro x hx
      obtain ⟨m1, m2, m3⟩ := mem_pruned.mp hx
      exact m2 ⟨x, m1, Relation.ReflTransGen.refl⟩
    obtain ⟨f1, f2⟩ := D.outs.free hA hk
    have nk : ∀ q, c ∉ K q := fun q m => by
      have := (S.kid q c m).2.1
      rw [c2] at this; cases this
    have hK' : pruned K (fun q => Below K q c) = pruned K (fun q => ∃ a ∈ K c, Below K q a) := by
      funext q
      by_cases e : q = c
      · subst e
        rw [hk]
        unfold pruned
        rw [if_pos (show Below K q q from Relation.ReflTransGen.refl)]
      · unfold pruned
        have h1 : Below K q c ↔ ∃ a ∈ K c, Below K q a := by rw [below_iff]; simp [e]
        by_cases h : Below K q c
        · rw [if_pos h, if_pos (h1.mp h)]
        · rw [if_neg h, if_neg (fun h' => h (h1.mpr h'))]
          apply List.filter_congr
          intro x hx
          have e' : x ≠ c := fun e' => nk q (e' ▸ hx)
          have h2 : Below K x c ↔ ∃ a ∈ K c, Below K x a := by rw [below_iff]; simp [e']
          simp [h2]
    refine ⟨n + 1, { s1 with live := put s1.live c false }, ?_, ⟨by rw [hK']; exact f2, ?_, D.doc⟩⟩
    · intro k hk
      obtain ⟨k, rfl⟩ : ∃ j, k = j + 1 := ⟨k - 1, by omega⟩
      rw [DeleteNodeS, M.bind_ok (rd_ok c1)]
      rw [M.bind_ok hm, M.bind_ok (r1 k (by omega))]
      obtain ⟨d1, d2, d3⟩ := D.outs.out c List.mem_cons_self
      rw [M.bind_ok (rd_ok d1), d2]
      rw [M.bind_ok (show when_ (none : P).isSome (Unlink none (some c)) s1 = .ok () s1 from rfl)]
      have hz : when_ (s.doc c == c) (M.undef .null) s1 = .ok () s1 := by
        unfold when_
        rw [if_neg (by simpa using c3)]; rfl
      rw [M.bind_ok hz]
      exact f1
    · intro q
      show put s1.live c false q = true ↔ _
      by_cases e : q = c
      · subst e
        simp [Below, Relation.ReflTransGen.refl]
      · rw [dput_ne _ _ e, D.live, below_iff]
        simp [e]

/-! the same as with an endless stack -/

theorem bind_ok_inv {σ α β : Type} {m : M σ α} {f : α → M σ β} {s s' : σ} {b : β} (h : (m >>= f) s = .ok b s') : ∃ a s1, m s = .ok a s1 ∧ f a s1 = .ok b s' := by
  rw [M.bind_run] at h
  cases e : m s with
  | ok a s1 => rw [e] at h; exact ⟨a, s1, rfl, h⟩
  | err x s1 => rw [e] at h; cases h
  | ub u => rw [e] at h; cases h

theorem delS_same (k : Nat) : ∀ r,
    (∀ c s s', DeleteNodeS r k c s = .ok () s' → DeleteNode k c s = .ok () s') ∧
    (∀ c s s', DeleteChildrenS r k c s = .ok () s' → DeleteChildren k c s = .ok () s') ∧
    (∀ p c s s', DeleteChildS r k p c s = .ok () s' → DeleteChild k p c s = .ok () s') := by
  induction k with
  | zero =>
    intro r
    refine ⟨fun c s s' h => ?_, fun c s s' h => ?_, fun p c s s' h => ?_⟩
    · cases r <;> (rw [DeleteNodeS] at h; cases h)
    · rw [DeleteChildrenS] at h; cases h
    · rw [DeleteChildS] at h; cases h
  | succ k ih =>
    intro r
    refine ⟨fun c s s' h => ?_, fun c s s' h => ?_, fun p c s s' h => ?_⟩
    · cases r with
      | zero => rw [DeleteNodeS] at h; cases h
      | succ r =>
        cases c with
        | none =>
          rw [DeleteNodeS] at h
          rw [DeleteNode]
          exact h
        | some c =>
          rw [DeleteNodeS] at h
          rw [DeleteNode]
          obtain ⟨d, s1, e1, h⟩ := bind_ok_inv h
          obtain ⟨u, s2, e2, h⟩ := bind_ok_inv h
          obtain ⟨u', s3, e3, h⟩ := bind_ok_inv h
          rw [M.bind_ok e1, M.bind_ok e2, M.bind_ok ((ih r).2.1 _ _ _ e3)]
          exact h
    · rw [DeleteChildrenS] at h
      rw [DeleteChildren]
      obtain ⟨f, s1, e1, h⟩ := bind_ok_inv h
      rw [M.bind_ok e1]
      split at h
      · rename_i hf
        rw [if_pos hf]
        obtain ⟨u, s2, e2, h⟩ := bind_ok_inv h
        rw [M.bind_ok ((ih r).2.2 _ _ _ _ e2)]
        exact (ih r).2.1 _ _ _ h
      · rename_i hf
        rw [if_neg hf]
        exact h
    · rw [DeleteChildS] at h
      rw [DeleteChild]
      obtain ⟨u, s1, e1, h⟩ := bind_ok_inv h
      rw [M.bind_ok e1]
      exact (ih r).1 _ _ _ h

theorem docDelS_same {r k c : Nat} {s s' : Dom} (h : docDeleteNodeS r k c s = .ok () s') : docDeleteNode k c s = .ok () s' := by
  unfold docDeleteNodeS at h
  unfold docDeleteNode
  obtain ⟨p, s1, e1, h⟩ := bind_ok_inv h
  rw [M.bind_ok e1]
  cases p with
  | some q => exact (delS_same k r).2.2 _ _ _ _ h
  | none =>
    obtain ⟨d, s2, e2, h⟩ := bind_ok_inv h
    obtain ⟨u, s3, e3, h⟩ := bind_ok_inv h
    show (rd Dom.doc (some c) >>= _) s1 = _
    rw [M.bind_ok e2, M.bind_ok e3]
    exact (delS_same k r).1 _ _ _ h

/-- `XMLDocument::DeleteNode` -/
theorem docDelS {s : Dom} {K : Nat → List Nat} (S : Outs s K []) (W : WellFounded (fun c p => c ∈ K p)) {c : Nat} (hc : s.live c = true)
    (hd : s.doc c ≠ c) (r : Nat) :
    (¬ Deep K r c → ∃ n s', ∀ k, n ≤ k → docDeleteNodeS r k c s = .ok () s') ∧
    (Deep K r c → ∃ n, ∀ k, n ≤ k → docDeleteNodeS r k c s = .ub .overflow) := by
  unfold docDeleteNodeS
  cases hp : s.parent c with
  | none =>
    obtain ⟨m1, m2⟩ := S.mark hc hp hd List.not_mem_nil
    obtain ⟨good, bad⟩ := delNodeS W c _ K [] r (fun q x h => h) m2 List.not_mem_nil
    have w : when_ (s.doc c == c) (M.undef .null) s = .ok () s := by
      unfold when_
      rw [if_neg (by simpa using hd)]; rfl
    have red : ∀ k, (rd Dom.parent (some c) >>= fun p => match p with
        | some q => DeleteChildS r k q (some c)
        | none => do
          let d ← rd Dom.doc (some c)
          when_ (d == c) (M.undef .null)
          DeleteNodeS r k (some c)) s = DeleteNodeS r k (some c) s := by
      intro k
      rw [M.bind_ok (rd_ok hc), hp]
      show (rd Dom.doc (some c) >>= _) s = _
      rw [M.bind_ok (rd_ok hc), M.bind_ok w]
    have key : ∀ k, 1 ≤ k → DeleteNodeS r k (some c) s = DeleteNodeS r k (some c) (marked (s.doc c) c s) := by
      intro k hk
      cases r with
      | zero => rw [DeleteNodeS, ]; rfl
      | succ r =>
      obtain ⟨k, rfl⟩ : ∃ j, k = j + 1 := ⟨k - 1, by omega⟩
      obtain ⟨o1, o2⟩ := S.own c hc
      have hu : c ∉ (marked (s.doc c) c s).unlinked ((marked (s.doc c) c s).doc c) := fun m =>
        (((m2.loose _ (m2.own c hc).1 (m2.own c hc).2).2 c).mp m).2.2.2.2 List.mem_cons_self
      have w1 : when_ (s.doc c != c) (MarkInUse (s.doc c) c) s = .ok () (marked (s.doc c) c s) := by
        unfold when_
        rw [if_pos (by simpa using hd), m1]
      have w2 : when_ (s.doc c != c) (MarkInUse (s.doc c) c) (marked (s.doc c) c s) = .ok () (marked (s.doc c) c s) := by
        unfold when_
        rw [if_pos (by simpa using hd), MarkInUse_run (by exact o1), marked_eq (by exact hu)]
      rw [DeleteNodeS, M.bind_ok (rd_ok hc), M.bind_ok w1, M.bind_ok (rd_ok (by exact hc))]
      show _ = (when_ (s.doc c != c) (MarkInUse (s.doc c) c) >>= _) _
      rw [M.bind_ok w2]
      rfl
    refine ⟨fun h => ?_, fun h => ?_⟩
    · obtain ⟨n, s', r1, D⟩ := good h
      exact ⟨n + 1, s', fun k hk => (red k).trans ((key k (by omega)).trans (r1 k (by omega)))⟩
    · obtain ⟨n, r1⟩ := bad h
      exact ⟨n + 1, fun k hk => (red k).trans ((key k (by omega)).trans (r1 k (by omega)))⟩
  | some p =>
    have m := S.child c p hc hp
    obtain ⟨u1, u2⟩ := S.unlink m
    obtain ⟨good, bad⟩ := delNodeS W c _ _ [] r (fun q x h => List.mem_of_mem_erase h) u2 List.not_mem_nil
    have C := acyclic_of_wf W
    rw [deep_erase C] at good bad
    have red : ∀ k, (rd Dom.parent (some c) >>= fun p => match p with
        | some q => DeleteChildS r (k + 1) q (some c)
        | none => do
          let d ← rd Dom.doc (some c)
          when_ (d == c) (M.undef .null)
          DeleteNodeS r (k + 1) (some c)) s = (Unlink (some p) (some c) >>= fun _ => DeleteNodeS r k (some c)) s := by
      intro k
      rw [M.bind_ok (rd_ok hc), hp]
      show DeleteChildS r (k + 1) p (some c) s = _
      rw [DeleteChildS]
    refine ⟨fun h => ?_, fun h => ?_⟩
    · obtain ⟨n, s', r1, D⟩ := good h
      refine ⟨n + 1, s', fun k hk => ?_⟩
      obtain ⟨k, rfl⟩ : ∃ j, k = j + 1 := ⟨k - 1, by omega⟩
      refine (red k).trans ?_
      rw [M.bind_ok u1]
      exact r1 k (by omega)
    · obtain ⟨n, r1⟩ := bad h
      refine ⟨n + 1, fun k hk => ?_⟩
      obtain ⟨k, rfl⟩ : ∃ j, k = j + 1 := ⟨k - 1, by omega⟩
      refine (red k).trans ?_
      rw [M.bind_ok u1]
      exact r1 k (by omega)

end Verif
