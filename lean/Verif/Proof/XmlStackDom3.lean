import Verif.Proof.XmlStackDom2
/-!
# Emptying, destroying and copying documents on a stack of limited size
-/
namespace Verif
open Spec Xml.Dom Xml

theorem det {σ α : Type} {m : Nat → M σ α} {s s1 s2 : σ} {a b : α} {n1 n2 : Nat} (h1 : ∀ k, n1 ≤ k → m k s = .ok a s1) (h2 : ∀ k, n2 ≤ k → m k s = .ok b s2) : s1 = s2 := by
  have e := (h1 (n1 + n2) (by omega)).symm.trans (h2 (n1 + n2) (by omega))
  cases e; rfl

/-- trees with different roots have nothing in common -/
theorem deep_other {s : Dom} {K : Nat → List Nat} (S : Outs s K []) {c u : Nat} (hc : ∀ p, c ∉ K p) (hu : ∀ p, u ∉ K p) (hne : u ≠ c) (n : Nat) :
    Deep (pruned K fun q => Below K q c) n u ↔ Deep K n u := by
  refine deep_congr n u fun q hq => ?_
  have key : ∀ x, Below K x u → ¬ Below K x c := by
    intro x h1 h2
    have U : Relator.RightUnique (fun c p => c ∈ K p) := fun x p q hp hq => by
      have e1 := (S.kid p x hp).2.1
      have e2 := (S.kid q x hq).2.1
      rw [e1] at e2; exact Option.some.inj e2
    rcases Relation.ReflTransGen.total_of_right_unique U h1 h2 with h | h
    · exact hne (below_top hu h)
    · exact hne (below_top hc h).symm
  unfold pruned
  rw [if_neg (key q hq), List.filter_eq_self]
  intro x hx
  simpa using key x (Relation.ReflTransGen.head hx hq)

/-- the tree of a node without a parent, when the children of a document have been deleted -/
theorem deep_other_kids {s : Dom} {K : Nat → List Nat} (S : Outs s K []) {d u : Nat} (hd : ∀ p, d ∉ K p) (hu : ∀ p, u ∉ K p) (hne : u ≠ d) (n : Nat) :
    Deep (pruned K fun q => ∃ a ∈ K d, Below K q a) n u ↔ Deep K n u := by
  refine deep_congr n u fun q hq => ?_
  have key : ∀ x, Below K x u → ¬ ∃ a ∈ K d, Below K x a := by
    rintro x h1 ⟨a, ha, h2⟩
    have U : Relator.RightUnique (fun c p => c ∈ K p) := fun x p q hp hq => by
      have e1 := (S.kid p x hp).2.1
      have e2 := (S.kid q x hq).2.1
      rw [e1] at e2; exact Option.some.inj e2
    rcases Relation.ReflTransGen.total_of_right_unique U h1 (Relation.ReflTransGen.tail h2 ha) with h | h
    · exact hne (below_top hu h)
    · exact hne (below_top hd h).symm
  unfold pruned
  rw [if_neg (key q hq), List.filter_eq_self]
  intro x hx
  simpa using key x (Relation.ReflTransGen.head hx hq)

/-- the loop over `_unlinked` -/
theorem clearLoopS {d room : Nat} (m : Nat) : ∀ (s : Dom) (K : Nat → List Nat), Outs s K [] → WellFounded (fun c p => c ∈ K p) → s.live d = true → s.doc d = d →
    (s.unlinked d).length < m →
    ((∀ u ∈ s.unlinked d, ¬ Deep K room u) → ∃ n s', ∀ k, n ≤ k → ∀ j, m ≤ j → clearUnlinkedS room k d j s = .ok () s') ∧
    ((∃ u ∈ s.unlinked d, Deep K room u) → ∃ n, ∀ k, n ≤ k → ∀ j, m ≤ j → clearUnlinkedS room k d j s = .ub .overflow) := by
  induction m with
  | zero => intro s K _ _ _ _ h; cases h
  | succ m ih =>
    intro s K S W hd hdd hlen
    cases hu : s.unlinked d with
    | nil =>
      refine ⟨fun _ => ⟨0, s, fun k _ j hj => ?_⟩, fun ⟨u, m, _⟩ => absurd m List.not_mem_nil⟩
      obtain ⟨j, rfl⟩ : ∃ i, j = i + 1 := ⟨j - 1, by omega⟩
      rw [clearUnlinkedS, M.bind_ok (rd_ok hd), hu]; rfl
    | cons c r =>
      obtain ⟨l1, l2⟩ := S.loose d hd hdd
      obtain ⟨c1, c2, c3, c4, _⟩ := (l2 c).mp (by rw [hu]; simp)
      have hdc : s.doc c ≠ c := fun e => c2 (by rw [← c3, e])
      obtain ⟨good, bad⟩ := docDelS S W c1 hdc room
      have red : ∀ k j, clearUnlinkedS room k d (j + 1) s = (docDeleteNodeS room k c >>= fun _ => clearUnlinkedS room k d j) s := by
        intro k j
        rw [clearUnlinkedS, M.bind_ok (rd_ok hd), hu]
      by_cases hdp : Deep K room c
      · refine ⟨fun h => absurd hdp (h c List.mem_cons_self), fun _ => ?_⟩
        obtain ⟨n, hn⟩ := bad hdp
        refine ⟨n, fun k hk j hj => ?_⟩
        obtain ⟨j, rfl⟩ : ∃ i, j = i + 1 := ⟨j - 1, by omega⟩
        rw [red, M.bind_ub (hn k hk)]
      obtain ⟨n0, s0, r0⟩ := good hdp
      obtain ⟨n1, s1, r1, D1⟩ := docDel S W c1 hdc
      have es : s0 = s1 := det (m := fun k => docDeleteNode k c) (fun k hk => docDelS_same (r0 k hk)) r1
      subst es
      have hD1 : ∀ q, s.live q = true → Below K q c → s.doc q = d ∧ q ≠ d := by
        intro q _ hb
        obtain ⟨b1, b2⟩ := S.below_doc hb
        refine ⟨by rw [b1, c3], fun e => b2 hdc ?_⟩
        rw [e, hdd]
      have hd1 : s0.live d = true := (D1.live d).mpr ⟨hd, fun hb => (hD1 d hd hb).2 rfl⟩
      have hdd1 : s0.doc d = d := by rw [D1.doc]; exact hdd
      obtain ⟨l1', l2'⟩ := D1.outs.loose d hd1 hdd1
      have sub : ∀ u, u ∈ s0.unlinked d ↔ u ∈ (s.unlinked d).erase c := by
        intro u
        constructor
        · intro hu'
          obtain ⟨u1, u2, u3, u4, _⟩ := (l2' u).mp hu'
          obtain ⟨u5, u6⟩ := (D1.live u).mp u1
          have uc : u ≠ c := fun e => u6 (by rw [e]; exact Relation.ReflTransGen.refl)
          refine (List.mem_erase_of_ne uc).mpr ((l2 u).mpr ⟨u5, u2, by rw [← u3, D1.doc], ?_, List.not_mem_nil⟩)
          rw [S.parent_none u5]
          intro p hp
          refine (D1.outs.parent_none u1).mp u4 p (mem_pruned.mpr ⟨hp, u6, fun hb => u6 (Relation.ReflTransGen.head hp hb)⟩)
        · intro hu'
          obtain ⟨uc, hu'⟩ := (l1.mem_erase_iff).mp hu'
          obtain ⟨u1, u2, u3, u4, _⟩ := (l2 u).mp hu'
          have htop := (S.parent_none u1).mp u4
          have hl : s0.live u = true := (D1.live u).mpr ⟨u1, fun h => uc (below_top htop h)⟩
          refine (l2' u).mpr ⟨hl, u2, by rw [D1.doc]; exact u3, ?_, List.not_mem_nil⟩
          rw [D1.outs.parent_none hl]
          exact fun p hp => htop p (mem_pruned.mp hp).1
      have len : (s0.unlinked d).length < m := by
        have := (List.subperm_of_subset l1' (fun u h => (sub u).mp h)).length_le
        rw [List.length_erase_of_mem (by rw [hu]; simp)] at this
        rw [hu] at this hlen
        simp only [List.length_cons] at this hlen
        omega
      have hdeep : ∀ u ∈ s0.unlinked d, (Deep (pruned K fun q => Below K q c) room u ↔ Deep K room u) := by
        intro u hu'
        obtain ⟨uc, hu'⟩ := (l1.mem_erase_iff).mp ((sub u).mp hu')
        obtain ⟨u1, u2, u3, u4, _⟩ := (l2 u).mp hu'
        exact deep_other S ((S.parent_none c1).mp c4) ((S.parent_none u1).mp u4) uc room
      obtain ⟨g2, b2⟩ := ih s0 _ D1.outs (D1.wf W) hd1 hdd1 len
      rw [← hu]
      constructor
      · intro hs
        obtain ⟨n2, s2, r2⟩ := g2 fun u hu' h => hs u (List.mem_of_mem_erase ((sub u).mp hu')) ((hdeep u hu').mp h)
        refine ⟨n0 + n2, s2, fun k hk j hj => ?_⟩
        obtain ⟨j, rfl⟩ : ∃ i, j = i + 1 := ⟨j - 1, by omega⟩
        rw [red, M.bind_ok (r0 k (by omega))]
        exact r2 k (by omega) j (by omega)
      · rintro ⟨u, hu', h⟩
        have hm : u ∈ s0.unlinked d := (sub u).mpr ((List.mem_erase_of_ne (fun e : u = c => hdp (e ▸ h))).mpr hu')
        obtain ⟨n2, r2⟩ := b2 ⟨u, hm, (hdeep u hm).mpr h⟩
        refine ⟨n0 + n2, fun k hk j hj => ?_⟩
        obtain ⟨j, rfl⟩ : ∃ i, j = i + 1 := ⟨j - 1, by omega⟩
        rw [red, M.bind_ok (r0 k (by omega))]
        exact r2 k (by omega) j (by omega)

theorem clearLoopS_same {room k d j : Nat} : ∀ {s s' : Dom}, clearUnlinkedS room k d j s = .ok () s' → clearUnlinked k d j s = .ok () s' := by
  induction j with
  | zero => intro s s' h; cases h
  | succ j ih =>
    intro s s' h
    rw [clearUnlinkedS] at h
    rw [clearUnlinked]
    obtain ⟨u, s1, e1, h⟩ := bind_ok_inv h
    rw [M.bind_ok e1]
    cases u with
    | nil => exact h
    | cons c l =>
      obtain ⟨x, s2, e2, h⟩ := bind_ok_inv h
      show (docDeleteNode k c >>= _) s1 = _
      rw [M.bind_ok (docDelS_same e2)]
      exact ih h

theorem clearS_same {room k d : Nat} {s s' : Dom} (h : ClearS room k d s = .ok () s') : Clear k d s = .ok () s' := by
  unfold ClearS at h
  unfold Clear
  obtain ⟨u, s1, e1, h⟩ := bind_ok_inv h
  rw [M.bind_ok ((delS_same k room).2.1 _ _ _ e1)]
  exact clearLoopS_same h

theorem delDocS_same {room k d : Nat} {s s' : Dom} (h : deleteDocumentS room k d s = .ok () s') : deleteDocument k d s = .ok () s' := by
  unfold deleteDocumentS at h
  unfold deleteDocument
  obtain ⟨u, s1, e1, h⟩ := bind_ok_inv h
  obtain ⟨u', s2, e2, h⟩ := bind_ok_inv h
  rw [M.bind_ok (clearS_same e1), M.bind_ok ((delS_same k room).2.1 _ _ _ e2)]
  exact h

theorem Spec.Is.below_root {s : Dom} {F : Forest} (I : Is s F) {q : Nat} (hq : F.live q) : ∃ t, Below F.K q t ∧ F.live t ∧ (∀ p, t ∉ F.K p) := by
  have Wu := I.shows.out.wf_up I.fewS I.acyclic
  induction q using Wu.induction with
  | _ q ih =>
    by_cases h : ∃ p, q ∈ F.K p
    · obtain ⟨p, hp⟩ := h
      obtain ⟨t, h1, h2, h3⟩ := ih p hp (I.live_kid hp).2.1
      exact ⟨t, Relation.ReflTransGen.head hp h1, h2, h3⟩
    · exact ⟨q, Relation.ReflTransGen.refl, hq, fun p hp => h ⟨p, hp⟩⟩

theorem deep_less {K : Nat → List Nat} (n : Nat) : ∀ c, Deep K (n + 1) c → Deep K n c := by
  induction n with
  | zero => intro c _; trivial
  | succ n ih => rintro c ⟨x, hx, h⟩; exact ⟨x, hx, ih x h⟩

theorem deep_up {K : Nat → List Nat} {q t : Nat} (h : Below K q t) {n : Nat} (hd : Deep K n q) : Deep K n t := by
  induction h with
  | refl => exact hd
  | tail _ e ih => exact deep_less n _ ⟨_, e, ih⟩

theorem clearS_run {s : Dom} {F : Forest} (I : Is s F) {d : Nat} (hd : F.live d) (hdd : F.doc d = d) (room : Nat) :
    (Shallow F room d → ∃ n s', ∀ k, n ≤ k → ClearS room k d s = .ok () s') ∧
    (¬ Shallow F room d → ∃ n, ∀ k, n ≤ k → ClearS room k d s = .ub .overflow) := by
  have hl : s.live d = true := (I.live d).mpr hd
  have hdd' : s.doc d = d := by rw [I.doc]; exact hdd
  have S := I.shows.out
  have W := I.wf
  have htop : ∀ p, d ∉ F.K p := fun p m => (I.live_kid m).2.2.2 hdd
  obtain ⟨good, bad⟩ := delChildrenS W (fun a _ => delNodeS W a) (F.K d) s F.K [] room (fun q x h => h) S hl rfl
  obtain ⟨l1, l2⟩ := S.loose d hl hdd'
  -- what is too deep is below a child or below an unlinked node
  have hsh : Shallow F room d ↔ (∀ a ∈ F.K d, ¬ Deep F.K room a) ∧ ∀ u ∈ s.unlinked d, ¬ Deep F.K room u := by
    constructor
    · intro h
      refine ⟨fun a ha => ?_, fun u hu => ?_⟩
      · obtain ⟨g1, _, g3, g4⟩ := I.live_kid ha
        refine h a g1 (fun e => htop d (e ▸ ha)) (g3.trans hdd)
      · obtain ⟨u1, u2, u3, u4, _⟩ := (l2 u).mp hu
        exact h u ((I.live u).mp u1) u2 (by rw [← I.doc]; exact u3)
    · rintro ⟨h1, h2⟩ q hq hne hqd hdeep
      obtain ⟨t, b, ht, htt⟩ := I.below_root hq
      have htd : F.doc t = d := (I.below_doc b).symm.trans hqd
      by_cases e : t = d
      · subst e
        rcases Relation.ReflTransGen.cases_tail b with e | ⟨a, hb, ha⟩
        · exact hne e.symm
        · exact h1 a ha (deep_up hb hdeep)
      · have hlt := (I.live t).mpr ht
        exact h2 t ((l2 t).mpr ⟨hlt, e, by rw [I.doc]; exact htd, (S.parent_none hlt).mpr htt, List.not_mem_nil⟩) (deep_up b hdeep)
  by_cases hk : ∃ a ∈ F.K d, Deep F.K room a
  · refine ⟨fun h => ?_, fun _ => ?_⟩
    · obtain ⟨a, ha, hda⟩ := hk
      exact absurd hda ((hsh.mp h).1 a ha)
    · obtain ⟨n, hn⟩ := bad hk
      refine ⟨n, fun k hk => ?_⟩
      unfold ClearS
      rw [M.bind_ub (hn k hk)]
  have hk' : ∀ a ∈ F.K d, ¬ Deep F.K room a := fun a ha h => hk ⟨a, ha, h⟩
  obtain ⟨n1, s1, r1, D1⟩ := good hk'
  have hD1 : ∀ q, (∃ a ∈ F.K d, Below F.K q a) → s.doc q = d ∧ q ≠ d := by
    rintro q ⟨a, m, hb⟩
    obtain ⟨k1, k2, k3, k4, k5, k6⟩ := S.kid d a m
    obtain ⟨b1, b2⟩ := S.below_doc hb
    exact ⟨by rw [b1, k5, hdd'], fun e => b2 k6 (by rw [e, hdd'])⟩
  have hd1 : s1.live d = true := (D1.live d).mpr ⟨hl, fun h => (hD1 d h).2 rfl⟩
  have hdd1 : s1.doc d = d := by rw [D1.doc]; exact hdd'
  obtain ⟨l1', l2'⟩ := D1.outs.loose d hd1 hdd1
  have sub : ∀ u, u ∈ s1.unlinked d ↔ u ∈ s.unlinked d := by
    intro u
    constructor
    · intro hu'
      obtain ⟨u1, u2, u3, u4, _⟩ := (l2' u).mp hu'
      obtain ⟨u5, u6⟩ := (D1.live u).mp u1
      refine (l2 u).mpr ⟨u5, u2, by rw [← u3, D1.doc], ?_, List.not_mem_nil⟩
      rw [S.parent_none u5]
      intro p hp
      by_cases e : p = d
      · subst e
        exact u6 ⟨u, hp, Relation.ReflTransGen.refl⟩
      · refine (D1.outs.parent_none u1).mp u4 p (mem_pruned.mpr ⟨hp, u6, ?_⟩)
        rintro ⟨a, ha, hb⟩
        exact u6 ⟨a, ha, Relation.ReflTransGen.head hp hb⟩
    · intro hu'
      obtain ⟨u1, u2, u3, u4, _⟩ := (l2 u).mp hu'
      have ht := (S.parent_none u1).mp u4
      have hlu : s1.live u = true := (D1.live u).mpr ⟨u1, fun ⟨a, ha, hb⟩ => by
        have := below_top ht hb
        subst this
        exact ht d ha⟩
      refine (l2' u).mpr ⟨hlu, u2, by rw [D1.doc]; exact u3, ?_, List.not_mem_nil⟩
      rw [D1.outs.parent_none hlu]
      exact fun p hp => ht p (mem_pruned.mp hp).1
  have hdeep : ∀ u ∈ s.unlinked d, (Deep (pruned F.K fun q => ∃ a ∈ F.K d, Below F.K q a) room u ↔ Deep F.K room u) := by
    intro u hu'
    obtain ⟨u1, u2, u3, u4, _⟩ := (l2 u).mp hu'
    exact deep_other_kids S htop ((S.parent_none u1).mp u4) u2 room
  obtain ⟨g2, b2⟩ := clearLoopS (room := room) ((s1.unlinked d).length + 1) s1 _ D1.outs (D1.wf W) hd1 hdd1 (Nat.lt_succ_self _)
  constructor
  · intro h
    obtain ⟨n2, s2, r2⟩ := g2 fun u hu' h' => (hsh.mp h).2 u ((sub u).mp hu') ((hdeep u ((sub u).mp hu')).mp h')
    refine ⟨n1 + n2 + (s1.unlinked d).length + 1, s2, fun k hk => ?_⟩
    unfold ClearS
    rw [M.bind_ok (r1 k (by omega))]
    exact r2 k (by omega) k (by omega)
  · intro h
    have : ∃ u ∈ s.unlinked d, Deep F.K room u := by
      by_contra hn
      exact h (hsh.mpr ⟨hk', fun u hu' h' => hn ⟨u, hu', h'⟩⟩)
    obtain ⟨u, hu', h'⟩ := this
    obtain ⟨n2, r2⟩ := b2 ⟨u, (sub u).mpr hu', (hdeep u hu').mpr h'⟩
    refine ⟨n1 + n2 + (s1.unlinked d).length + 1, fun k hk => ?_⟩
    unfold ClearS
    rw [M.bind_ok (r1 k (by omega))]
    exact r2 k (by omega) k (by omega)

theorem delDocS_run {s : Dom} {F : Forest} (I : Is s F) {d : Nat} (hd : F.live d) (hdd : F.doc d = d) (room : Nat) :
    (Shallow F room d → ∃ n s', ∀ k, n ≤ k → deleteDocumentS room k d s = .ok () s') ∧
    (¬ Shallow F room d → ∃ n, ∀ k, n ≤ k → deleteDocumentS room k d s = .ub .overflow) := by
  obtain ⟨good, bad⟩ := clearS_run I hd hdd room
  constructor
  · intro h
    obtain ⟨n0, s0, r0⟩ := good h
    obtain ⟨n1, s1, r1, D1⟩ := clearDoc I.shows.out I.fewS I.acyclic ((I.live d).mpr hd) (by rw [I.doc]; exact hdd)
    have es : s0 = s1 := det (m := fun k => Clear k d) (fun k hk => clearS_same (r0 k hk)) r1
    subst es
    obtain ⟨n2, s2, r2, _⟩ := delDoc I.shows.out I.fewS I.acyclic ((I.live d).mpr hd) (by rw [I.doc]; exact hdd)
    have hd1 : s0.live d = true := (D1.live d).mpr ⟨(I.live d).mpr hd, fun h => h.2 rfl⟩
    have hK : pruned F.K (fun q => s.doc q = d ∧ q ≠ d) d = [] := by
      rw [List.eq_nil_iff_forall_not_mem]
      intro x hx
      obtain ⟨m1, m2, _⟩ := mem_pruned.mp hx
      obtain ⟨k1, k2, k3, k4, k5, k6⟩ := I.shows.kid d x m1
      exact m2 ⟨by rw [k5, I.doc]; exact hdd, fun e => k6 (by rw [e, I.doc]; exact hdd)⟩
    have hf : s0.first d = none := by rw [(D1.outs.ends d hd1).1, hK]; rfl
    have h1 : ∀ k, DeleteChildrenS room (k + 1) d s0 = DeleteChildren (k + 1) d s0 := by
      intro k
      rw [DeleteChildrenS, DeleteChildren, M.bind_ok (rd_ok hd1), M.bind_ok (rd_ok hd1), hf]
      rfl
    refine ⟨n0 + n1 + n2 + 1, s2, fun k hk => ?_⟩
    rw [← r2 k (by omega)]
    obtain ⟨k, rfl⟩ : ∃ i, k = i + 1 := ⟨k - 1, by omega⟩
    unfold deleteDocumentS deleteDocument
    rw [M.bind_ok (r0 _ (by omega)), M.bind_ok (r1 _ (by omega)), M.bind_run, M.bind_run, h1]
  · intro h
    obtain ⟨n, hn⟩ := bad h
    refine ⟨n, fun k hk => ?_⟩
    unfold deleteDocumentS
    rw [M.bind_ub (hn k hk)]

open Classical in
theorem deepCopyS_run {pick : Place} (hp : NodePlaces pick) {s : CDom} {F : Forest} (I : Is s.dom F) (S : Sound F s.what) {this target : Nat} (h1 : F.live this)
    (h1d : F.doc this = this) (h2 : F.live target) (h2d : F.doc target = target) (hne : target ≠ this) (room : Nat) :
    (Shallow F room target → (∀ x ∈ F.K this, ¬ Deep F.K room x) → ∃ N s', ∀ k, N ≤ k → DeepCopyS pick room k this target s = .ok () s') ∧
    (¬ Shallow F room target ∨ (∃ x ∈ F.K this, Deep F.K room x) → ∃ N, ∀ k, N ≤ k → DeepCopyS pick room k this target s = .ub .overflow) := by
  obtain ⟨n1, s1, r1, I1⟩ := I.exec (.clear target) ⟨h2, h2d⟩
  have hK1 : ∀ q, F.live q → F.doc q ≠ target → ((DOp.clear target).step F).1.K q = F.K q := by
    intro q hq hd
    show pruned F.K (fun q => F.doc q = target ∧ q ≠ target) q = _
    unfold pruned
    rw [if_neg (fun h => hd h.1), List.filter_eq_self]
    intro x hx
    have := (I.live_kid hx).2.2.1
    simp [this, hd]
  have hKt : ((DOp.clear target).step F).1.K target = [] := by
    show pruned F.K (fun q => F.doc q = target ∧ q ≠ target) target = _
    unfold pruned
    rw [if_neg (fun h => h.2 rfl), List.filter_eq_nil_iff]
    intro x hx
    obtain ⟨_, _, g3, g4⟩ := I.live_kid hx
    rw [h2d] at g3
    have : x ≠ target := fun h => g4 (g3.trans h.symm)
    simp [g3, this]
  have hl1 : ∀ q, ((DOp.clear target).step F).1.live q ↔ F.live q ∧ ¬ (F.doc q = target ∧ q ≠ target) := fun q => Iff.rfl
  have hd1 : ((DOp.clear target).step F).1.doc = F.doc := rfl
  generalize ((DOp.clear target).step F).1 = F1 at I1 hK1 hKt hl1 hd1
  have hthis : F.doc this ≠ target := by rw [h1d]; exact Ne.symm hne
  have hkid : ∀ x ∈ F.K this, F.live x ∧ F.doc x = this ∧ F.doc x ≠ x := by
    intro x hx
    obtain ⟨g1, _, g3, g4⟩ := I.live_kid hx
    exact ⟨g1, g3.trans h1d, g4⟩
  obtain ⟨g3, b3⟩ := cloneLoopS (room := room) (pick := pick) (K₀ := F.K) (w₀ := s.what) (c := this) (target := some target) (d := target) (p := target)
    (fun x _ => cloneNodeS hp I.wf x) (fun hb => hthis ((I.below_doc hb).symm.trans h2d)) (F.K this) [] { s with dom := s1 } F1 rfl I1 (hK1 this h1 hthis)
    (by
      intro x hx
      obtain ⟨g1, g2, g3⟩ := hkid x hx
      refine ⟨(hl1 x).mpr ⟨g1, fun h => hne (h.1.symm.trans g2)⟩, fun q hb => ?_, (I.has S g1 g3).good⟩
      exact ⟨hK1 q (I.below_live hb g1).1 (fun h => hne (h.symm.trans ((I.below_doc hb).trans g2))), rfl⟩)
    ((hl1 target).mpr ⟨h2, fun h => h.2 rfl⟩) (by rw [hd1]; exact h2d) ((hl1 target).mpr ⟨h2, fun h => h.2 rfl⟩) (by rw [hd1]; exact h2d) (.inl rfl)
  obtain ⟨good, bad⟩ := clearS_run I h2 h2d room
  by_cases hs : Shallow F room target
  · obtain ⟨n0, s0, r0⟩ := good hs
    have r1' : ∀ k, n1 ≤ k → Clear k target s.dom = .ok () s1 := by
      intro k hk
      have r1 := r1 k hk
      change (Clear k target >>= fun _ => pure none) s.dom = _ at r1
      rw [M.bind_run] at r1
      cases h : Clear k target s.dom with
      | ok a t => rw [h] at r1; cases r1; rfl
      | err e t => rw [h] at r1; cases r1
      | ub u => rw [h] at r1; cases r1
    have es : s0 = s1 := det (m := fun k => Clear k target) (fun k hk => clearS_same (r0 k hk)) r1'
    subst es
    have red : ∀ k, n0 ≤ k → DeepCopyS pick room k this target s = cloneChildrenS pick room k (some target) target (F.K this).head? { s with dom := s0 } := by
      intro k hk
      unfold DeepCopyS
      rw [if_neg hne, M.bind_ok (onDom_ok (r0 k hk))]
      have hl : s0.live this = true := (I1.live this).mpr ((hl1 this).mpr ⟨h1, fun h => hthis h.1⟩)
      rw [M.bind_ok (onDom_ok (s := { s with dom := s0 }) (rd_ok (f := Dom.first) hl)), (I1.shows.ends this hl).1, hK1 this h1 hthis]
    refine ⟨fun _ h => ?_, fun h => ?_⟩
    · obtain ⟨N, s', F', cs, r2, _⟩ := g3 h
      exact ⟨n0 + N, s', fun k hk => (red k (by omega)).trans (r2 k (by omega))⟩
    · obtain ⟨N, r2⟩ := b3 (h.resolve_left (not_not.mpr hs))
      exact ⟨n0 + N, fun k hk => (red k (by omega)).trans (r2 k (by omega))⟩
  · refine ⟨fun h => absurd h hs, fun _ => ?_⟩
    obtain ⟨n, hn⟩ := bad hs
    refine ⟨n, fun k hk => ?_⟩
    unfold DeepCopyS
    have : onDom (ClearS room k target) s = .ub .overflow := by simp [onDom, hn k hk]
    rw [if_neg hne, M.bind_ub this]

theorem onDom_ok_inv {α : Type} {m : M Dom α} {s s' : CDom} {a : α} (h : onDom m s = .ok a s') : ∃ d, m s.dom = .ok a d ∧ s' = { s with dom := d } := by
  unfold onDom at h
  cases e : m s.dom with
  | ok b d => rw [e] at h; cases h; exact ⟨d, rfl, rfl⟩
  | err x d => rw [e] at h; cases h
  | ub u => rw [e] at h; cases h

theorem deepCopyS_same {pick : Place} {room k this target : Nat} {s s' : CDom} (h : DeepCopyS pick room k this target s = .ok () s') :
    DeepCopy pick k this target s = .ok () s' := by
  unfold DeepCopyS at h
  unfold DeepCopy
  split at h
  · rename_i e
    rw [if_pos e]; exact h
  · rename_i e
    rw [if_neg e]
    obtain ⟨u, s1, e1, h⟩ := bind_ok_inv h
    obtain ⟨d, e3, rfl⟩ := onDom_ok_inv e1
    obtain ⟨c, s2, e2, h'⟩ := bind_ok_inv h
    rw [M.bind_ok (onDom_ok (clearS_same e3)), M.bind_ok e2]
    exact (cloneS_same k room).2 _ _ _ _ _ h'

end Verif
