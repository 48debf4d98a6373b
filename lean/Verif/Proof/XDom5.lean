import Verif.Proof.XDom4
import Mathlib.Data.List.Perm.Subperm
/-!
# Deletion of documents; sequences of calls
-/
set_option linter.unusedSimpArgs false
namespace Verif
open Spec Xml.Dom
open Classical

theorem pruned_pruned {K : Nat → List Nat} {D₁ D₂ : Nat → Prop} : pruned (pruned K D₁) D₂ = pruned K (fun q => D₁ q ∨ D₂ q) := by
  funext q
  unfold pruned
  by_cases h2 : D₂ q
  · rw [if_pos h2, if_pos (Or.inr h2)]
  · by_cases h1 : D₁ q
    · rw [if_neg h2, if_pos h1, if_pos (Or.inl h1)]; rfl
    · rw [if_neg h2, if_neg h1, if_neg (fun h => h.elim h1 h2), List.filter_filter]
      apply List.filter_congr
      intro x _
      by_cases x1 : D₁ x <;> by_cases x2 : D₂ x <;> simp [x1, x2]

theorem Outs.pruned_congr {s : Dom} {K : Nat → List Nat} {A : List Nat} (S : Outs s K A) {D D' : Nat → Prop} (h : ∀ q, s.live q = true → (D q ↔ D' q)) :
    pruned K D = pruned K D' := by
  funext q
  by_cases hq : s.live q = true
  · unfold pruned
    have e := h q hq
    by_cases d : D q
    · rw [if_pos d, if_pos (e.mp d)]
    · rw [if_neg d, if_neg (fun d' => d (e.mpr d'))]
      apply List.filter_congr
      intro x hx
      have := h x (S.kid q x hx).1
      simp [this]
  · have := S.gone q (by simpa using hq)
    unfold pruned
    rw [this]; simp

theorem Deleted.trans {s s₁ s₂ : Dom} {K : Nat → List Nat} {A : List Nat} {D₁ D₂ : Nat → Prop} (h₁ : Deleted s s₁ K A D₁)
    (h₂ : Deleted s₁ s₂ (pruned K D₁) A D₂) : Deleted s s₂ K A (fun q => D₁ q ∨ D₂ q) := by
  refine ⟨by rw [← pruned_pruned]; exact h₂.outs, fun q => ?_, h₂.doc.trans h₁.doc⟩
  rw [h₂.live, h₁.live, not_or, and_assoc]

theorem Deleted.congr {s s' : Dom} {K : Nat → List Nat} {A : List Nat} {D D' : Nat → Prop} (S : Outs s K A) (h : Deleted s s' K A D)
    (e : ∀ q, s.live q = true → (D q ↔ D' q)) : Deleted s s' K A D' := by
  refine ⟨by rw [← S.pruned_congr e]; exact h.outs, fun q => ?_, h.doc⟩
  rw [h.live]
  constructor
  · rintro ⟨h1, h2⟩; exact ⟨h1, fun d => h2 ((e q h1).mpr d)⟩
  · rintro ⟨h1, h2⟩; exact ⟨h1, fun d => h2 ((e q h1).mp d)⟩

/-- a node has no parent exactly if it is in no list -/
theorem Outs.parent_none {s : Dom} {K : Nat → List Nat} {A : List Nat} (S : Outs s K A) {u : Nat} (hu : s.live u = true) :
    s.parent u = none ↔ ∀ p, u ∉ K p := by
  constructor
  · intro h p m
    have := (S.kid p u m).2.1
    rw [h] at this; cases this
  · intro h
    cases hp : s.parent u with
    | none => rfl
    | some p => exact absurd (S.child u p hu hp) (h p)

/-- a node and those above it are of one document, and only the highest is a document -/
theorem Outs.below_doc {s : Dom} {K : Nat → List Nat} {A : List Nat} (S : Outs s K A) {q a : Nat} (h : Below K q a) :
    s.doc q = s.doc a ∧ (s.doc a ≠ a → s.doc q ≠ q) := by
  rcases Relation.ReflTransGen.cases_head h with e | ⟨p, e, h'⟩
  · subst e; exact ⟨rfl, id⟩
  · have key : ∀ q, Below K q a → s.doc q = s.doc a := by
      intro q h
      induction h using Relation.ReflTransGen.head_induction_on with
      | refl => rfl
      | head e _ ih => exact (S.kid _ _ e).2.2.2.2.1.trans ih
    exact ⟨key q h, fun _ => (S.kid p q e).2.2.2.2.2⟩

/-- a node that is in no list is below another only if it is that node -/
theorem below_top {K : Nat → List Nat} {u a : Nat} (hu : ∀ p, u ∉ K p) (h : Below K u a) : u = a := by
  rcases Relation.ReflTransGen.cases_head h with e | ⟨p, e, _⟩
  · exact e
  · exact absurd e (hu p)

/-- `DeleteNode` of a node that is not marked as used -/
theorem delLoose {s : Dom} {K : Nat → List Nat} (S : Outs s K []) (W : WellFounded (fun c p => c ∈ K p)) {c : Nat} (hc : s.live c = true)
    (hp : s.parent c = none) (hd : s.doc c ≠ c) :
    ∃ n s', (∀ k, n ≤ k → DeleteNode k (some c) s = .ok () s') ∧ Deleted s s' K [] (fun q => Below K q c) := by
  obtain ⟨m1, m2⟩ := S.mark hc hp hd List.not_mem_nil
  obtain ⟨n, s', r, D⟩ := delNode W c _ K [] (fun q x h => h) m2 List.not_mem_nil
  refine ⟨n + 1, s', ?_, D.outs, D.live, D.doc⟩
  intro k hk
  rw [← r k (by omega)]
  obtain ⟨k, rfl⟩ : ∃ j, k = j + 1 := ⟨k - 1, by omega⟩
  obtain ⟨o1, o2⟩ := S.own c hc
  have hu : c ∉ (marked (s.doc c) c s).unlinked ((marked (s.doc c) c s).doc c) := fun m =>
    (((m2.loose _ (m2.own c hc).1 (m2.own c hc).2).2 c).mp m).2.2.2.2 List.mem_cons_self
  have w1 : when_ (s.doc c != c) (MarkInUse (s.doc c) c) s = .ok () (marked (s.doc c) c s) := by
    unfold when_
    rw [if_pos (by simpa using hd), m1]
  have w2 : when_ (s.doc c != c) (MarkInUse (s.doc c) c) (marked (s.doc c) c s) = .ok () (marked (s.doc c) c s) := by
    unfold when_
    rw [if_pos (by simpa using hd), MarkInUse_run (by exact o1), marked_eq (by exact hu)]
  rw [DeleteNode, M.bind_ok (rd_ok hc), M.bind_ok w1, M.bind_ok (rd_ok (by exact hc))]
  show _ = (when_ (s.doc c != c) (MarkInUse (s.doc c) c) >>= _) _
  rw [M.bind_ok w2]
  rfl

/-- `XMLDocument::DeleteNode` -/
theorem docDel {s : Dom} {K : Nat → List Nat} (S : Outs s K []) (W : WellFounded (fun c p => c ∈ K p)) {c : Nat} (hc : s.live c = true)
    (hd : s.doc c ≠ c) :
    ∃ n s', (∀ k, n ≤ k → docDeleteNode k c s = .ok () s') ∧ Deleted s s' K [] (fun q => Below K q c) := by
  unfold docDeleteNode
  cases hp : s.parent c with
  | none =>
    obtain ⟨n, s', r, D⟩ := delLoose S W hc hp hd
    refine ⟨n, s', fun k hk => ?_, D⟩
    rw [M.bind_ok (rd_ok hc), hp]
    show (rd Dom.doc (some c) >>= _) s = _
    rw [M.bind_ok (rd_ok hc)]
    have w : when_ (s.doc c == c) (M.undef .null) s = .ok () s := by
      unfold when_
      rw [if_neg (by simpa using hd)]; rfl
    rw [M.bind_ok w]
    exact r k hk
  | some p =>
    have m := S.child c p hc hp
    obtain ⟨u1, u2⟩ := S.unlink m
    obtain ⟨n, s', r, D⟩ := delNode W c _ _ [] (fun q x h => List.mem_of_mem_erase h) u2 List.not_mem_nil
    have C := acyclic_of_wf W
    refine ⟨n + 1, s', fun k hk => ?_, ?_, ?_, D.doc⟩
    · obtain ⟨k, rfl⟩ : ∃ j, k = j + 1 := ⟨k - 1, by omega⟩
      rw [M.bind_ok (rd_ok hc), hp]
      show DeleteChild (k + 1) p (some c) s = _
      rw [DeleteChild, M.bind_ok u1]
      exact r k (by omega)
    · have e : pruned (fun q => (K q).erase c) (fun q => Below (fun q => (K q).erase c) q c) = pruned K (fun q => Below K q c) := by
        have hb : (fun q => Below (fun q => (K q).erase c) q c) = fun q => Below K q c := by funext q; exact propext (Below.erase C)
        rw [hb]
        funext q
        unfold pruned
        beta_reduce
        split
        · rfl
        · rw [(S.nodup q).erase_eq_filter, List.filter_filter]
          apply List.filter_congr
          intro x _
          by_cases xc : x = c
          · subst xc; simp [Below, Relation.ReflTransGen.refl]
          · simp [xc]
      rw [← e]; exact D.outs
    · intro q
      rw [D.live, Below.erase C]; rfl

theorem delChild {s : Dom} {K : Nat → List Nat} (S : Outs s K []) (W : WellFounded (fun c p => c ∈ K p)) {p c : Nat} (h : c ∈ K p) :
    ∃ n s', (∀ k, n ≤ k → DeleteChild k p (some c) s = .ok () s') ∧ Deleted s s' K [] (fun q => Below K q c) := by
  obtain ⟨k1, k2, k3, k4, k5, k6⟩ := S.kid p c h
  obtain ⟨n, s', r, D⟩ := docDel S W k1 k6
  refine ⟨n, s', fun k hk => ?_, D⟩
  have := r k hk
  unfold docDeleteNode at this
  rw [M.bind_ok (rd_ok k1), k2] at this
  exact this

/-- what follows a deletion has no cycle either, and is no more -/
theorem Deleted.wf {s s' : Dom} {K : Nat → List Nat} {A : List Nat} {D : Nat → Prop} (W : WellFounded (fun c p => c ∈ K p)) (_ : Deleted s s' K A D) :
    WellFounded (fun c p => c ∈ pruned K D p) :=
  Subrelation.wf (fun {_ _} h => (mem_pruned.mp h).1) W

/-- the loop over `_unlinked` -/
theorem clearLoop {d : Nat} (m : Nat) : ∀ (s : Dom) (K : Nat → List Nat), Outs s K [] → WellFounded (fun c p => c ∈ K p) → s.live d = true → s.doc d = d →
    (s.unlinked d).length < m →
    ∃ n s' D, (∀ k, n ≤ k → ∀ j, m ≤ j → clearUnlinked k d j s = .ok () s') ∧ Deleted s s' K [] D ∧ (∀ q, s.live q = true → D q → s.doc q = d ∧ q ≠ d) ∧ s'.unlinked d = [] := by
  induction m with
  | zero => intro s K _ _ _ _ h; cases h
  | succ m ih =>
    intro s K S W hd hdd hlen
    cases hu : s.unlinked d with
    | nil =>
      refine ⟨0, s, fun _ => False, fun k _ j hj => ?_, ⟨by rw [pruned_false]; exact S, by simp, rfl⟩, by simp, hu⟩
      obtain ⟨j, rfl⟩ : ∃ i, j = i + 1 := ⟨j - 1, by omega⟩
      rw [clearUnlinked, M.bind_ok (rd_ok hd), hu]; rfl
    | cons c r =>
      obtain ⟨l1, l2⟩ := S.loose d hd hdd
      obtain ⟨c1, c2, c3, c4, _⟩ := (l2 c).mp (by rw [hu]; simp)
      have hdc : s.doc c ≠ c := fun e => c2 (by rw [← c3, e])
      obtain ⟨n1, s1, r1, D1⟩ := docDel S W c1 hdc
      have hD1 : ∀ q, s.live q = true → Below K q c → s.doc q = d ∧ q ≠ d := by
        intro q _ hb
        obtain ⟨b1, b2⟩ := S.below_doc hb
        refine ⟨by rw [b1, c3], fun e => b2 hdc ?_⟩
        rw [e, hdd]
      have hd1 : s1.live d = true := (D1.live d).mpr ⟨hd, fun hb => (hD1 d hd hb).2 rfl⟩
      have hdd1 : s1.doc d = d := by rw [D1.doc]; exact hdd
      obtain ⟨l1', l2'⟩ := D1.outs.loose d hd1 hdd1
      have sub : ∀ u, u ∈ s1.unlinked d → u ∈ (s.unlinked d).erase c := by
        intro u hu'
        obtain ⟨u1, u2, u3, u4, _⟩ := (l2' u).mp hu'
        obtain ⟨u5, u6⟩ := (D1.live u).mp u1
        have uc : u ≠ c := fun e => u6 (by rw [e]; exact Relation.ReflTransGen.refl)
        refine (List.mem_erase_of_ne uc).mpr ((l2 u).mpr ⟨u5, u2, by rw [← u3, D1.doc], ?_, List.not_mem_nil⟩)
        rw [S.parent_none u5]
        intro p hp
        refine (D1.outs.parent_none u1).mp u4 p (mem_pruned.mpr ⟨hp, u6, fun hb => u6 (Relation.ReflTransGen.head hp hb)⟩)
      have len : (s1.unlinked d).length < m := by
        have := (List.subperm_of_subset l1' sub).length_le
        rw [List.length_erase_of_mem (by rw [hu]; simp)] at this
        rw [hu] at this hlen
        simp only [List.length_cons] at this hlen
        omega
      obtain ⟨n2, s2, D2, r2, E2, F2, G2⟩ := ih s1 _ D1.outs (D1.wf W) hd1 hdd1 len
      refine ⟨n1 + n2, s2, fun q => Below K q c ∨ D2 q, fun k hk j hj => ?_, D1.trans E2, ?_, G2⟩
      · obtain ⟨j, rfl⟩ : ∃ i, j = i + 1 := ⟨j - 1, by omega⟩
        rw [clearUnlinked, M.bind_ok (rd_ok hd), hu]
        show (docDeleteNode k c >>= fun _ => clearUnlinked k d j) s = _
        rw [M.bind_ok (r1 k (by omega))]
        exact r2 k (by omega) j (by omega)
      · rintro q hq (h | h)
        · exact hD1 q hq h
        · by_cases hb : Below K q c
          · exact hD1 q hq hb
          · have := F2 q ((D1.live q).mpr ⟨hq, hb⟩) h
            rwa [D1.doc] at this

/-- `Clear`: all nodes of the document go -/
theorem clearDoc {s : Dom} {K : Nat → List Nat} (S : Outs s K []) (F : Few s) (C : Acyclic K) {d : Nat} (hd : s.live d = true) (hdd : s.doc d = d) :
    ∃ n s', (∀ k, n ≤ k → Clear k d s = .ok () s') ∧ Deleted s s' K [] (fun q => s.doc q = d ∧ q ≠ d) := by
  have W := S.wf F C
  obtain ⟨n1, s1, r1, D1⟩ := delChildren W (fun a _ => delNode W a) (K d) s K [] (fun q x h => h) S hd rfl
  have hD1 : ∀ q, (∃ a ∈ K d, Below K q a) → s.doc q = d ∧ q ≠ d := by
    rintro q ⟨a, m, hb⟩
    obtain ⟨k1, k2, k3, k4, k5, k6⟩ := S.kid d a m
    obtain ⟨b1, b2⟩ := S.below_doc hb
    exact ⟨by rw [b1, k5, hdd], fun e => b2 k6 (by rw [e, hdd])⟩
  have hd1 : s1.live d = true := (D1.live d).mpr ⟨hd, fun h => (hD1 d h).2 rfl⟩
  have hdd1 : s1.doc d = d := by rw [D1.doc]; exact hdd
  obtain ⟨n2, s2, D2, r2, E2, F2, G2⟩ := clearLoop ((s1.unlinked d).length + 1) s1 _ D1.outs (D1.wf W) hd1 hdd1 (Nat.lt_succ_self _)
  have T := D1.trans E2
  refine ⟨n1 + n2 + (s1.unlinked d).length + 1, s2, fun k hk => ?_, T.congr S ?_⟩
  · unfold Clear
    rw [M.bind_ok (r1 k (by omega))]
    exact r2 k (by omega) k (by omega)
  · intro q hq
    constructor
    · rintro (h | h)
      · exact hD1 q h
      · by_cases hb : ∃ a ∈ K d, Below K q a
        · exact hD1 q hb
        · have := F2 q ((D1.live q).mpr ⟨hq, hb⟩) h
          rwa [D1.doc] at this
    · rintro ⟨e1, e2⟩
      by_contra hn
      -- no node is left below
      have Wu := S.wf_up F C
      have K2d : ∀ x, x ∉ pruned K (fun q => (∃ a ∈ K d, Below K q a) ∨ D2 q) d := by
        intro x hx
        obtain ⟨m1, m2, _⟩ := mem_pruned.mp hx
        exact m2 (Or.inl ⟨x, m1, Relation.ReflTransGen.refl⟩)
      have hd2 : s2.live d = true := (E2.live d).mpr ⟨hd1, fun h => (F2 d hd1 h).2 rfl⟩
      have hdd2 : s2.doc d = d := by rw [T.doc]; exact hdd
      have key : ∀ q, s2.live q = true → s2.doc q = d → q ≠ d → False := by
        intro q
        induction q using Wu.induction with
        | _ q ih =>
          intro h1 h2 h3
          cases hp : s2.parent q with
          | none =>
            have := ((T.outs.loose d hd2 hdd2).2 q).mpr ⟨h1, h3, h2, hp, List.not_mem_nil⟩
            rw [G2] at this
            cases this
          | some p =>
            have m := T.outs.child q p h1 hp
            have hp1 := T.outs.live_of_kid m
            have hpd : s2.doc p = d := by rw [← (T.outs.kid p q m).2.2.2.2.1]; exact h2
            by_cases e : p = d
            · subst e; exact K2d q m
            · exact ih p (mem_pruned.mp m).1 hp1 hpd e
      exact key q ((T.live q).mpr ⟨hq, hn⟩) (by rw [T.doc]; exact e1) e2

/-- the destructor of a document -/
theorem delDoc {s : Dom} {K : Nat → List Nat} (S : Outs s K []) (F : Few s) (C : Acyclic K) {d : Nat} (hd : s.live d = true) (hdd : s.doc d = d) :
    ∃ n s', (∀ k, n ≤ k → deleteDocument k d s = .ok () s') ∧ Deleted s s' K [] (fun q => s.doc q = d) := by
  obtain ⟨n1, s1, r1, D1⟩ := clearDoc S F C hd hdd
  have W := S.wf F C
  have hd1 : s1.live d = true := (D1.live d).mpr ⟨hd, fun h => h.2 rfl⟩
  have hdd1 : s1.doc d = d := by rw [D1.doc]; exact hdd
  have K1 : ∀ q, s.doc q = d → pruned K (fun q => s.doc q = d ∧ q ≠ d) q = [] := by
    intro q hq
    rw [List.eq_nil_iff_forall_not_mem]
    intro x hx
    obtain ⟨m1, m2, _⟩ := mem_pruned.mp hx
    obtain ⟨k1, k2, k3, k4, k5, k6⟩ := S.kid q x m1
    refine m2 ⟨by rw [k5, hq], fun e => k6 (by rw [e, hdd])⟩
  have K1d := K1 d hdd
  have hpn : s1.parent d = none := by
    cases hp : s1.parent d with
    | none => rfl
    | some p => exact absurd hdd1 (D1.outs.kid p d (D1.outs.child d p hd1 hp)).2.2.2.2.2
  have hr : ∀ k, 1 ≤ k → DeleteChildren k d s1 = .ok () s1 := by
    intro k hk
    obtain ⟨k, rfl⟩ : ∃ i, k = i + 1 := ⟨k - 1, by omega⟩
    have h1 := (D1.outs.ends d hd1).1
    have h2 := (D1.outs.ends d hd1).2
    rw [K1d] at h1 h2
    rw [DeleteChildren, M.bind_ok (rd_ok hd1), h1, if_neg (by simp)]
    unfold setLast setFirst
    rw [M.bind_ok (wr_ok hd1), wr_ok (by exact hd1)]
    dsimp only
    rw [dput_same s1.last d none h2, dput_same s1.first d none h1]
  have only : ∀ q, s1.live q = true → s1.doc q = d → q = d := by
    intro q h1 h2
    by_contra hn
    exact ((D1.live q).mp h1).2 ⟨by rw [← D1.doc]; exact h2, hn⟩
  have nk : ∀ p, d ∉ pruned K (fun q => s.doc q = d ∧ q ≠ d) p := fun p m => (D1.outs.kid p d m).2.2.2.2.2 hdd1
  have hl : ∀ q, put s1.live d false q = true → s1.live q = true ∧ q ≠ d := by
    intro q h
    have : q ≠ d := fun e => by rw [e, dput_self] at h; cases h
    rw [dput_ne _ _ this] at h
    exact ⟨h, this⟩
  have hKe : pruned K (fun q => s.doc q = d ∧ q ≠ d) = pruned K (fun q => s.doc q = d) := by
    funext q
    by_cases e : s.doc q = d
    · rw [K1 q e]
      unfold pruned
      rw [if_pos e]
    · unfold pruned
      rw [if_neg (fun h => e h.1), if_neg e]
      apply List.filter_congr
      intro x hx
      have : s.doc x ≠ d := by rw [(S.kid q x hx).2.2.2.2.1]; exact e
      simp [this]
  refine ⟨n1 + 1, { s1 with live := put s1.live d false }, fun k hk => ?_, ?_, ?_, D1.doc⟩
  · unfold deleteDocument
    rw [M.bind_ok (r1 k (by omega)), M.bind_ok (hr k (by omega)), M.bind_ok (rd_ok hd1), hpn,
      M.bind_ok (show when_ (none : P).isSome (Unlink none (some d)) s1 = .ok () s1 from rfl)]
    unfold Xml.Dom.free
    rw [if_pos hd1]
  · rw [← hKe]
    have S1 := D1.outs
    refine ⟨S1.nodup, ?_, ?_, ?_, ?_, ?_, ?_, ?_, fun a h => absurd h List.not_mem_nil⟩
    · intro p hp
      by_cases e : p = d
      · rw [e, K1d]
      · exact S1.gone p (by have : put s1.live d false p = false := hp
                            rwa [dput_ne _ _ e] at this)
    · intro p hp; exact S1.ends p (hl p hp).1
    · intro p c hc
      have e : c ≠ d := fun e => nk p (e ▸ hc)
      obtain ⟨k1, k2⟩ := S1.kid p c hc
      exact ⟨by show put s1.live d false c = true; rw [dput_ne _ _ e]; exact k1, k2⟩
    · intro c hc; exact S1.top c (hl c hc).1
    · intro c p hc; exact S1.child c p (hl c hc).1
    · intro c hc
      obtain ⟨c1, c2⟩ := hl c hc
      have := S1.own c c1
      refine ⟨?_, this.2⟩
      show put s1.live d false (s1.doc c) = true
      rw [dput_ne _ _ (fun e => c2 (only c c1 e))]; exact this.1
    · intro d' h1 h2
      obtain ⟨c1, c2⟩ := hl d' h1
      obtain ⟨l1, l2⟩ := S1.loose d' c1 h2
      refine ⟨l1, fun u => ?_⟩
      rw [l2 u]
      show _ ↔ put s1.live d false u = true ∧ _
      by_cases e : u = d
      · subst e
        simp only [dput_self, Bool.false_eq_true, false_and, iff_false]
        rintro ⟨u1, u2, u3, _⟩
        exact u2 (by rw [← u3]; exact hdd1.symm)
      · rw [dput_ne _ _ e]
  · intro q
    show put s1.live d false q = true ↔ _
    by_cases e : q = d
    · subst e; simp [hdd]
    · rw [dput_ne _ _ e, D1.live]
      simp [e]

end Verif
