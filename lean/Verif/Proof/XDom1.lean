import Verif.Spec.Dom
import Mathlib.Tactic.ByContra
import Mathlib.Tactic.Tauto
import Mathlib.Data.List.Nodup
import Mathlib.Data.List.Basic
/-!
# Links of a list of children
-/
set_option linter.unusedSimpArgs false
namespace Verif
open Spec Xml.Dom

theorem behind_cons_ne {c x : Nat} {l : List Nat} (h : x ≠ c) : behind c (x :: l) = behind c l := by
  cases l with
  | nil => rfl
  | cons y r => simp only [behind]; rw [if_neg h]

theorem behind_mid {c : Nat} {pre post : List Nat} (h : c ∉ pre) : behind c (pre ++ c :: post) = post.head? := by
  induction pre with
  | nil => cases post with
    | nil => rfl
    | cons y r => simp [behind]
  | cons x pre ih =>
    simp only [List.mem_cons, not_or] at h
    rw [List.cons_append, behind_cons_ne (fun e => h.1 e.symm)]
    exact ih h.2

theorem before_none {c : Nat} {x : Nat} {l : List Nat} (h : c ∉ l) : before c (x :: l) = none := by
  induction l generalizing x with
  | nil => rfl
  | cons y r ih =>
    simp only [List.mem_cons, not_or] at h
    simp only [before]
    rw [if_neg (fun e => h.1 e.symm)]
    exact ih h.2

theorem before_mid {c : Nat} {pre post : List Nat} (h : c ∉ pre) (h' : c ∉ post) : before c (pre ++ c :: post) = pre.getLast? := by
  induction pre with
  | nil => exact before_none h'
  | cons x pre ih =>
    simp only [List.mem_cons, not_or] at h
    cases pre with
    | nil => simp [before]
    | cons y r =>
      simp only [List.mem_cons, not_or] at h
      simp only [List.cons_append, before]
      rw [if_neg (fun e => h.2.1 e.symm)]
      simpa using ih (by simpa using h.2)

theorem nodup_mid {c : Nat} {pre post : List Nat} (h : (pre ++ c :: post).Nodup) : c ∉ pre ∧ c ∉ post ∧ (pre ++ post).Nodup := by
  rw [List.nodup_append] at h
  obtain ⟨h1, h2, h3⟩ := h
  rw [List.nodup_cons] at h2
  refine ⟨fun m => h3 c m c List.mem_cons_self rfl, h2.1, ?_⟩
  rw [List.nodup_append]
  exact ⟨h1, h2.2, fun a ha b hb => h3 a ha b (List.mem_cons_of_mem _ hb)⟩

theorem erase_mid {c : Nat} {pre post : List Nat} (h : c ∉ pre) : (pre ++ c :: post).erase c = pre ++ post := by
  rw [List.erase_append_right _ h, List.erase_cons_head]

/-! ## the elementary steps -/

theorem rd_ok {α : Type} {f : Dom → Nat → α} {c : Nat} {s : Dom} (h : s.live c = true) : rd f (some c) s = .ok (f s c) s := by
  simp [rd, h]

theorem wr_ok {f : Nat → Dom → Dom} {c : Nat} {s : Dom} (h : s.live c = true) : wr (some c) f s = .ok () (f c s) := by
  simp [wr, h]

@[simp] theorem dput_self {α : Type} (f : Nat → α) (c : Nat) (v : α) : put f c v c = v := by simp [put]
theorem dput_ne {α : Type} (f : Nat → α) {c q : Nat} (v : α) (h : q ≠ c) : put f c v q = f q := by simp [put, h]

/-- what `Unlink` leaves -/
def unlinkedFrom (p a : Nat) (s : Dom) : Dom :=
  { s with
    first := if s.first p = some a then put s.first p (s.next a) else s.first
    last := if s.last p = some a then put s.last p (s.prev a) else s.last
    next := put (match s.prev a with | some x => put s.next x (s.next a) | none => s.next) a none
    prev := put (match s.next a with | some y => put s.prev y (s.prev a) | none => s.prev) a none
    parent := put s.parent a none }

theorem Unlink_run {p a : Nat} {s : Dom} (hp : s.live p = true) (ha : s.live a = true) (h1 : ∀ x, s.prev a = some x → s.live x = true)
    (h2 : ∀ x, s.next a = some x → s.live x = true) : Unlink (some p) (some a) s = .ok () (unlinkedFrom p a s) := by
  unfold Unlink
  rw [M.bind_ok (rd_ok hp)]
  have w1 : when_ (some a == s.first p) (do let n ← rd Dom.next (s.first p); setFirst (some p) n) s =
      .ok () { s with first := if s.first p = some a then put s.first p (s.next a) else s.first } := by
    unfold when_
    by_cases e : s.first p = some a
    · rw [if_pos (by simp [e]), e, M.bind_ok (rd_ok ha)]
      unfold setFirst
      rw [wr_ok hp, if_pos rfl]
    · rw [if_neg (by simpa using fun h => e h.symm), if_neg e]; rfl
  rw [M.bind_ok w1, M.bind_ok (rd_ok (by exact hp))]
  dsimp only
  have w2 : ∀ t : Dom, t.live = s.live → t.last = s.last → t.prev = s.prev →
      when_ (some a == s.last p) (do let n ← rd Dom.prev (s.last p); setLast (some p) n) t =
      .ok () { t with last := if s.last p = some a then put s.last p (s.prev a) else s.last } := by
    intro t e1 e2 e3
    unfold when_
    by_cases e : s.last p = some a
    · rw [if_pos (by simp [e]), e, M.bind_ok (rd_ok (by rw [e1]; exact ha))]
      unfold setLast
      rw [wr_ok (by rw [e1]; exact hp), if_pos rfl, e2, e3]
    · rw [if_neg (by simpa using fun h => e h.symm), if_neg e, ← e2]; rfl
  rw [M.bind_ok (w2 _ (by rfl) (by rfl) (by rfl)), M.bind_ok (rd_ok (by exact ha))]
  dsimp only
  have w3 : ∀ t : Dom, t.live = s.live → t.next = s.next → 
      when_ (s.prev a).isSome (do let n ← rd Dom.next (some a); setNext (s.prev a) n) t =
      .ok () { t with next := match s.prev a with | some x => put s.next x (s.next a) | none => s.next } := by
    intro t e1 e2
    unfold when_
    cases e : s.prev a with
    | none => simp only [Option.isSome_none, Bool.false_eq_true, if_false, ← e2]; rfl
    | some x =>
      rw [if_pos (by rfl), M.bind_ok (rd_ok (by rw [e1]; exact ha))]
      unfold setNext
      rw [wr_ok (by rw [e1]; exact h1 x e), e2]
  rw [M.bind_ok (w3 _ (by rfl) (by rfl)), M.bind_ok (rd_ok (by exact ha))]
  dsimp only
  have hn : (match s.prev a with | some x => put s.next x (s.next a) | none => s.next) a = s.next a := by
    cases s.prev a with
    | none => rfl
    | some x => by_cases e : a = x <;> simp [put, e]
  rw [hn]
  have w4 : ∀ t : Dom, t.live = s.live → t.prev = s.prev → 
      when_ (s.next a).isSome (do let n ← rd Dom.prev (some a); setPrev (s.next a) n) t =
      .ok () { t with prev := match s.next a with | some x => put s.prev x (s.prev a) | none => s.prev } := by
    intro t e1 e2
    unfold when_
    cases e : s.next a with
    | none => simp only [Option.isSome_none, Bool.false_eq_true, if_false, ← e2]; rfl
    | some x =>
      rw [if_pos (by rfl), M.bind_ok (rd_ok (by rw [e1]; exact ha))]
      unfold setPrev
      rw [wr_ok (by rw [e1]; exact h2 x e), e2]
  rw [M.bind_ok (w4 _ (by rfl) (by rfl))]
  unfold setNext setPrev setParent
  rw [M.bind_ok (wr_ok (by exact ha)), M.bind_ok (wr_ok (by exact ha)), wr_ok (by exact ha)]
  rfl

/-- the element behind / before an element of a list -/
theorem behind_mem {c x : Nat} {l : List Nat} (h : behind c l = some x) : x ∈ l := by
  induction l with
  | nil => cases h
  | cons y r ih =>
    cases r with
    | nil => cases h
    | cons z r =>
      simp only [behind] at h
      split at h
      · cases h; simp
      · exact List.mem_cons_of_mem _ (ih h)

theorem before_mem {c x : Nat} {l : List Nat} (h : before c l = some x) : x ∈ l := by
  induction l with
  | nil => cases h
  | cons y r ih =>
    cases r with
    | nil => cases h
    | cons z r =>
      simp only [before] at h
      split at h
      · cases h; simp
      · exact List.mem_cons_of_mem _ (ih h)

theorem Spec.Links.live_of_kid {s : Dom} {K : Nat → List Nat} (S : Links s K) {p c : Nat} (h : c ∈ K p) : s.live p = true := by
  by_contra hn
  rw [S.gone p (by simpa using hn)] at h
  cases h

theorem behind_del {a c : Nat} {pre post : List Nat} (h : (pre ++ a :: post).Nodup) (hc : c ∈ pre ++ post) :
    behind c (pre ++ post) = (if pre.getLast? = some c then post.head? else behind c (pre ++ a :: post)) ∧
    behind c (pre ++ a :: post) = (if pre.getLast? = some c then some a else behind c (pre ++ post)) := by
  obtain ⟨h1, h2, h3⟩ := nodup_mid h
  rcases List.mem_append.mp hc with m | m
  · obtain ⟨u, v, e⟩ := List.append_of_mem m
    subst e
    have hn : (u ++ c :: (v ++ post)).Nodup := by simpa using h3
    have hu := (nodup_mid hn).1
    have hv := (nodup_mid hn).2.1
    have e1 : u ++ c :: v ++ post = u ++ c :: (v ++ post) := by simp
    have e2 : u ++ c :: v ++ a :: post = u ++ c :: (v ++ a :: post) := by simp
    rw [e1, e2, behind_mid hu, behind_mid hu]
    cases v with
    | nil => simp
    | cons y w =>
      have hl : (u ++ c :: y :: w).getLast? ≠ some c := by
        intro e
        have : (u ++ c :: y :: w).getLast? = (y :: w).getLast? := by simp [List.getLast?_append, List.getLast?_cons]
        rw [this] at e
        exact hv (List.mem_append_left _ (List.mem_of_getLast? e))
      rw [if_neg hl, if_neg hl]
      simp
  · have hl : pre.getLast? ≠ some c := by
      intro e
      have := (List.nodup_append.mp h3).2.2 c (List.mem_of_getLast? e) c m
      exact this rfl
    rw [if_neg hl, if_neg hl]
    have : behind c (pre ++ post) = behind c (pre ++ a :: post) := by
      obtain ⟨u, v, e⟩ := List.append_of_mem m
      subst e
      have hn : ((pre ++ u) ++ c :: v).Nodup := by simpa using h3
      have hn' : ((pre ++ a :: u) ++ c :: v).Nodup := by simpa using h
      have e1 : pre ++ (u ++ c :: v) = (pre ++ u) ++ c :: v := by simp
      have e2 : pre ++ a :: (u ++ c :: v) = (pre ++ a :: u) ++ c :: v := by simp
      rw [e1, e2, behind_mid (nodup_mid hn).1, behind_mid (nodup_mid hn').1]
    exact ⟨this, this.symm⟩

theorem before_del {a c : Nat} {pre post : List Nat} (h : (pre ++ a :: post).Nodup) (hc : c ∈ pre ++ post) :
    before c (pre ++ post) = (if post.head? = some c then pre.getLast? else before c (pre ++ a :: post)) ∧
    before c (pre ++ a :: post) = (if post.head? = some c then some a else before c (pre ++ post)) := by
  obtain ⟨h1, h2, h3⟩ := nodup_mid h
  rcases List.mem_append.mp hc with m | m
  · have hl : post.head? ≠ some c := by
      intro e
      have := (List.nodup_append.mp h3).2.2 c m c (List.mem_of_head? e)
      exact this rfl
    rw [if_neg hl, if_neg hl]
    have : before c (pre ++ post) = before c (pre ++ a :: post) := by
      obtain ⟨u, v, e⟩ := List.append_of_mem m
      subst e
      have hn : (u ++ c :: (v ++ post)).Nodup := by simpa using h3
      have hn' : (u ++ c :: (v ++ a :: post)).Nodup := by simpa using h
      have e1 : u ++ c :: v ++ post = u ++ c :: (v ++ post) := by simp
      have e2 : u ++ c :: v ++ a :: post = u ++ c :: (v ++ a :: post) := by simp
      rw [e1, e2, before_mid (nodup_mid hn).1 (nodup_mid hn).2.1, before_mid (nodup_mid hn').1 (nodup_mid hn').2.1]
    exact ⟨this, this.symm⟩
  · obtain ⟨u, v, e⟩ := List.append_of_mem m
    subst e
    have hn : ((pre ++ u) ++ c :: v).Nodup := by simpa using h3
    have hn' : ((pre ++ a :: u) ++ c :: v).Nodup := by simpa using h
    have e1 : pre ++ (u ++ c :: v) = (pre ++ u) ++ c :: v := by simp
    have e2 : pre ++ a :: (u ++ c :: v) = (pre ++ a :: u) ++ c :: v := by simp
    rw [e1, e2, before_mid (nodup_mid hn).1 (nodup_mid hn).2.1, before_mid (nodup_mid hn').1 (nodup_mid hn').2.1]
    cases u with
    | nil => simp
    | cons y w =>
      have hl : ((y :: w) ++ c :: v).head? ≠ some c := by
        intro e
        simp only [List.cons_append, List.head?_cons, Option.some.injEq] at e
        exact (nodup_mid hn).1 (by rw [e]; simp)
      rw [if_neg hl, if_neg hl]
      simp [List.getLast?_append, List.getLast?_cons]

/-- The links show the lists `K`; the nodes `A`, without parents, are not among the unlinked ones of their documents. -/
structure Outs (s : Dom) (K : Nat → List Nat) (A : List Nat) : Prop where
  nodup : ∀ p, (K p).Nodup
  gone : ∀ p, s.live p = false → K p = []
  ends : ∀ p, s.live p = true → s.first p = (K p).head? ∧ s.last p = (K p).getLast?
  kid : ∀ p c, c ∈ K p → s.live c = true ∧ s.parent c = some p ∧ s.prev c = before c (K p) ∧ s.next c = behind c (K p) ∧
    s.doc c = s.doc p ∧ s.doc c ≠ c
  top : ∀ c, s.live c = true → s.parent c = none → s.prev c = none ∧ s.next c = none
  child : ∀ c p, s.live c = true → s.parent c = some p → c ∈ K p
  own : ∀ c, s.live c = true → s.live (s.doc c) = true ∧ s.doc (s.doc c) = s.doc c
  loose : ∀ d, s.live d = true → s.doc d = d → (s.unlinked d).Nodup ∧
    ∀ u, u ∈ s.unlinked d ↔ s.live u = true ∧ u ≠ d ∧ s.doc u = d ∧ s.parent u = none ∧ u ∉ A
  out : ∀ a, a ∈ A → s.live a = true ∧ s.parent a = none ∧ s.doc a ≠ a

theorem Spec.Links.out {s : Dom} {K : Nat → List Nat} (S : Links s K) : Outs s K [] :=
  ⟨S.nodup, S.gone, S.ends, S.kid, S.top, S.child, S.own, fun d h1 h2 => ⟨(S.loose d h1 h2).1, fun u => by simpa using (S.loose d h1 h2).2 u⟩,
    fun a h => absurd h List.not_mem_nil⟩

theorem Outs.shows {s : Dom} {K : Nat → List Nat} (S : Outs s K []) : Links s K :=
  ⟨S.nodup, S.gone, S.ends, S.kid, S.top, S.child, S.own, fun d h1 h2 => ⟨(S.loose d h1 h2).1, fun u => by simpa using (S.loose d h1 h2).2 u⟩⟩

theorem Outs.live_of_kid {s : Dom} {K : Nat → List Nat} {A : List Nat} (S : Outs s K A) {p c : Nat} (h : c ∈ K p) : s.live p = true := by
  by_contra hn
  rw [S.gone p (by simpa using hn)] at h
  cases h

/-- a child is taken out -/
theorem Outs.unlink {s : Dom} {K : Nat → List Nat} {A : List Nat} (S : Outs s K A) {p a : Nat} (h : a ∈ K p) :
    Unlink (some p) (some a) s = .ok () (unlinkedFrom p a s) ∧ Outs (unlinkedFrom p a s) (fun q => (K q).erase a) (a :: A) := by
  obtain ⟨k1, k2, k3, k4, k5, k6⟩ := S.kid p a h
  have hp := S.live_of_kid h
  have er : ∀ q, q ≠ p → (K q).erase a = K q := by
    intro q hq
    apply List.erase_of_not_mem
    intro m
    have := (S.kid q a m).2.1
    rw [k2] at this
    exact hq (Option.some.inj this).symm
  obtain ⟨pre, post, e⟩ := List.append_of_mem h
  have hnd : (pre ++ a :: post).Nodup := e ▸ S.nodup p
  obtain ⟨n1, n2, n3⟩ := nodup_mid hnd
  have ep : (K p).erase a = pre ++ post := by rw [e, erase_mid n1]
  rw [e, before_mid n1 n2] at k3
  rw [e, behind_mid n1] at k4
  have inp : ∀ c, c ∈ pre ++ post → c ∈ K p := by
    intro c hc
    rw [e]
    rcases List.mem_append.mp hc with m | m
    · exact List.mem_append_left _ m
    · exact List.mem_append_right _ (List.mem_cons_of_mem _ m)
  have lp : ∀ x, pre.getLast? = some x → x ∈ K p := fun x hx => inp x (List.mem_append_left _ (List.mem_of_getLast? hx))
  have lq : ∀ x, post.head? = some x → x ∈ K p := fun x hx => inp x (List.mem_append_right _ (List.mem_of_head? hx))
  refine ⟨Unlink_run hp k1 (fun x hx => (S.kid p x (lp x (by rw [← k3]; exact hx))).1) (fun x hx => (S.kid p x (lq x (by rw [← k4]; exact hx))).1), ?_⟩
  have nx : ∀ c, c ≠ a → (unlinkedFrom p a s).next c = if pre.getLast? = some c then post.head? else s.next c := by
    intro c hc
    simp only [unlinkedFrom, k3, k4]
    rw [dput_ne _ _ hc]
    cases pre.getLast? with
    | none => simp
    | some x => by_cases e : c = x <;> simp [put, e, eq_comm]
  have pv : ∀ c, c ≠ a → (unlinkedFrom p a s).prev c = if post.head? = some c then pre.getLast? else s.prev c := by
    intro c hc
    simp only [unlinkedFrom, k3, k4]
    rw [dput_ne _ _ hc]
    cases post.head? with
    | none => simp
    | some x => by_cases e : c = x <;> simp [put, e, eq_comm]
  have pa : ∀ c, (unlinkedFrom p a s).parent c = if c = a then none else s.parent c := by
    intro c; simp only [unlinkedFrom, put]
  have ne_of : ∀ q c, c ∈ (K q).erase a → c ≠ a ∧ c ∈ K q := by
    intro q c hc
    exact ⟨fun e => (S.nodup q).not_mem_erase (e ▸ hc), List.mem_of_mem_erase hc⟩
  refine ⟨fun q => (S.nodup q).erase a, ?_, ?_, ?_, ?_, ?_, S.own, ?_, ?_⟩
  · intro q hq
    have : K q = [] := S.gone q hq
    simp [this]
  · intro q hq
    obtain ⟨e1, e2⟩ := S.ends q hq
    by_cases hqp : q = p
    · subst hqp
      simp only [unlinkedFrom, ep]
      rw [e] at e1 e2
      constructor
      · cases pre with
        | nil => simp [e1, put, k4]
        | cons x r =>
          have : x ≠ a := fun e => n1 (by simp [e])
          simp [e1, this]
      · have e3 : s.last q = (a :: post).getLast? := by rw [e2]; simp [List.getLast?_append, List.getLast?_cons]
        cases post with
        | nil => simp [e3, put, k3]
        | cons x r =>
          have : (a :: x :: r).getLast? ≠ some a := by
            intro e4
            have : (a :: x :: r).getLast? = (x :: r).getLast? := by simp [List.getLast?_cons]
            rw [this] at e4
            exact n2 (List.mem_of_getLast? e4)
          rw [e3, if_neg this, e3]
          simp [List.getLast?_append, List.getLast?_cons]
    · simp only [unlinkedFrom, er q hqp]
      constructor
      · rw [← e1]; split
        · exact dput_ne _ _ hqp
        · rfl
      · rw [← e2]; split
        · exact dput_ne _ _ hqp
        · rfl
  · intro q c hc
    obtain ⟨ca, cq⟩ := ne_of q c hc
    obtain ⟨j1, j2, j3, j4, j5, j6⟩ := S.kid q c cq
    refine ⟨j1, ?_, ?_, ?_, j5, j6⟩
    · rw [pa, if_neg ca, j2]
    · rw [pv c ca]
      by_cases hqp : q = p
      · subst hqp
        rw [ep] at hc ⊢
        rw [j3, e, (before_del hnd hc).1]
      · rw [er q hqp, j3, if_neg]
        intro hh
        have := (S.kid p c (lq c hh)).2.1
        rw [j2] at this
        exact hqp (Option.some.inj this)
    · rw [nx c ca]
      by_cases hqp : q = p
      · subst hqp
        rw [ep] at hc ⊢
        rw [j4, e, (behind_del hnd hc).1]
      · rw [er q hqp, j4, if_neg]
        intro hh
        have := (S.kid p c (lp c hh)).2.1
        rw [j2] at this
        exact hqp (Option.some.inj this)
  · intro c hc hpar
    by_cases ca : c = a
    · subst ca
      simp [unlinkedFrom]
    · rw [pa, if_neg ca] at hpar
      have ⟨t1, t2⟩ := S.top c hc hpar
      have notin : c ∉ K p := by
        intro m
        have := (S.kid p c m).2.1
        rw [hpar] at this; cases this
      rw [nx c ca, pv c ca, if_neg (fun h => notin (lq c h)), if_neg (fun h => notin (lp c h))]
      exact ⟨t1, t2⟩
  · intro c q hc hpar
    by_cases ca : c = a
    · rw [pa, if_pos ca] at hpar; cases hpar
    · rw [pa, if_neg ca] at hpar
      exact (List.mem_erase_of_ne ca).mpr (S.child c q hc hpar)
  · intro d h1 h2
    refine ⟨(S.loose d h1 h2).1, fun u => ?_⟩
    have := (S.loose d h1 h2).2 u
    rw [pa]
    show u ∈ s.unlinked d ↔ s.live u = true ∧ u ≠ d ∧ s.doc u = d ∧ _ ∧ _
    rw [this]
    by_cases ua : u = a
    · subst ua
      simp [k2]
    · simp [ua]
  · intro b hb
    rw [pa]
    rcases List.mem_cons.mp hb with e | hb
    · subst e; exact ⟨k1, if_pos rfl, k6⟩
    · obtain ⟨b1, b2, b3⟩ := S.out b hb
      refine ⟨b1, ?_, b3⟩
      split
      · rfl
      · exact b2

/-! ## `_unlinked` -/

theorem swapRemove_not_mem {c : Nat} {l : List Nat} (h : c ∉ l) : swapRemove c l = l := by
  unfold swapRemove
  simp [List.idxOf_eq_length h]

theorem swapRemove_perm {c : Nat} {l : List Nat} (h : c ∈ l) : List.Perm (c :: swapRemove c l) l := by
  obtain ⟨u, v, e, hu⟩ : ∃ u v, l = u ++ c :: v ∧ c ∉ u := by
    obtain ⟨u, v, h1, h2⟩ := List.eq_append_cons_of_mem h
    exact ⟨u, v, h1, h2⟩
  subst e
  have hi : (u ++ c :: v).idxOf c = u.length := by
    rw [List.idxOf_append_of_notMem hu]; simp
  unfold swapRemove
  simp only [hi]
  rw [if_pos (by simp)]
  rcases List.eq_nil_or_concat v with rfl | ⟨w, x, rfl⟩
  · simpa using (List.perm_append_singleton c u).symm
  · have : ((u ++ c :: w.concat x).set u.length ((u ++ c :: w.concat x).getLast?.getD 0)).take ((u ++ c :: w.concat x).length - 1) = u ++ x :: w := by
      have hl : (u ++ c :: w.concat x).getLast? = some x := by
        simp [List.getLast?_append, List.getLast?_cons]
      rw [hl]
      simp [List.set_append, List.take_append]
      exact List.take_of_length_le (by omega)
    rw [this]
    simp only [List.concat_eq_append]
    have p1 : List.Perm (u ++ x :: w) (x :: (u ++ w)) := List.perm_middle
    have p2 : List.Perm (u ++ c :: (w ++ [x])) (c :: (u ++ (w ++ [x]))) := List.perm_middle
    refine List.Perm.trans (List.Perm.cons c p1) (List.Perm.trans ?_ p2.symm)
    refine List.Perm.cons c ?_
    rw [← List.append_assoc]
    exact (List.perm_append_singleton x (u ++ w)).symm

/-- what `MarkInUse` leaves -/
def marked (d a : Nat) (s : Dom) : Dom := { s with unlinked := put s.unlinked d (swapRemove a (s.unlinked d)) }

theorem MarkInUse_run {d a : Nat} {s : Dom} (h : s.live d = true) : MarkInUse d a s = .ok () (marked d a s) := by
  unfold MarkInUse
  rw [wr_ok h]; rfl

theorem marked_eq {d a : Nat} {s : Dom} (h : a ∉ s.unlinked d) : marked d a s = s := by
  unfold marked
  rw [swapRemove_not_mem h]
  have : put s.unlinked d (s.unlinked d) = s.unlinked := by
    funext q; unfold put; split
    · rename_i e; rw [e]
    · rfl
  rw [this]

/-- a node without a parent is marked as used -/
theorem Outs.mark {s : Dom} {K : Nat → List Nat} {A : List Nat} (S : Outs s K A) {a : Nat} (h : s.live a = true) (hp : s.parent a = none)
    (hd : s.doc a ≠ a) (hA : a ∉ A) :
    MarkInUse (s.doc a) a s = .ok () (marked (s.doc a) a s) ∧ Outs (marked (s.doc a) a s) K (a :: A) := by
  obtain ⟨o1, o2⟩ := S.own a h
  refine ⟨MarkInUse_run o1, S.nodup, S.gone, S.ends, S.kid, S.top, S.child, S.own, ?_, ?_⟩
  · intro d h1 h2
    have h1 : s.live d = true := h1
    have h2 : s.doc d = d := h2
    obtain ⟨l1, l2⟩ := S.loose d h1 h2
    by_cases e : d = s.doc a
    · have ma : a ∈ s.unlinked d := (l2 a).mpr ⟨h, fun e' => hd (by rw [← e, e']), e.symm, hp, hA⟩
      have P := swapRemove_perm ma
      have nd : (a :: swapRemove a (s.unlinked d)).Nodup := P.symm.nodup l1
      rw [List.nodup_cons] at nd
      simp only [marked, ← e, dput_self]
      refine ⟨nd.2, fun u => ?_⟩
      have hu : u ∈ swapRemove a (s.unlinked d) ↔ u ∈ s.unlinked d ∧ u ≠ a := by
        rw [← P.mem_iff, List.mem_cons]
        constructor
        · intro m; exact ⟨Or.inr m, fun e => nd.1 (e ▸ m)⟩
        · rintro ⟨m | m, n⟩
          · exact absurd m n
          · exact m
      rw [hu, l2 u]
      simp only [List.mem_cons, not_or]
      tauto
    · simp only [marked]
      rw [dput_ne _ _ e]
      refine ⟨l1, fun u => ?_⟩
      rw [l2 u]
      simp only [List.mem_cons, not_or]
      constructor
      · rintro ⟨c1, c2, c3, c4, c5⟩
        exact ⟨c1, c2, c3, c4, fun e' => e (by rw [← c3, e']), c5⟩
      · rintro ⟨c1, c2, c3, c4, c5, c6⟩
        exact ⟨c1, c2, c3, c4, c6⟩
  · intro b hb
    rcases List.mem_cons.mp hb with e | hb
    · subst e; exact ⟨h, hp, hd⟩
    · exact S.out b hb

end Verif
