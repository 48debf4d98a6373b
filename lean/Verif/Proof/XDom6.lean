import Verif.Proof.XDom5
/-!
# The calls, one and many
-/
set_option linter.unusedSimpArgs false
namespace Verif
open Spec Xml.Dom

theorem Spec.Is.fewS {s : Dom} {F : Forest} (I : Is s F) : Few s := by
  obtain ⟨N, h⟩ := I.few
  exact ⟨N, fun c hc => h c ((I.live c).mp hc)⟩

theorem Spec.Is.wf {s : Dom} {F : Forest} (I : Is s F) : WellFounded (fun c p => c ∈ F.K p) := I.shows.out.wf I.fewS I.acyclic

/-- a deletion -/
theorem Spec.Is.deleted {s s' : Dom} {F : Forest} (I : Is s F) {D : Nat → Prop} (h : Deleted s s' F.K [] D) : Is s' (F.remove D) := by
  refine ⟨h.outs.shows, fun q => ?_, h.doc.trans I.doc, Acyclic.mono I.acyclic (fun c p m => (mem_pruned.mp m).1), ?_⟩
  · rw [h.live, I.live]; rfl
  · obtain ⟨N, hN⟩ := I.few
    exact ⟨N, fun c hc => hN c hc.1⟩

/-- an insertion -/
theorem Spec.Is.inserted {s s' : Dom} {F : Forest} (I : Is s F) {a p : Nat} {f : List Nat → List Nat} (S : Outs s' (moved F.K a p f) []) (hl : s'.live = s.live)
    (hd : s'.doc = s.doc) (hf : ∀ l c, c ∈ f l → c ∈ l ∨ c = a) (hb : ¬ Below F.K p a) : Is s' { F with K := moved F.K a p f } :=
  ⟨S.shows, fun q => by rw [hl]; exact I.live q, hd.trans I.doc, Acyclic.moved I.acyclic I.shows.nodup hf hb, I.few⟩

/-- a new node -/
theorem Spec.Is.added {s s' : Dom} {F : Forest} (I : Is s F) {c d : Nat} (S : Outs s' F.K []) (hl : s'.live = put s.live c true) (hd : s'.doc = put s.doc c d) :
    Is s' ⟨fun q => F.live q ∨ q = c, put F.doc c d, F.K⟩ := by
  refine ⟨S.shows, fun q => ?_, by rw [hd, I.doc], I.acyclic, ?_⟩
  · rw [hl]
    by_cases e : q = c
    · subst e; simp
    · rw [dput_ne _ _ e, I.live]; simp [e]
  · obtain ⟨N, hN⟩ := I.few
    refine ⟨max N (c + 1), fun q hq => ?_⟩
    rcases hq with h | h
    · exact lt_of_lt_of_le (hN q h) (le_max_left _ _)
    · subst h; exact lt_of_lt_of_le (Nat.lt_succ_self _) (le_max_right _ _)

theorem mem_insBehind {x a : Nat} : ∀ (l : List Nat) (c : Nat), c ∈ insBehind x a l → c ∈ l ∨ c = a := by
  intro l
  induction l with
  | nil => intro c h; cases h
  | cons y r ih =>
    intro c h
    unfold insBehind at h
    split at h
    · simp only [List.mem_cons] at h ⊢; tauto
    · rcases List.mem_cons.mp h with h | h
      · exact Or.inl (by rw [h]; simp)
      · rcases ih c h with h | h
        · exact Or.inl (List.mem_cons_of_mem _ h)
        · exact Or.inr h

/-- a deletion that returns nothing -/
theorem Spec.Is.deleted_run {s : Dom} {F : Forest} (I : Is s F) {D : Nat → Prop} {m : Nat → M Dom Unit}
    (h : ∃ n s', (∀ k, n ≤ k → m k s = .ok () s') ∧ Deleted s s' F.K [] D) :
    ∃ n s', (∀ k, n ≤ k → (do m k; pure none : M Dom P) s = .ok none s') ∧ Is s' (F.remove D) := by
  obtain ⟨n, s', r, H⟩ := h
  refine ⟨n, s', fun k hk => ?_, I.deleted H⟩
  rw [M.bind_ok (r k hk)]; rfl

theorem Spec.Is.exec {s : Dom} {F : Forest} (I : Is s F) (op : DOp) (h : op.may F) :
    ∃ n s', (∀ k, n ≤ k → op.exec k s = .ok (op.step F).2 s') ∧ Is s' (op.step F).1 := by
  have S := I.shows.out
  have lv : ∀ {q}, F.live q → s.live q = true := fun h => (I.live _).mpr h
  have nl : ∀ {q}, ¬ F.live q → s.live q = false := fun h => by
    rw [← Bool.not_eq_true]; exact fun h' => h ((I.live _).mp h')
  cases op with
  | newDocument c =>
    obtain ⟨s', r, S', l, d⟩ := S.newDocument (nl h)
    exact ⟨0, s', fun k _ => by show (Xml.Dom.newDocument c >>= _) s = _; rw [M.bind_ok r]; rfl, I.added S' l d⟩
  | newNode d c =>
    obtain ⟨h1, h2, h3⟩ := h
    obtain ⟨s', r, S', l, d⟩ := S.newNode (lv h1) (by rw [I.doc]; exact h2) (nl h3)
    exact ⟨0, s', fun k _ => by show (Xml.Dom.newNode _ c >>= _) s = _; rw [M.bind_ok r]; rfl, I.added S' l d⟩
  | insertEnd p a =>
    obtain ⟨h1, h2, h3⟩ := h
    simp only [DOp.step, DOp.exec]
    by_cases e : F.doc a = F.doc p
    · rw [if_pos e]
      obtain ⟨h4, h5⟩ := h3 e
      obtain ⟨s', r, S', l, d⟩ := S.insertEndChild (lv h2) (lv h1) (by rw [I.doc]; exact h4) (by rw [I.doc]; exact e)
      exact ⟨0, s', fun k _ => r, I.inserted S' l d (fun l c h => by simpa using h) h5⟩
    · rw [if_neg e]
      refine ⟨0, s, fun k _ => ?_, I⟩
      unfold InsertEndChild
      rw [M.bind_ok (rd_ok (lv h2)), M.bind_ok (rd_ok (lv h1)), if_pos (by rw [I.doc]; exact e)]; rfl
  | insertFirst p a =>
    obtain ⟨h1, h2, h3⟩ := h
    simp only [DOp.step, DOp.exec]
    by_cases e : F.doc a = F.doc p
    · rw [if_pos e]
      obtain ⟨h4, h5⟩ := h3 e
      obtain ⟨s', r, S', l, d⟩ := S.insertFirstChild (lv h2) (lv h1) (by rw [I.doc]; exact h4) (by rw [I.doc]; exact e)
      exact ⟨0, s', fun k _ => r, I.inserted S' l d (fun l c h => by rcases List.mem_cons.mp h with h | h; exacts [Or.inr h, Or.inl h]) h5⟩
    · rw [if_neg e]
      refine ⟨0, s, fun k _ => ?_, I⟩
      unfold InsertFirstChild
      rw [M.bind_ok (rd_ok (lv h2)), M.bind_ok (rd_ok (lv h1)), if_pos (by rw [I.doc]; exact e)]; rfl
  | insertAfter p x a =>
    obtain ⟨h1, h2, h3, h4⟩ := h
    simp only [DOp.step, DOp.exec]
    by_cases e : F.doc a = F.doc p
    · by_cases m : x ∈ F.K p
      · rw [if_pos ⟨e, m⟩]
        by_cases xa : x = a
        · rw [if_pos xa]
          refine ⟨0, s, fun k _ => ?_, I⟩
          unfold InsertAfterChild
          rw [M.bind_ok (rd_ok (lv h2)), M.bind_ok (rd_ok (lv h1)), if_neg (by rw [I.doc]; simpa using e), M.bind_ok (rd_ok (lv h3)),
            if_neg (by rw [(S.kid p x m).2.1]; simp), if_pos xa]; rfl
        · rw [if_neg xa]
          obtain ⟨h5, h6, h7⟩ := h4 e m xa
          obtain ⟨s', r, S', l, d⟩ := S.insertAfterChild (lv h2) (by rw [I.doc]; exact h5) (by rw [I.doc]; exact e) m xa h7
          exact ⟨0, s', fun k _ => r, I.inserted S' l d mem_insBehind h6⟩
      · rw [if_neg (fun h => m h.2)]
        refine ⟨0, s, fun k _ => ?_, I⟩
        unfold InsertAfterChild
        rw [M.bind_ok (rd_ok (lv h2)), M.bind_ok (rd_ok (lv h1)), if_neg (by rw [I.doc]; simpa using e), M.bind_ok (rd_ok (lv h3)),
            if_pos (fun hp => m (S.child x p (lv h3) hp))]; rfl
    · rw [if_neg (fun h => e h.1)]
      refine ⟨0, s, fun k _ => ?_, I⟩
      unfold InsertAfterChild
      rw [M.bind_ok (rd_ok (lv h2)), M.bind_ok (rd_ok (lv h1)), if_pos (by rw [I.doc]; exact e)]; rfl
  | deleteChildren p =>
    exact I.deleted_run (delChildren I.wf (fun a _ => delNode I.wf a) (F.K p) s F.K [] (fun q x h => h) S (lv h) rfl)
  | deleteChild p a => exact I.deleted_run (delChild S I.wf h)
  | deleteNode a => exact I.deleted_run (docDel S I.wf (lv h.1) (by rw [I.doc]; exact h.2))
  | clear d =>
    have := clearDoc S I.fewS I.acyclic (lv h.1) (by rw [I.doc]; exact h.2)
    rw [I.doc] at this
    exact I.deleted_run this
  | deleteDocument d =>
    have := delDoc S I.fewS I.acyclic (lv h.1) (by rw [I.doc]; exact h.2)
    rw [I.doc] at this
    exact I.deleted_run this

theorem Spec.Is.execAll {s : Dom} {F F' : Forest} (I : Is s F) {ops : List DOp} (h : Calls F ops F') :
    ∃ n s', (∀ k, n ≤ k → Spec.execAll k ops s = .ok () s') ∧ Is s' F' := by
  induction h generalizing s with
  | nil => exact ⟨0, s, fun _ _ => rfl, I⟩
  | @cons F F' op ops may rest ih =>
    obtain ⟨n1, s1, r1, I1⟩ := I.exec op may
    obtain ⟨n2, s2, r2, I2⟩ := ih I1
    refine ⟨n1 + n2, s2, fun k hk => ?_, I2⟩
    unfold Spec.execAll
    rw [M.bind_ok (r1 k (by omega))]
    exact r2 k (by omega)

theorem is_nothing : Is nothing Forest.empty := by
  refine ⟨⟨?_, ?_, ?_, ?_, ?_, ?_, ?_, ?_⟩, ?_, rfl, ?_, 0, ?_⟩
  all_goals first
    | (intro c h; obtain ⟨y, e, _⟩ := Relation.TransGen.head'_iff.mp h; cases e)
    | simp [nothing, Forest.empty]

/-- the invariant holds along all calls: every live node is of a live document -/
theorem Spec.Is.doc_live {s : Dom} {F : Forest} (I : Is s F) {q : Nat} (h : F.live q) : F.live (F.doc q) ∧ F.doc (F.doc q) = F.doc q := by
  have := I.shows.own q ((I.live q).mpr h)
  rw [I.doc, I.live] at this
  exact this

end Verif
