import Verif.Proof.Clone1
/-!
# Copies of documents, comparison
-/
namespace Verif
open Spec Xml.Dom Xml
open Tec (Str)

theorem Spec.Is.below_doc {s : Dom} {F : Forest} (I : Is s F) {q c : Nat} (h : Below F.K q c) : F.doc q = F.doc c := by
  induction h using Relation.ReflTransGen.head_induction_on with
  | refl => rfl
  | head h _ ih => exact (I.live_kid h).2.2.1.trans ih

theorem Spec.Is.below_live {s : Dom} {F : Forest} (I : Is s F) {q c : Nat} (h : Below F.K q c) (hc : F.live c) : F.live q ∧ (F.doc c ≠ c → F.doc q ≠ q) := by
  rcases Relation.ReflTransGen.cases_head h with rfl | ⟨m, e, _⟩
  · exact ⟨hc, id⟩
  · exact ⟨(I.live_kid e).1, fun _ => (I.live_kid e).2.2.2⟩

theorem Spec.Is.has {s : Dom} {F : Forest} {w : Nat → Content} (I : Is s F) (S : Sound F w) {c : Nat} (hc : F.live c) (hd : F.doc c ≠ c) : Has F.K w F w c :=
  ⟨hc, fun _ _ => ⟨rfl, rfl⟩, fun q hb => by
    obtain ⟨h1, h2⟩ := I.below_live hb hc
    obtain ⟨h3, h4⟩ := S q h1
    exact ⟨fun h => h2 hd (h3.mp h), h4⟩⟩

theorem deepClone_run {pick : Place} (hp : NodePlaces pick) {s : CDom} {F : Forest} (I : Is s.dom F) (S : Sound F s.what) {c d : Nat} {target : P} (hc : F.live c)
    (hcd : F.doc c ≠ c) (hd : F.live d) (hdd : F.doc d = d) (ht : target = some d ∨ target = none ∧ F.doc c = d) :
    ∃ N s' F' r, (∀ k, N ≤ k → DeepClone pick k target c s = .ok (some r) s') ∧ Is s'.dom F' ∧ Sound F' s'.what ∧ Grown F s.what F' s'.what d r ∧
      SameTree F'.K s'.what r F.K s.what c := by
  obtain ⟨N, s', F', r, e, I', G, T⟩ := cloneNode hp I.wf c target d s F I (I.has S hc hcd) hd hdd ht
  refine ⟨N, s', F', r, e, I', fun q hq => ?_, G, T⟩
  by_cases h : F.live q
  · obtain ⟨_, h2, _, h4⟩ := G.old q h
    rw [h2, h4]; exact S q h
  · obtain ⟨h1, h2⟩ := G.sound q hq h
    refine ⟨⟨fun e => absurd e h1, fun e => ?_⟩, h2⟩
    rw [(G.new q hq h).1] at e
    subst e
    exact absurd hd h

open Classical in
theorem deepCopy_run {pick : Place} (hp : NodePlaces pick) {s : CDom} {F : Forest} (I : Is s.dom F) (S : Sound F s.what) {this target : Nat} (h1 : F.live this)
    (h1d : F.doc this = this) (h2 : F.live target) (h2d : F.doc target = target) (hne : target ≠ this) :
    ∃ N s' F', (∀ k, N ≤ k → DeepCopy pick k this target s = .ok () s') ∧ Is s'.dom F' ∧ Sound F' s'.what ∧
      (∀ q, F.live q → F.doc q ≠ target → Untouched F s.what F' s'.what q) ∧ F'.live target ∧ F'.doc target = target ∧
      (∀ q, F'.live q → (F.live q ∧ F.doc q ≠ target) ∨ (F'.doc q = target ∧ Below F'.K q target)) ∧
      SameTree F'.K s'.what target F.K s.what this := by
  obtain ⟨n1, s1, r1, I1⟩ := I.exec (.clear target) ⟨h2, h2d⟩
  have hK1 : ∀ q, F.live q → F.doc q ≠ target → ((DOp.clear target).step F).1.K q = F.K q := by
    intro q hq hd
    show pruned F.K (fun q => F.doc q = target ∧ q ≠ target) q = _
    unfold pruned
    rw [if_neg (fun h => hd h.1), List.filter_eq_self]
    intro x hx
    have := (I.live_kid hx).2.2.1
    simp [this, hd]
  have hKt : ((DOp.clear target).step F).1.K target = [] := by
    show pruned F.K (fun q => F.doc q = target ∧ q ≠ target) target = _
    unfold pruned
    rw [if_neg (fun h => h.2 rfl), List.filter_eq_nil_iff]
    intro x hx
    obtain ⟨_, _, g3, g4⟩ := I.live_kid hx
    rw [h2d] at g3
    have : x ≠ target := fun h => g4 (g3.trans h.symm)
    simp [g3, this]
  have hl1 : ∀ q, ((DOp.clear target).step F).1.live q ↔ F.live q ∧ ¬ (F.doc q = target ∧ q ≠ target) := fun q => Iff.rfl
  have hd1 : ((DOp.clear target).step F).1.doc = F.doc := rfl
  generalize ((DOp.clear target).step F).1 = F1 at I1 hK1 hKt hl1 hd1
  have hthis : F.doc this ≠ target := by rw [h1d]; exact Ne.symm hne
  have hkid : ∀ x ∈ F.K this, F.live x ∧ F.doc x = this ∧ F.doc x ≠ x := by
    intro x hx
    obtain ⟨g1, _, g3, g4⟩ := I.live_kid hx
    exact ⟨g1, g3.trans h1d, g4⟩
  obtain ⟨N, s', F', cs, r2, I2, k2, o2, cl2, n2, w2, t2⟩ := cloneLoop (pick := pick) (K₀ := F.K) (w₀ := s.what) (c := this) (target := some target) (d := target) (p := target)
    (fun x _ => cloneNode hp I.wf x) (fun hb => hthis ((I.below_doc hb).symm.trans h2d)) (F.K this) [] { s with dom := s1 } F1 rfl I1 (hK1 this h1 hthis)
    (by
      intro x hx
      obtain ⟨g1, g2, g3⟩ := hkid x hx
      refine ⟨(hl1 x).mpr ⟨g1, fun h => hne (h.1.symm.trans g2)⟩, fun q hb => ?_, (I.has S g1 g3).good⟩
      exact ⟨hK1 q (I.below_live hb g1).1 (fun h => hne (h.symm.trans ((I.below_doc hb).trans g2))), rfl⟩)
    ((hl1 target).mpr ⟨h2, fun h => h.2 rfl⟩) (by rw [hd1]; exact h2d) ((hl1 target).mpr ⟨h2, fun h => h.2 rfl⟩) (by rw [hd1]; exact h2d) (.inl rfl)
  rw [hKt, List.nil_append] at k2
  have ht1 := (hl1 target).mpr ⟨h2, fun h => h.2 rfl⟩
  have ho := o2 target ht1
  have hun : ∀ q, F.live q → F.doc q ≠ target → Untouched F s.what F' s'.what q := by
    intro q hq hd
    obtain ⟨g1, g2, g3, g4⟩ := o2 q ((hl1 q).mpr ⟨hq, fun h => hd h.1⟩)
    have hqt : q ≠ target := by rintro rfl; exact hd h2d
    exact ⟨g1, by rw [g2, hd1], by rw [g4 hqt, hK1 q hq hd], g3⟩
  refine ⟨N + n1, s', F', fun k hk => ?_, I2, fun q hq => ?_, hun, ho.1, by rw [ho.2.1, hd1]; exact h2d, fun q hq => ?_, fun n => ?_⟩
  · unfold DeepCopy
    rw [if_neg hne]
    have r1 := r1 k (by omega)
    have r1' : Clear k target s.dom = .ok () s1 := by
      change (Clear k target >>= fun _ => pure none) s.dom = _ at r1
      rw [M.bind_run] at r1
      cases h : Clear k target s.dom with
      | ok a t => rw [h] at r1; cases r1; rfl
      | err e t => rw [h] at r1; cases r1
      | ub u => rw [h] at r1; cases r1
    rw [M.bind_ok (onDom_ok r1')]
    have hl : s1.live this = true := (I1.live this).mpr ((hl1 this).mpr ⟨h1, fun h => hthis h.1⟩)
    rw [M.bind_ok (onDom_ok (s := { s with dom := s1 }) (rd_ok (f := Dom.first) hl)), (I1.shows.ends this hl).1, hK1 this h1 hthis]
    exact r2 k (by omega)
  · by_cases h : F1.live q
    · obtain ⟨_, g2, g3, _⟩ := o2 q h
      rw [g2, g3, hd1]
      exact S q ((hl1 q).mp h).1
    · obtain ⟨g1, _, g3, g4⟩ := w2 q hq h
      refine ⟨⟨fun e => absurd e g3, fun e => ?_⟩, g4⟩
      rw [g1] at e
      subst e
      exact absurd ht1 h
  · by_cases h : F1.live q
    · obtain ⟨g1, g2⟩ := (hl1 q).mp h
      by_cases hd : F.doc q = target
      · have : q = target := by by_contra hn; exact g2 ⟨hd, hn⟩
        subst this
        exact .inr ⟨by rw [ho.2.1, hd1]; exact h2d, .refl⟩
      · exact .inl ⟨g1, hd⟩
    · obtain ⟨g1, ⟨x, hx, g2⟩, _⟩ := w2 q hq h
      exact .inr ⟨g1, below_kid (by rw [k2]; exact hx) g2⟩
  · have hw : s'.what target = s.what this := by
      rw [ho.2.2.1]
      exact ((S target h2).1.mpr h2d).trans ((S this h1).1.mpr h1d).symm
    cases n with
    | zero => simp only [treeAt, hw]
    | succ n => simp only [treeAt, hw, k2, t2 n]

theorem sameValues_iff (as bs : List (Str × Str)) : sameValues as bs = true ↔ as.map Prod.snd = bs.map Prod.snd := by
  induction as generalizing bs with
  | nil => cases bs <;> simp [sameValues]
  | cons a as ih =>
    cases bs with
    | nil => simp [sameValues]
    | cons b bs =>
      unfold sameValues
      by_cases h : a.2 = b.2
      · simp [h, ih]
      · simp [h]

theorem shallowEqual_iff (x y : Content) : x.shallowEqual y = true ↔ Alike x y := by
  constructor
  · intro h
    cases x <;> cases y <;> simp only [Content.shallowEqual, Bool.false_eq_true, beq_iff_eq] at h
    · split at h
      · rename_i e; subst e; exact .element ((sameValues_iff _ _).mp h)
      · cases h
    all_goals subst h; constructor
  · rintro (h | _ | _ | _ | _)
    · simp only [Content.shallowEqual, if_true]; exact (sameValues_iff _ _).mpr h
    all_goals simp [Content.shallowEqual]

end Verif
