import Verif.Proof.XmlStackDom1
import Verif.Proof.Clone2
/-!
# Copying on a stack of limited size
-/
namespace Verif
open Spec Xml.Dom Xml
open Tec (Str)

/-- the copy of a node, from any state that has its tree -/
def CloneNodeS (pick : Place) (K₀ : Nat → List Nat) (w₀ : Nat → Content) (c : Nat) : Prop :=
  ∀ (target : P) (d : Nat) (s : CDom) (F : Forest) (room : Nat), Is s.dom F → Has K₀ w₀ F s.what c → F.live d → F.doc d = d → (target = some d ∨ target = none ∧ F.doc c = d) →
    (¬ Deep K₀ room c → ∃ N s' F' r, (∀ k, N ≤ k → DeepCloneS pick room k target c s = .ok (some r) s') ∧ Is s'.dom F' ∧ Grown F s.what F' s'.what d r ∧
      SameTree F'.K s'.what r K₀ w₀ c) ∧
    (Deep K₀ room c → ∃ N, ∀ k, N ≤ k → DeepCloneS pick room k target c s = .ub .overflow)

/-- the copies of children, put into `p` -/
theorem cloneLoopS {pick : Place} {K₀ : Nat → List Nat} {w₀ : Nat → Content} {c : Nat} (H : ∀ x, x ∈ K₀ c → CloneNodeS pick K₀ w₀ x) {target : P} {d p room : Nat}
    (hpc : ¬ Below K₀ p c) (post : List Nat) :
    ∀ (pre : List Nat) (s : CDom) (F : Forest), K₀ c = pre ++ post → Is s.dom F → F.K c = K₀ c → (∀ x ∈ K₀ c, Has K₀ w₀ F s.what x) →
      F.live d → F.doc d = d → F.live p → F.doc p = d → (target = some d ∨ target = none ∧ ∀ x ∈ K₀ c, F.doc x = d) →
      ((∀ x ∈ post, ¬ Deep K₀ room x) → ∃ N s' F' cs, (∀ k, N ≤ k → cloneChildrenS pick room k target p post.head? s = .ok () s') ∧ Is s'.dom F' ∧
        F'.K p = F.K p ++ cs ∧ (∀ q, F.live q → F'.live q ∧ F'.doc q = F.doc q ∧ s'.what q = s.what q ∧ (q ≠ p → F'.K q = F.K q)) ∧
        (∀ q, ¬ F.live q → ∀ x ∈ F'.K q, ¬ F.live x) ∧ (∀ x ∈ cs, ¬ F.live x) ∧
        (∀ q, F'.live q → ¬ F.live q → F'.doc q = d ∧ (∃ x ∈ cs, Below F'.K q x) ∧ s'.what q ≠ .document ∧ DistinctNames (s'.what q)) ∧
        ∀ n, cs.map (treeAt F'.K s'.what n) = post.map (treeAt K₀ w₀ n)) ∧
      ((∃ x ∈ post, Deep K₀ room x) → ∃ N, ∀ k, N ≤ k → cloneChildrenS pick room k target p post.head? s = .ub .overflow) := by
  induction post with
  | nil =>
    intro pre s F _ I _ _ _ _ _ _ _
    refine ⟨fun _ => ⟨1, s, F, [], fun k hk => ?_, I, by simp, fun q hq => ⟨hq, rfl, rfl, fun _ => rfl⟩, ?_, by simp, fun q h1 h2 => absurd h1 h2, fun _ => rfl⟩, fun ⟨x, m, _⟩ => absurd m List.not_mem_nil⟩
    · obtain ⟨m, rfl⟩ : ∃ m, k = m + 1 := ⟨k - 1, by omega⟩
      rfl
    · intro q hq x hx
      exact absurd (I.live_kid hx).2.1 hq
  | cons x post ih =>
    intro pre s F hK I hc hH hd hdd hp hpd ht
    have hx : x ∈ K₀ c := by rw [hK]; simp
    obtain ⟨good, bad⟩ := H x hx target d s F room I (hH x hx) hd hdd (ht.imp id fun h => ⟨h.1, h.2 x hx⟩)
    by_cases hdx : Deep K₀ room x
    · refine ⟨fun h => absurd hdx (h x List.mem_cons_self), fun _ => ?_⟩
      obtain ⟨N, hN⟩ := bad hdx
      refine ⟨N + 1, fun k hk => ?_⟩
      obtain ⟨k, rfl⟩ : ∃ m, k = m + 1 := ⟨k - 1, by omega⟩
      show cloneChildrenS pick room (k + 1) target p (some x) s = _
      unfold cloneChildrenS
      rw [M.bind_ub (hN k (by omega))]
    obtain ⟨N1, s1, F1, a, r1, I1, G, T⟩ := good hdx
    have hp1 := G.old p hp
    have hda : F1.doc a = d := (G.new a G.live G.fresh).1
    have had : a ≠ d := by rintro rfl; exact G.fresh hd
    have hap : a ≠ p := by rintro rfl; exact G.fresh hp
    have hnb : ¬ Below F1.K p a := fun hb => below_closed (D := fun q => ¬ F.live q) G.closed hb G.fresh hp
    obtain ⟨n, s2, r2, I2⟩ := I1.exec (.insertEnd p a) ⟨hp1.1, G.live, fun _ => ⟨by rw [hda]; exact Ne.symm had, hnb⟩⟩
    have r2 := r2 n le_rfl
    have hcond : F1.doc a = F1.doc p := by rw [hda, hp1.2.1, hpd]
    have hK2 : ∀ q, ((DOp.insertEnd p a).step F1).1.K q = if q = p then F1.K q ++ [a] else F1.K q := by
      intro q
      simp only [DOp.step, if_pos hcond, moved, List.erase_of_not_mem (G.top q)]
    have hlive2 : ((DOp.insertEnd p a).step F1).1.live = F1.live := by simp only [DOp.step, if_pos hcond]
    have hdoc2 : ((DOp.insertEnd p a).step F1).1.doc = F1.doc := by simp only [DOp.step, if_pos hcond]
    have hret : ((DOp.insertEnd p a).step F1).2 = some a := by simp only [DOp.step, if_pos hcond]
    generalize hF2 : ((DOp.insertEnd p a).step F1).1 = F2 at I2 hK2 hlive2 hdoc2
    rw [hret] at r2
    change InsertEndChild p a s1.dom = _ at r2
    -- the state keeps the trees
    have hkeep : ∀ q, F.live q → q ≠ p → F2.K q = F.K q := fun q hq h => by rw [hK2, if_neg h, (G.old q hq).2.2.1]
    have hlv : ∀ y ∈ K₀ c, ∀ q, Below K₀ q y → F.live q := by
      intro y hy q hb
      have h1 := hH y hy
      -- nodes below a live node are live
      have : Below F.K q y := by
        revert hb
        intro hb
        induction hb using Relation.ReflTransGen.head_induction_on with
        | refl => exact .refl
        | @head q' m hqm hm hb' =>
          refine Relation.ReflTransGen.head ?_ hb'
          rw [(h1.same m hm).1]; exact hqm
      rcases Relation.ReflTransGen.cases_head this with rfl | ⟨m, e, _⟩
      · exact h1.live
      · exact (I.live_kid e).1
    have hH2 : ∀ y ∈ K₀ c, Has K₀ w₀ F2 s1.what y := by
      intro y hy
      refine ⟨by rw [hlive2]; exact (G.old y (hH y hy).live).1, fun q hb => ?_, (hH y hy).good⟩
      have hq := hlv y hy q hb
      have hqp : q ≠ p := by rintro rfl; exact hpc (below_kid hy hb)
      rw [hkeep q hq hqp, (G.old q hq).2.2.2]
      exact (hH y hy).same q hb
    have hcp : c ≠ p := by rintro rfl; exact hpc .refl
    have hclive : F.live c := (I.live_kid (show x ∈ F.K c by rw [hc]; exact hx)).2.1
    have hc2 : F2.K c = K₀ c := by rw [hkeep c hclive hcp, hc]
    have IH := ih (pre ++ [x]) { s1 with dom := s2 } F2 (by rw [hK]; simp) I2 hc2 hH2
      (by rw [hlive2]; exact (G.old d hd).1) (by rw [hdoc2, (G.old d hd).2.1]; exact hdd) (by rw [hlive2]; exact hp1.1) (by rw [hdoc2, hp1.2.1]; exact hpd)
      (ht.imp id fun h => ⟨h.1, fun y hy => by rw [hdoc2, (G.old y (hH y hy).live).2.1]; exact h.2 y hy⟩)
    have hstep : ∀ k o, cloneChildrenS pick room k target p post.head? { s1 with dom := s2 } = o → N1 ≤ k → cloneChildrenS pick room (k + 1) target p (some x) s = o := by
      intro k o ho hk
      unfold cloneChildrenS
      rw [M.bind_ok (r1 k (by omega))]
      show (onDom (InsertEndChild p a) >>= _) s1 = _
      rw [M.bind_ok (onDom_ok r2)]
      have hn := (I2.shows.out.next_mid (p := c) (pre := pre) (c := x) (post := post) (by rw [hc2, hK]))
      rw [M.bind_ok (onDom_ok (s := { s1 with dom := s2 }) (rd_ok (f := Dom.next) hn.1)), hn.2.1]
      exact ho
    refine ⟨fun hs => ?_, fun ⟨y, hy, hdy⟩ => ?_⟩
    swap
    · rcases List.mem_cons.mp hy with rfl | hy
      · exact absurd hdy hdx
      obtain ⟨N, hN⟩ := IH.2 ⟨y, hy, hdy⟩
      refine ⟨N1 + N + 1, fun k hk => ?_⟩
      obtain ⟨k, rfl⟩ : ∃ m, k = m + 1 := ⟨k - 1, by omega⟩
      exact hstep k _ (hN k (by omega)) (by omega)
    obtain ⟨N3, s3, F3, cs, r3, I3, k3, o3, cl3, n3, w3, t3⟩ := IH.1 fun y hy => hs y (List.mem_cons_of_mem _ hy)
    have hmono : ∀ q m, q ∈ F1.K m → q ∈ F3.K m := by
      intro q m hqm
      have hm : F2.live m := by rw [hlive2]; exact (I1.live_kid hqm).2.1
      by_cases h : m = p
      · subst h
        rw [k3, hK2, if_pos rfl]; simp [hqm]
      · rw [(o3 m hm).2.2.2 h, hK2, if_neg h]; exact hqm
    refine ⟨N1 + N3 + 1, s3, F3, a :: cs, fun k hk => ?_, I3, ?_, fun q hq => ?_, ?_, ?_, ?_, ?_⟩
    · obtain ⟨k, rfl⟩ : ∃ m, k = m + 1 := ⟨k - 1, by omega⟩
      exact hstep k _ (r3 k (by omega)) (by omega)
    · rw [k3, hK2, if_pos rfl, hp1.2.2.1]; simp
    · have h1 := G.old q hq
      have h2 := o3 q (by rw [hlive2]; exact h1.1)
      refine ⟨h2.1, by rw [h2.2.1, hdoc2, h1.2.1], by rw [h2.2.2.1]; exact h1.2.2.2, fun h => ?_⟩
      rw [h2.2.2.2 h, hkeep q hq h]
    · intro q hq y hy
      by_cases h : F2.live q
      · have hqp : q ≠ p := by rintro rfl; exact hq hp
        rw [(o3 q h).2.2.2 hqp, hK2, if_neg hqp] at hy
        exact G.closed q hq y hy
      · intro hyl
        refine cl3 q h y hy ?_
        rw [hlive2]; exact (G.old y hyl).1
    · intro y hy
      rcases List.mem_cons.mp hy with rfl | hy
      · exact G.fresh
      · intro h
        refine n3 y hy ?_
        rw [hlive2]; exact (G.old y h).1
    · intro q hq hnq
      by_cases h : F2.live q
      · have h1 : F1.live q := by rw [← hlive2]; exact h
        obtain ⟨g1, g2⟩ := G.new q h1 hnq
        refine ⟨by rw [(o3 q h).2.1, hdoc2]; exact g1, ⟨a, by simp, Below.mono hmono g2⟩, ?_⟩
        rw [(o3 q h).2.2.1]
        exact G.sound q h1 hnq
      · obtain ⟨g1, ⟨y, hy, g2⟩, g3⟩ := w3 q hq h
        exact ⟨g1, ⟨y, by simp [hy], g2⟩, g3⟩
    · intro n
      rw [List.map_cons, List.map_cons, t3 n]
      congr 1
      rw [← T n]
      refine treeAt_congr (D := fun q => F1.live q ∧ ¬ F.live q) ?_ ?_ n a ⟨G.live, G.fresh⟩
      · rintro q ⟨h1, h2⟩ y hy
        exact ⟨(I1.live_kid hy).1, G.closed q h2 y hy⟩
      · rintro q ⟨h1, h2⟩
        have hqp : q ≠ p := by rintro rfl; exact h2 hp
        have h3 := o3 q (by rw [hlive2]; exact h1)
        exact ⟨by rw [h3.2.2.2 hqp, hK2, if_neg hqp], h3.2.2.1⟩

/-- `DeepClone` -/
theorem cloneNodeS {pick : Place} (hp : NodePlaces pick) {K₀ : Nat → List Nat} {w₀ : Nat → Content} (W : WellFounded (fun c p => c ∈ K₀ p)) (c : Nat) :
    CloneNodeS pick K₀ w₀ c := by
  induction c using W.induction with
  | _ c ih =>
    intro target d s F room I hH hd hdd ht
    cases room with
    | zero => exact ⟨fun h => absurd trivial h, fun _ => ⟨0, fun k _ => by rw [DeepCloneS]; rfl⟩⟩
    | succ room =>
    -- the node itself
    have hlc : s.dom.live c = true := (I.live c).mpr hH.live
    have hw := hH.good c .refl
    have hs := hH.same c .refl
    have hcopy : (s.what c).copy = some (s.what c) := copy_eq (by rw [hs.2]; exact hw.2) (by rw [hs.2]; exact hw.1)
    obtain ⟨N, hN⟩ := I.fewS
    have hf : s.dom.live (pick s.dom.live) = false := hp s.dom.live N fun a ha => by
      cases h : s.dom.live a with
      | false => rfl
      | true => exact absurd (hN a h) (by omega)
    generalize hr : pick s.dom.live = r at hf
    have hrF : ¬ F.live r := fun h => by rw [(I.live r).mpr h] at hf; cases hf
    obtain ⟨s1, e1, I1⟩ := I.newNode hd hdd hrF
    have hsh : ShallowClone pick target c s = .ok (some r) ⟨s1, put s.what r (s.what c)⟩ := by
      unfold ShallowClone
      have h0 : hold c s = .ok (s.what c) s := by simp [hold, hlc]
      rw [M.bind_ok h0, hcopy]
      rcases ht with rfl | ⟨rfl, h⟩
      · show ((pure d : M CDom Nat) >>= _) s = _
        rw [M.bind_ok (show (pure d : M CDom Nat) s = .ok d s from rfl)]
        simp only [M.get_bind_run, hr]
        rw [M.bind_ok (onDom_ok e1)]
        rfl
      · have h0 := onDom_ok (s := s) (rd_ok (f := Dom.doc) hlc)
        rw [I.doc, h] at h0
        show (onDom (rd Dom.doc (some c)) >>= _) s = _
        rw [M.bind_ok h0]
        simp only [M.get_bind_run, hr]
        rw [M.bind_ok (onDom_ok e1)]
        rfl
    have hKr : F.K r = [] := by
      have := I.shows.gone r hf
      exact this
    have hrc : r ≠ c := by rintro rfl; exact hrF hH.live
    have hbl : ∀ q, Below K₀ q c → F.live q := by
      intro q hb
      have : Below F.K q c := by
        induction hb using Relation.ReflTransGen.head_induction_on with
        | refl => exact .refl
        | @head q' m hqm hm hb' =>
          refine Relation.ReflTransGen.head ?_ hb'
          rw [(hH.same m hm).1]; exact hqm
      rcases Relation.ReflTransGen.cases_head this with rfl | ⟨m, e, _⟩
      · exact hH.live
      · exact (I.live_kid e).1
    have hdr : d ≠ r := by rintro rfl; exact hrF hd
    have IH := cloneLoopS (room := room) (c := c) (p := r) (d := d) (target := target) (fun x hx => ih x hx) (fun h => hrF (hbl r h)) (K₀ c) [] ⟨s1, put s.what r (s.what c)⟩ _
      rfl I1 hs.1 (by
        intro x hx
        refine ⟨.inl (hbl x (below_kid hx .refl)), fun q hb => ?_, fun q hb => hH.good q (below_kid hx hb)⟩
        have hb' := below_kid hx hb
        have hqr : q ≠ r := by rintro rfl; exact hrF (hbl q hb')
        exact ⟨(hH.same q hb').1, (dput_ne _ _ hqr).trans (hH.same q hb').2⟩) (.inl hd) ((dput_ne _ _ hdr).trans hdd) (.inr rfl) (by simp [put])
      (ht.imp id fun h => ⟨h.1, fun x hx => by
        have hxr : x ≠ r := by rintro rfl; exact hrF (hbl x (below_kid hx .refl))
        exact (dput_ne _ _ hxr).trans ((I.live_kid (by rw [hs.1]; exact hx)).2.2.1.trans h.2)⟩)
    have hstep : ∀ k, DeepCloneS pick (room + 1) (k + 1) target c s = (cloneChildrenS pick room k target r (K₀ c).head? >>= fun _ => pure (some r)) ⟨s1, put s.what r (s.what c)⟩ := by
      intro k
      unfold DeepCloneS
      rw [M.bind_ok hsh]
      have hc1 : s1.live c = true := (I1.live c).mpr (.inl hH.live)
      have hfst := (I1.shows.ends c hc1).1
      show (onDom (rd Dom.first (some c)) >>= _) (CDom.mk s1 (put s.what r (s.what c))) = _
      rw [M.bind_ok (onDom_ok (s := ⟨s1, put s.what r (s.what c)⟩) (rd_ok (f := Dom.first) hc1)), hfst]
      have e : (F.K c).head? = (K₀ c).head? := by rw [hs.1]
      show (cloneChildrenS pick room k target r (F.K c).head? >>= _) _ = _
      rw [e]
    refine ⟨fun hnd => ?_, fun hnd => ?_⟩
    swap
    · obtain ⟨N, hN⟩ := IH.2 hnd
      refine ⟨N + 1, fun k hk => ?_⟩
      obtain ⟨k, rfl⟩ : ∃ m, k = m + 1 := ⟨k - 1, by omega⟩
      rw [hstep, M.bind_ub (hN k (by omega))]
    obtain ⟨N2, s2, F2, cs, r2, I2, k2, o2, cl2, n2, w2, t2⟩ := IH.1 fun x hx h => hnd ⟨x, hx, h⟩
    have hold : ∀ q, F.live q → Untouched F s.what F2 s2.what q := by
      intro q hq
      have hqr : q ≠ r := by rintro rfl; exact hrF hq
      obtain ⟨g1, g2, g3, g4⟩ := o2 q (.inl hq)
      exact ⟨g1, by rw [g2]; exact dput_ne _ _ hqr, g4 hqr, by rw [g3]; exact dput_ne _ _ hqr⟩
    have hr2 := o2 r (.inr rfl)
    have hKr2 : F2.K r = cs := by rw [k2]; show F.K r ++ cs = cs; rw [hKr]; rfl
    refine ⟨N2 + 1, s2, F2, r, fun k hk => ?_, I2, ⟨hold, hrF, hr2.1, ?_, ?_, ?_, ?_⟩, ?_⟩
    · obtain ⟨k, rfl⟩ : ∃ m, k = m + 1 := ⟨k - 1, by omega⟩
      rw [hstep, M.bind_ok (r2 k (by omega))]; rfl
    · intro q hq hnq
      by_cases h : q = r
      · subst h
        exact ⟨by rw [hr2.2.1]; simp [put], .refl⟩
      · obtain ⟨g1, ⟨x, hx, g2⟩, _⟩ := w2 q hq (by rintro (h' | h'); exact hnq h'; exact h h')
        exact ⟨g1, below_kid (by rw [hKr2]; exact hx) g2⟩
    · intro q hq x hx hxl
      by_cases h : q = r
      · subst h
        rw [hKr2] at hx
        exact n2 x hx (.inl hxl)
      · exact cl2 q (by rintro (h' | h'); exact hq h'; exact h h') x hx (.inl hxl)
    · intro q hq
      by_cases hl : F.live q
      · rw [(hold q hl).2.2.1] at hq
        exact hrF (I.live_kid hq).1
      · by_cases h : q = r
        · subst h
          rw [hKr2] at hq
          exact n2 q hq (.inr rfl)
        · exact cl2 q (by rintro (h' | h'); exact hl h'; exact h h') r hq (.inr rfl)
    · intro q hq hnq
      by_cases h : q = r
      · subst h
        rw [hr2.2.2.1]
        show put s.what q (s.what c) q ≠ .document ∧ DistinctNames (put s.what q (s.what c) q)
        have : put s.what q (s.what c) q = w₀ c := by rw [← hs.2]; simp [put]
        rw [this]; exact hw
      · exact (w2 q hq (by rintro (h' | h'); exact hnq h'; exact h h')).2.2
    · intro n
      have hwr : s2.what r = w₀ c := by
        rw [hr2.2.2.1]
        show put s.what r (s.what c) r = _
        rw [← hs.2]; simp [put]
      cases n with
      | zero => simp only [treeAt, hwr]
      | succ n => simp only [treeAt, hwr, hKr2, t2 n]


theorem cloneS_same {pick : Place} (k : Nat) : ∀ room,
    (∀ target c s s' r, DeepCloneS pick room k target c s = .ok r s' → DeepClone pick k target c s = .ok r s') ∧
    (∀ target p c s s', cloneChildrenS pick room k target p c s = .ok () s' → cloneChildren pick k target p c s = .ok () s') := by
  induction k with
  | zero =>
    intro room
    refine ⟨fun target c s s' r h => ?_, fun target p c s s' h => ?_⟩
    · cases room <;> (rw [DeepCloneS] at h; cases h)
    · rw [cloneChildrenS] at h; cases h
  | succ k ih =>
    intro room
    refine ⟨fun target c s s' r h => ?_, fun target p c s s' h => ?_⟩
    · cases room with
      | zero => rw [DeepCloneS] at h; cases h
      | succ room =>
        rw [DeepCloneS] at h
        rw [DeepClone]
        obtain ⟨x, s1, e1, h⟩ := bind_ok_inv h
        rw [M.bind_ok e1]
        cases x with
        | none => exact h
        | some x =>
          obtain ⟨ch, s2, e2, h⟩ := bind_ok_inv h
          obtain ⟨u, s3, e3, h⟩ := bind_ok_inv h
          show (onDom (rd Dom.first (some c)) >>= _) s1 = _
          rw [M.bind_ok e2, M.bind_ok ((ih room).2 _ _ _ _ _ e3)]
          exact h
    · cases c with
      | none =>
        rw [cloneChildrenS] at h
        rw [cloneChildren]
        exact h
      | some c =>
        rw [cloneChildrenS] at h
        rw [cloneChildren]
        obtain ⟨x, s1, e1, h⟩ := bind_ok_inv h
        rw [M.bind_ok ((ih room).1 _ _ _ _ _ e1)]
        cases x with
        | none => exact h
        | some x =>
          obtain ⟨y, s2, e2, h⟩ := bind_ok_inv h
          obtain ⟨q, s3, e3, h⟩ := bind_ok_inv h
          show (onDom (InsertEndChild p x) >>= _) s1 = _
          rw [M.bind_ok e2, M.bind_ok e3]
          exact (ih room).2 _ _ _ _ _ h

end Verif
