import Verif.Proof.Attr2
/-!
# Each call does what it says
-/
namespace Verif.Attr
open Spec Xml.Attr

/-- an element and the places of its attributes -/
theorem _root_.Verif.Spec.AShows.fresh {s : Attrs} {A : Elems} {L : Nat → List Nat} (S : AShows s A L) {pick : Pick} (hp : Picks pick) : s.live (pick s.live) = false := by
  obtain ⟨N, hN⟩ := S.few
  exact hp s.live N hN

/-- two places of attributes with the same name in an element are one -/
theorem _root_.Verif.Spec.AShows.same {s : Attrs} {A : Elems} {L : Nat → List Nat} (S : AShows s A L) {e a b : Nat} {l : List Att} (he : A e = some l)
    (ha : a ∈ L e) (hb : b ∈ L e) (h : s.name a = s.name b) : a = b := by
  have hC := S.content e l he
  have hN := S.names e l he
  have e1 : (L e).map s.name = l.map Att.name := by
    generalize L e = as at hC
    clear ha hb hN he
    induction hC with
    | nil => rfl
    | cons h _ ih => simp [h.2.1, ih]
  rw [← e1] at hN
  exact List.inj_on_of_nodup_map hN ha hb h

/-- the pointer for a text of a call -/
theorem _root_.Verif.Spec.AShows.ptr {s : Attrs} {A : Elems} {L : Nat → List Nat} (S : AShows s A L) {n : Src} {t : Str} (h : n.get A = some t) :
    ∃ N c, (∀ k, N ≤ k → n.ptr k s = .ok c s) ∧ Points s c t ∧
      ∀ a, c = .valueOf a → ∃ e m, n = .value e m ∧ a ∈ L e ∧ s.name a = m := by
  cases n with
  | own u =>
    refine ⟨0, .text u, fun k _ => rfl, points_text.mpr (Option.some.inj h), fun a ha => by cases ha⟩
  | name e m =>
    unfold Src.get at h
    dsimp only at h
    cases hA : A e with
    | none => rw [hA] at h; cases h
    | some l =>
      rw [hA] at h
      obtain ⟨y, hy, h⟩ := Option.map_eq_some_iff.mp h
      change lookup m l = some y at hy
      rcases S.find hA (points_text.mpr rfl : Points s (.text m) m) (Nat.lt_succ_self (L e).length) with ⟨h0, _⟩ | ⟨x, l1, l2, as1, a, as2, h1, h2, h3, h4, h5, h6, h7, h8, h9, h10⟩
      · rw [hy] at h0; cases h0
      · rw [hy] at h1; cases h1
        refine ⟨(L e).length + 1, .nameOf a, fun k hk => ?_, points_name.mpr ⟨h7.1, h7.2.1.trans h⟩, fun b hb => by cases hb⟩
        rcases S.find hA (points_text.mpr rfl : Points s (.text m) m) hk with ⟨h0, _⟩ | ⟨x', l1', l2', as1', a', as2', g1, g2, g3, g4, g5, g6, g7, g8, g9, g10⟩
        · rw [hy] at h0; cases h0
        · have : a' = a := S.same hA (by rw [g5]; simp) (by rw [h5]; simp) (by rw [g7.2.1, h7.2.1, g2, h2])
          subst this
          unfold Src.ptr
          dsimp only
          rw [M.bind_ok g9]; rfl
  | value e m =>
    unfold Src.get at h
    dsimp only at h
    cases hA : A e with
    | none => rw [hA] at h; cases h
    | some l =>
      rw [hA] at h
      obtain ⟨y, hy, h⟩ := Option.map_eq_some_iff.mp h
      change lookup m l = some y at hy
      rcases S.find hA (points_text.mpr rfl : Points s (.text m) m) (Nat.lt_succ_self (L e).length) with ⟨h0, _⟩ | ⟨x, l1, l2, as1, a, as2, h1, h2, h3, h4, h5, h6, h7, h8, h9, h10⟩
      · rw [hy] at h0; cases h0
      · rw [hy] at h1; cases h1
        refine ⟨(L e).length + 1, .valueOf a, fun k hk => ?_, points_value.mpr ⟨h7.1, h ▸ h7.2.2.1⟩, fun b hb => ?_⟩
        · rcases S.find hA (points_text.mpr rfl : Points s (.text m) m) hk with ⟨h0, _⟩ | ⟨x', l1', l2', as1', a', as2', g1, g2, g3, g4, g5, g6, g7, g8, g9, g10⟩
          · rw [hy] at h0; cases h0
          · have : a' = a := S.same hA (by rw [g5]; simp) (by rw [h5]; simp) (by rw [g7.2.1, h7.2.1, g2, h2])
            subst this
            unfold Src.ptr
            dsimp only
            rw [M.bind_ok g9]; rfl
        · cases hb
          exact ⟨e, m, rfl, by rw [h5]; simp, h7.2.1.trans h2⟩

/-- `SetAttribute` -/
theorem _root_.Verif.Spec.AShows.setAttribute {s : Attrs} {A : Elems} {L : Nat → List Nat} (S : AShows s A L) {pick : Pick} (hp : Picks pick) {e : Nat} {l : List Att}
    (he : A e = some l) {n v : CStr} {t u : Str} (hn : Points s n t) (hv : Points s v u)
    (hself : ∀ a ∈ L e, s.name a = t → v = .valueOf a → s.owned a = false) :
    ∃ s' L', (∀ k, (L e).length < k → SetAttribute pick k e n v s = .ok () s') ∧ AShows s' (A.upd e (some (assign t u l))) L' := by
  have hel : s.elem e = true := by rw [S.elem, he]; rfl
  rcases S.find he hn (Nat.lt_succ_self (L e).length) with ⟨h0, h1, _⟩ | ⟨x, l1, l2, as1, a, as2, h1, h2, h3, h4, h5, h6, h7, h8, _, _⟩
  · -- a new one
    have hf := S.fresh hp
    generalize ha : pick s.live = a at hf
    rw [assign_none h1]
    have hne : ∀ b, s.live b = true → b ≠ a := by rintro b hb rfl; rw [hf] at hb; cases hb
    -- after the creation and the linking
    have key : ∀ (s2 : Attrs) (m : M Attrs Unit), s2.live = put s.live a true → s2.elem = s.elem →
        (∀ b, b ≠ a → s2.name b = s.name b ∧ s2.value b = s.value b ∧ s2.owned b = s.owned b) → s2.owned a = false → s2.next a = none →
        ((L e = [] ∧ s2.root = put s.root e (some a) ∧ ∀ b, b ≠ a → s2.next b = s.next b) ∨
          (∃ m, (L e).getLast? = some m ∧ s2.root = s.root ∧ s2.next m = some a ∧ ∀ b, b ≠ a → b ≠ m → s2.next b = s.next b)) →
        ∃ s', (do SetName (some a) n; SetValue (some a) v) s2 = .ok () s' ∧ AShows s' (A.upd e (some (l ++ [⟨t, u, true⟩]))) (put L e (L e ++ [a])) := by
      intro s2 _ g1 g2 g3 g4 g5 g6
      have hl2 : s2.live a = true := by rw [g1, put_same]
      have hlb : ∀ b, s.live b = true → s2.live b = true := fun b hb => by rw [g1, put_ne _ _ (hne b hb)]; exact hb
      have p1 : Points s2 n t := hn.frame fun b hb => ⟨fun _ => ⟨hlb b hb, (g3 b (hne b hb)).1⟩, fun _ => ⟨hlb b hb, (g3 b (hne b hb)).2.1⟩⟩
      let s3 : Attrs := { s2 with name := put s2.name a t }
      have p2 : Points s3 v u := hv.frame fun b hb => ⟨fun _ => ⟨hlb b hb, (put_ne _ _ (hne b hb)).trans (g3 b (hne b hb)).1⟩, fun _ => ⟨hlb b hb, (g3 b (hne b hb)).2.1⟩⟩
      have r1 : SetName (some a) n s2 = .ok () s3 := by
        unfold SetName
        rw [M.bind_ok p1, wr_ok hl2]
      have r2 := setValue_ok (s := s3) (a := a) (v := v) (u := u) hl2 p2 (fun _ => g4)
      refine ⟨_, (M.bind_ok r1).trans r2, ?_⟩
      refine S.append he h0 hf g1 g2 ?_ ?_ g5 g6
      · intro b hb
        exact ⟨(put_ne _ _ hb).trans (g3 b hb).1, (put_ne _ _ hb).trans (g3 b hb).2.1, (put_ne _ _ hb).trans (g3 b hb).2.2⟩
      · exact ⟨hl2, put_same _ _ _, put_same _ _ _, put_same _ _ _⟩
    let s1 : Attrs := { s with live := put s.live a true, name := put s.name a [], value := put s.value a none, owned := put s.owned a false
                               next := put s.next a none }
    have hc : CreateAttribute pick s = .ok (some a) s1 := by unfold CreateAttribute; rw [ha]
    have old : ∀ b, b ≠ a → s1.name b = s.name b ∧ s1.value b = s.value b ∧ s1.owned b = s.owned b := fun b hb => ⟨put_ne _ _ hb, put_ne _ _ hb, put_ne _ _ hb⟩
    cases hL : (L e).getLast? with
    | none =>
      have hL' : L e = [] := List.getLast?_eq_none_iff.mp hL
      let s2 : Attrs := { s1 with root := put s1.root e (some a) }
      obtain ⟨s', r, S'⟩ := key s2 (pure ()) rfl rfl old (put_same _ _ _) (put_same _ _ _) (.inl ⟨hL', rfl, fun b hb => put_ne _ _ hb⟩)
      refine ⟨s', _, fun k hk => ?_, S'⟩
      rcases S.find he hn hk with ⟨_, _, _, f⟩ | ⟨x, _, _, _, _, _, f, _⟩
      · unfold SetAttribute FindOrCreateAttribute
        simp only [bind_assoc]
        rw [M.bind_ok (rdRoot_ok hel), M.bind_ok f]
        simp only [hL, bind_assoc]
        rw [M.bind_ok hc]
        show (setRoot e (some a) >>= fun _ => SetName (some a) n >>= fun _ => SetValue (some a) v) s1 = _
        rw [M.bind_ok (setRoot_ok (by exact hel))]
        exact r
      · rw [h0] at f; cases f
    | some m =>
      have hm : m ∈ L e := List.mem_of_mem_getLast? hL
      have hma : m ≠ a := hne m (S.isLive hm)
      let s2 : Attrs := { s1 with next := put s1.next m (some a) }
      obtain ⟨s', r, S'⟩ := key s2 (pure ()) rfl rfl old (put_same _ _ _) ((put_ne _ _ (Ne.symm hma)).trans (put_same _ _ _))
        (.inr ⟨m, hL, rfl, put_same _ _ _, fun b hb hbm => (put_ne _ _ hbm).trans (put_ne _ _ hb)⟩)
      refine ⟨s', _, fun k hk => ?_, S'⟩
      rcases S.find he hn hk with ⟨_, _, _, f⟩ | ⟨x, _, _, _, _, _, f, _⟩
      · unfold SetAttribute FindOrCreateAttribute
        simp only [bind_assoc]
        rw [M.bind_ok (rdRoot_ok hel), M.bind_ok f]
        simp only [hL, bind_assoc]
        rw [M.bind_ok hc]
        show (wr (some m) (fun l s => { s with next := put s.next l (some a) }) >>= fun _ => SetName (some a) n >>= fun _ => SetValue (some a) v) s1 = _
        rw [M.bind_ok (wr_ok (by show put s.live a true m = true; rw [put_ne _ _ hma]; exact S.isLive hm))]
        exact r
      · rw [h0] at f; cases f
  · -- there is one
    subst h3
    rw [assign_some h4 h2]
    have haL : a ∈ L e := by rw [h5]; simp
    have r := setValue_ok (s := s) (a := a) (v := v) (u := u) h7.1 hv (hself a haL (h7.2.1.trans h2))
    refine ⟨{ s with value := put s.value a (some u), owned := put s.owned a true }, put L e (L e), fun k hk => ?_, ?_⟩
    · rcases S.find he hn hk with ⟨f, _⟩ | ⟨x', l1', l2', as1', a', as2', g1, g2, g3, g4, g5, g6, g7, g8, g9, g10⟩
      · rw [h1] at f; cases f
      · have : a' = a := S.same he (by rw [g5]; simp) haL (by rw [g7.2.1, h7.2.1, g2, h2])
        subst this
        unfold SetAttribute FindOrCreateAttribute
        simp only [bind_assoc]
        rw [M.bind_ok (rdRoot_ok hel), M.bind_ok g10]
        exact r
    · have hnd := S.nodup e
      rw [h5] at hnd
      obtain ⟨n1, n2, _⟩ := nodup_mid hnd
      have hk : ∀ b, b ≠ a → put s.value a (some u) b = s.value b ∧ put s.owned a true b = s.owned b := fun b hb => ⟨put_ne _ _ hb, put_ne _ _ hb⟩
      refine S.update ?_ (fun _ _ _ => rfl) ?_ ?_ ?_ ?_ (S.nodup e) (fun q hq b hb h => hq (S.apart q e b h hb)) (fun b hb => S.used' e hb) S.few
      · intro q
        by_cases h : q = e
        · subst h; show s.elem q = _; rw [hel]; rfl
        · simp [h]
      · intro q hq b hb
        have : b ≠ a := by rintro rfl; exact hq (S.apart q e b hb haL)
        exact ⟨rfl, rfl, (hk b this).1, (hk b this).2, rfl⟩
      · exact linked_iff.mpr ((linked_iff.mp (S.linked e hel)).frame fun b _ => ⟨rfl, rfl⟩)
      · rw [h5]
        refine List.rel_append (content_frame h6 fun b hb => ?_) (.cons ?_ (content_frame h8 fun b hb => ?_))
        · have : b ≠ a := by rintro rfl; exact n1 hb
          exact ⟨rfl, rfl, (hk b this).1, (hk b this).2⟩
        · exact ⟨h7.1, h7.2.1.trans h2, put_same _ _ _, put_same _ _ _⟩
        · have : b ≠ a := by rintro rfl; exact n2 hb
          exact ⟨rfl, rfl, (hk b this).1, (hk b this).2⟩
      · have := S.names e _ he
        rw [List.map_append, List.map_cons, h2] at this
        rw [List.map_append, List.map_cons]
        exact this

/-- `DeleteAttribute( name )` -/
theorem _root_.Verif.Spec.AShows.deleteAttribute {s : Attrs} {A : Elems} {L : Nat → List Nat} (S : AShows s A L) {e : Nat} {l : List Att}
    (he : A e = some l) {n : CStr} {t : Str} (hn : Points s n t) :
    ∃ s' L', (∀ k, (L e).length < k → DeleteAttribute k e n s = .ok () s') ∧ AShows s' (A.upd e (some (without t l))) L' := by
  have hel : s.elem e = true := by rw [S.elem, he]; rfl
  rcases S.find he hn (Nat.lt_succ_self (L e).length) with ⟨h0, h1, _⟩ | ⟨x, l1, l2, as1, a, as2, h1, h2, h3, h4, h5, h6, h7, h8, _, _⟩
  · rw [without_none h1]
    refine ⟨s, L, fun k hk => ?_, ?_⟩
    · rcases S.find he hn hk with ⟨_, _, _, f⟩ | ⟨x, _, _, _, _, _, f, _⟩
      · unfold DeleteAttribute
        rw [M.bind_ok (rdRoot_ok hel), M.bind_ok f]; rfl
      · rw [h0] at f; cases f
    · have : A.upd e (some l) = A := by
        funext q
        by_cases h : q = e
        · subst h; rw [upd_same, he]
        · rw [upd_ne _ _ h]
      rw [this]; exact S
  · subst h3
    rw [without_some h2 (S.names e _ he)]
    have hla := h7.1
    have find : ∀ k, (L e).length < k → seek n k none (s.root e) s = .ok (as1.getLast?, some a) s := by
      intro k hk
      rcases S.find he hn hk with ⟨f, _⟩ | ⟨x', l1', l2', as1', a', as2', g1, g2, g3, g4, g5, g6, g7, g8, g9, g10⟩
      · rw [h1] at f; cases f
      · have : a' = a := S.same he (by rw [g5]; simp) (by rw [h5]; simp) (by rw [g7.2.1, h7.2.1, g2, h2])
        subst this
        have : as1' = as1 := by
          have hnd := S.nodup e
          rw [h5] at hnd
          have e2 := h5.symm.trans g5
          rw [List.append_eq_append_iff] at e2
          obtain ⟨n1, n2, _⟩ := nodup_mid hnd
          rcases e2 with ⟨z, e3, e4⟩ | ⟨z, e3, e4⟩
          · cases z with
            | nil => simpa using e3
            | cons b z =>
              have e5 := (List.cons.inj e4).2
              exact absurd (by rw [e5]; simp) n2
          · cases z with
            | nil => simpa using e3.symm
            | cons b z =>
              have e5 := (List.cons.inj e4).1
              subst e5
              exact absurd (by rw [e3]; simp) n1
        rw [this] at g10
        exact g10
    have haL : a ∈ L e := by rw [h5]; simp
    cases hm : as1.getLast? with
    | none =>
      have e0 : as1 = [] := List.getLast?_eq_none_iff.mp hm
      refine ⟨{ s with root := put s.root e (s.next a), live := put s.live a false }, _, fun k hk => ?_,
        S.remove he h5 h6 h8 rfl rfl rfl rfl rfl (.inl ⟨e0, rfl, rfl⟩)⟩
      unfold DeleteAttribute
      rw [M.bind_ok (rdRoot_ok hel), M.bind_ok (find k hk)]
      simp only [hm]
      rw [M.bind_ok (rd_ok hla), M.bind_ok (setRoot_ok hel)]
      simp [freeAttribute, hla]
    | some m =>
      have hmL : m ∈ as1 := List.mem_of_mem_getLast? hm
      have hml : s.live m = true := S.isLive (e := e) (by rw [h5]; simp [hmL])
      refine ⟨{ s with next := put s.next m (s.next a), live := put s.live a false }, _, fun k hk => ?_,
        S.remove he h5 h6 h8 rfl rfl rfl rfl rfl (.inr ⟨m, hm, rfl, rfl⟩)⟩
      unfold DeleteAttribute
      rw [M.bind_ok (rdRoot_ok hel), M.bind_ok (find k hk)]
      simp only [hm]
      rw [M.bind_ok (rd_ok hla), M.bind_ok (wr_ok hml)]
      simp [freeAttribute, hla]

/-- the loop of the destructor -/
theorem _root_.Verif.Spec.AShows.destroy {s : Attrs} {A : Elems} {L : Nat → List Nat} (S : AShows s A L) {e : Nat} {l : List Att} (he : A e = some l) :
    ∃ s' L', (∀ k, (L e).length < k → destroyLoop e k s = .ok () s') ∧ AShows s' (A.upd e (some [])) L' := by
  have main : ∀ (n : Nat) (s : Attrs) (A : Elems) (L : Nat → List Nat) (l : List Att), AShows s A L → A e = some l → (L e).length = n →
      ∃ s' L', (∀ k, n < k → destroyLoop e k s = .ok () s') ∧ AShows s' (A.upd e (some [])) L' := by
    intro n
    induction n with
    | zero =>
      intro s A L l S he hL
      have hL : L e = [] := List.eq_nil_of_length_eq_zero hL
      have hC := S.content e l he
      rw [hL] at hC
      cases hC
      have hel : s.elem e = true := by rw [S.elem, he]; rfl
      have hl := S.linked e hel
      rw [hL, linked_iff] at hl
      have hr : s.root e = none := hl
      refine ⟨s, L, fun k hk => ?_, ?_⟩
      · obtain ⟨k, rfl⟩ : ∃ m, k = m + 1 := ⟨k - 1, by omega⟩
        unfold destroyLoop
        rw [M.bind_ok (rdRoot_ok hel), hr]; rfl
      · have : A.upd e (some []) = A := by
          funext q
          by_cases h : q = e
          · subst h; rw [upd_same, he]
          · rw [upd_ne _ _ h]
        rw [this]; exact S
    | succ n ih =>
      intro s A L l S he hL
      have hel : s.elem e = true := by rw [S.elem, he]; rfl
      obtain ⟨a, as, hLe⟩ : ∃ a as, L e = a :: as := by
        cases h : L e with
        | nil => rw [h] at hL; cases hL
        | cons a as => exact ⟨a, as, rfl⟩
      have hC := S.content e l he
      rw [hLe] at hC
      cases hC with
      | @cons _ x _ l h1 h2 =>
        have hl := linked_iff.mp (S.linked e hel)
        rw [hLe] at hl
        obtain ⟨hr, hla, _⟩ := seg_head hl
        let s1 : Attrs := { s with root := put s.root e (s.next a), live := put s.live a false }
        have S1 : AShows s1 (A.upd e (some ([] ++ l))) (put L e ([] ++ as)) :=
          S.remove (l1 := []) (as1 := []) he hLe .nil h2 rfl rfl rfl rfl rfl (.inl ⟨rfl, rfl, rfl⟩)
        obtain ⟨s', L', r, S'⟩ := ih s1 _ _ l S1 (upd_same _ _ _) (by rw [put_same]; rw [hLe] at hL; simpa using hL)
        refine ⟨s', L', fun k hk => ?_, ?_⟩
        · obtain ⟨k, rfl⟩ : ∃ m, k = m + 1 := ⟨k - 1, by omega⟩
          conv_lhs => unfold destroyLoop
          rw [M.bind_ok (rdRoot_ok hel), hr]
          simp only [Option.isSome_some, if_true]
          rw [M.bind_ok (rd_ok hla)]
          have hf : freeAttribute (some a) s = .ok () { s with live := put s.live a false } := by simp [freeAttribute, hla]
          rw [M.bind_ok hf, M.bind_ok (setRoot_ok (by exact hel))]
          exact r k (by omega)
        · have : (A.upd e (some ([] ++ l))).upd e (some []) = A.upd e (some []) := by
            funext q
            by_cases h : q = e
            · subst h; rw [upd_same, upd_same]
            · rw [upd_ne _ _ h, upd_ne _ _ h, upd_ne _ _ h]
          rw [this] at S'; exact S'
  exact main _ s A L l S he rfl

/-- the destructor -/
theorem _root_.Verif.Spec.AShows.deleteElement {s : Attrs} {A : Elems} {L : Nat → List Nat} (S : AShows s A L) {e : Nat} {l : List Att} (he : A e = some l) :
    ∃ s' L', (∀ k, (L e).length < k → Xml.Attr.deleteElement k e s = .ok () s') ∧ AShows s' (A.upd e none) L' := by
  obtain ⟨s1, L1, r, S1⟩ := S.destroy he
  have hC := S1.content e [] (upd_same _ _ _)
  have hL1 : L1 e = [] := List.forall₂_nil_right_iff.mp hC
  refine ⟨{ s1 with elem := put s1.elem e false }, L1, fun k hk => ?_, ?_⟩
  · unfold Xml.Attr.deleteElement
    rw [M.bind_ok (r k hk)]; rfl
  · have hne : ∀ q, q ≠ e → A.upd e none q = A.upd e (some []) q := fun q h => by rw [upd_ne _ _ h, upd_ne _ _ h]
    constructor
    · intro q
      show put s1.elem e false q = _
      by_cases h : q = e
      · subst h; rw [put_same, upd_same]; rfl
      · rw [put_ne _ _ h, S1.elem, hne q h]
    · intro q hq
      by_cases h : q = e
      · subst h; exact hL1
      · exact S1.gone q (by rw [← hne q h]; exact hq)
    · intro q hq
      have h : q ≠ e := by rintro rfl; change put s1.elem q false q = true at hq; rw [put_same] at hq; cases hq
      have hq' : s1.elem q = true := by rw [← put_ne s1.elem false h]; exact hq
      exact linked_iff.mpr ((linked_iff.mp (S1.linked q hq')).frame fun _ _ => ⟨rfl, rfl⟩)
    · intro q m hq
      have h : q ≠ e := by rintro rfl; rw [upd_same] at hq; cases hq
      exact content_frame (S1.content q m (by rw [← hne q h]; exact hq)) fun _ _ => ⟨rfl, rfl, rfl, rfl⟩
    · intro q m hq
      have h : q ≠ e := by rintro rfl; rw [upd_same] at hq; cases hq
      exact S1.names q m (by rw [← hne q h]; exact hq)
    · exact S1.nodup
    · exact S1.apart
    · exact S1.used
    · exact S1.few

/-- the constructor -/
theorem _root_.Verif.Spec.AShows.newElement {s : Attrs} {A : Elems} {L : Nat → List Nat} (S : AShows s A L) {e : Nat} (he : A e = none) :
    ∃ s', Xml.Attr.newElement e s = .ok () s' ∧ AShows s' (A.upd e (some [])) (put L e []) := by
  refine ⟨_, rfl, S.update ?_ ?_ ?_ ?_ .nil (by simp) (by simp) (by simp) ?_ S.few⟩
  · intro q
    show put s.elem e true q = _
    by_cases h : q = e
    · subst h; rw [put_same]; simp
    · rw [put_ne _ _ h]; simp [h]
  · intro q hq _; exact put_ne _ _ hq
  · intro q _ a _; exact ⟨rfl, rfl, rfl, rfl, rfl⟩
  · rw [linked_iff]; exact put_same _ _ _
  · intro a ha
    rcases S.used' e ha with h | h
    · rw [S.gone e he] at h; cases h
    · exact .inr h

end Verif.Attr
