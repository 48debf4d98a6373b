import Verif.Proof.Attr3
/-!
# Attributes of a loaded element; sequences of calls
-/
namespace Verif.Attr
open Spec Xml.Attr

theorem upd_upd (A : Elems) (e : Nat) (x y : Option (List Att)) : (A.upd e x).upd e y = A.upd e y := by
  funext q
  by_cases h : q = e
  · subst h; rw [upd_same, upd_same]
  · rw [upd_ne _ _ h, upd_ne _ _ h, upd_ne _ _ h]

/-- the attributes of a text behind those there are -/
theorem _root_.Verif.Spec.AShows.parse {pick : Pick} (hp : Picks pick) {e : Nat} (r : List (Str × Str)) {s : Attrs} {A : Elems} {L : Nat → List Nat} {l : List Att}
    (S : AShows s A L) (he : A e = some l) {K : Nat} (hK : (L e).length + r.length < K) :
    ∃ s' L', (∀ k, K ≤ k → ParseAttributes pick k e (L e).getLast? r s = .ok (taken l r).2 s') ∧ AShows s' (A.upd e (some (taken l r).1)) L' := by
  induction r generalizing s A L l with
  | nil =>
    refine ⟨s, L, fun _ _ => rfl, ?_⟩
    have : A.upd e (some (taken l []).1) = A := by
      funext q
      by_cases h : q = e
      · subst h; rw [upd_same, he]; rfl
      · rw [upd_ne _ _ h]
    rw [this]; exact S
  | cons nv r ih =>
    obtain ⟨n, v⟩ := nv
    have hel : s.elem e = true := by rw [S.elem, he]; rfl
    have hf := S.fresh hp
    generalize ha : pick s.live = a at hf
    have hne : ∀ b, s.live b = true → b ≠ a := by rintro b hb rfl; rw [hf] at hb; cases hb
    have hneL : ∀ q b, b ∈ L q → b ≠ a := fun q b hb => hne b (S.isLive hb)
    let s1 : Attrs := { s with live := put s.live a true, name := put s.name a [], value := put s.value a none, owned := put s.owned a false
                               next := put s.next a none }
    have hc : CreateAttribute pick s = .ok (some a) s1 := by unfold CreateAttribute; rw [ha]
    let s2 : Attrs := { s1 with name := put s1.name a n, value := put s1.value a (some v) }
    have hl2 : s2.live a = true := put_same _ _ _
    have hw : wr (some a) (fun a s => { s with name := put s.name a n, value := put s.value a (some v) }) s1 = .ok () s2 := wr_ok hl2
    have hlive : ∀ b, b ≠ a → s2.live b = s.live b := fun b hb => put_ne _ _ hb
    have hnext : ∀ b, b ≠ a → s2.next b = s.next b := fun b hb => put_ne _ _ hb
    have hold : ∀ b, b ≠ a → s2.name b = s.name b ∧ s2.value b = s.value b ∧ s2.owned b = s.owned b := fun b hb =>
      ⟨(put_ne _ _ hb).trans (put_ne _ _ hb), (put_ne _ _ hb).trans (put_ne _ _ hb), put_ne _ _ hb⟩
    have hname : s2.name a = n := put_same _ _ _
    have hp2 : Points s2 (.nameOf a) n := points_name.mpr ⟨hl2, hname⟩
    -- the list is still there
    have hlk : Linked s2 (s2.root e) (L e) := linked_iff.mpr ((linked_iff.mp (S.linked e hel)).frame fun b hb => ⟨hlive b (hneL e b hb), hnext b (hneL e b hb)⟩)
    have hct : List.Forall₂ (Rec s2) (L e) l := content_frame (S.content e l he) fun b hb =>
      let h := hold b (hneL e b hb); ⟨hlive b (hneL e b hb), h.1, h.2.1, h.2.2⟩
    rw [List.length_cons] at hK
    cases hx : lookup n l with
    | some x =>
      have ht : taken l ((n, v) :: r) = (l, false) := by
        unfold taken
        rw [hx]; rfl
      rw [ht]
      obtain ⟨l1, l2, e1, e2, e3⟩ := lookup_some hx
      have hct' := hct
      rw [e1] at hct'
      obtain ⟨as1, b, as2, e4, c1, c2, c3⟩ := content_split hct'
      let s3 : Attrs := { s2 with live := put s2.live a false }
      refine ⟨s3, put L e (L e), fun k hk => ?_, ?_⟩
      · unfold ParseAttributes
        rw [M.bind_ok hc, M.bind_ok hw]
        rw [e4] at hlk
        have hfind : Attribute k e (.nameOf a) none s2 = .ok (some (.valueOf b)) s2 := by
          unfold Attribute FindAttribute
          rw [bind_assoc, M.bind_ok (rdRoot_ok (by exact hel)), M.bind_ok (seek_some hp2 hlk c1 e3 c2 e2 (by rw [← e4]; omega)).2]; rfl
        show (Attribute k e (.nameOf a) none >>= _) s2 = _
        rw [M.bind_ok hfind]
        simp only [Option.isSome_some, if_true]
        have : freeAttribute (some a) s2 = .ok () s3 := by
          show (if s2.live a then _ else _) = _
          rw [if_pos hl2]
        rw [M.bind_ok this]; rfl
      · have hl3 : ∀ b, s3.live b = s.live b := fun b => by
          by_cases h : b = a
          · subst h; rw [hf]; exact put_same _ _ _
          · exact (put_ne _ _ h).trans (hlive b h)
        refine S.update ?_ (fun _ _ _ => rfl) ?_ ?_ ?_ (S.names e l he) (S.nodup e) (fun q hq b hb h => hq (S.apart q e b h hb)) (fun b hb => S.used' e (by rw [← hl3]; exact hb)) ?_
        · intro q
          by_cases h : q = e
          · subst h; show s.elem q = _; rw [hel]; rfl
          · show s.elem q = _; simp [h]
        · intro q _ b hb
          have h := hneL q b hb
          exact ⟨hl3 b, (hold b h).1, (hold b h).2.1, (hold b h).2.2, hnext b h⟩
        · exact linked_iff.mpr ((linked_iff.mp (S.linked e hel)).frame fun b hb => ⟨hl3 b, hnext b (hneL e b hb)⟩)
        · exact content_frame (S.content e l he) fun b hb => let h := hold b (hneL e b hb); ⟨hl3 b, h.1, h.2.1, h.2.2⟩
        · obtain ⟨N, hN⟩ := S.few
          exact ⟨N, fun b hb => by rw [hl3]; exact hN b hb⟩
    | none =>
      have ht : taken l ((n, v) :: r) = taken (l ++ [⟨n, v, false⟩]) r := by
        conv_lhs => unfold taken
        rw [hx]; rfl
      rw [ht]
      have hfind : ∀ k, (L e).length < k → Attribute k e (.nameOf a) none s2 = .ok none s2 := by
        intro k hk
        unfold Attribute FindAttribute
        rw [bind_assoc, M.bind_ok (rdRoot_ok (by exact hel)), M.bind_ok (seek_none hp2 hlk hct (lookup_none hx) hk).2]; rfl
      have next : ∀ (s3 : Attrs) (m : M Attrs Unit), m s2 = .ok () s3 → s3.live = s2.live → s3.elem = s2.elem → s3.name = s2.name → s3.value = s2.value →
          s3.owned = s2.owned → s3.next a = none →
          ((L e = [] ∧ s3.root = put s.root e (some a) ∧ ∀ b, b ≠ a → s3.next b = s.next b) ∨
            (∃ m, (L e).getLast? = some m ∧ s3.root = s.root ∧ s3.next m = some a ∧ ∀ b, b ≠ a → b ≠ m → s3.next b = s.next b)) →
          ∃ s' L', (∀ k, K ≤ k → (m >>= fun _ => ParseAttributes pick k e (some a) r) s2 = .ok (taken (l ++ [⟨n, v, false⟩]) r).2 s') ∧
            AShows s' (A.upd e (some (taken (l ++ [⟨n, v, false⟩]) r).1)) L' := by
        intro s3 m hm g1 g2 g3 g4 g5 g6 g7
        have S3 : AShows s3 (A.upd e (some (l ++ [⟨n, v, false⟩]))) (put L e (L e ++ [a])) := by
          refine S.append he hx hf g1 g2 ?_ ?_ g6 g7
          · intro b hb; rw [g3, g4, g5]; exact hold b hb
          · exact ⟨by rw [g1]; exact hl2, by rw [g3]; exact hname, by rw [g4]; exact put_same _ _ _, by rw [g5]; exact put_same _ _ _⟩
        obtain ⟨s', L', h1, h2⟩ := ih S3 (upd_same _ _ _) (by rw [put_same]; simp; omega)
        refine ⟨s', L', fun k hk => ?_, by rw [upd_upd] at h2; exact h2⟩
        rw [M.bind_ok hm]
        have := h1 k hk
        rw [put_same] at this
        simpa using this
      cases hL : (L e).getLast? with
      | none =>
        have hL' : L e = [] := List.getLast?_eq_none_iff.mp hL
        obtain ⟨s', L', h1, h2⟩ := next _ (setRoot e (some a)) (setRoot_ok (by exact hel)) rfl rfl rfl rfl rfl (put_same _ _ _)
          (.inl ⟨hL', rfl, hnext⟩)
        refine ⟨s', L', fun k hk => ?_, h2⟩
        unfold ParseAttributes
        rw [M.bind_ok hc, M.bind_ok hw]
        show (Attribute k e (.nameOf a) none >>= _) s2 = _
        rw [M.bind_ok (hfind k (by omega))]
        exact h1 k hk
      | some m =>
        have hm : m ∈ L e := List.mem_of_mem_getLast? hL
        have hma : m ≠ a := hneL e m hm
        obtain ⟨s', L', h1, h2⟩ := next _ (wr (some m) fun l s => { s with next := put s.next l (some a) })
          (wr_ok (by rw [hlive m hma]; exact S.isLive hm)) rfl rfl rfl rfl rfl ((put_ne _ _ (Ne.symm hma)).trans (put_same _ _ _))
          (.inr ⟨m, hL, rfl, put_same _ _ _, fun b hb hbm => (put_ne _ _ hbm).trans (hnext b hb)⟩)
        refine ⟨s', L', fun k hk => ?_, h2⟩
        unfold ParseAttributes
        rw [M.bind_ok hc, M.bind_ok hw]
        show (Attribute k e (.nameOf a) none >>= _) s2 = _
        rw [M.bind_ok (hfind k (by omega))]
        exact h1 k hk

/-- each call -/
theorem _root_.Verif.Spec.AShows.exec {pick : Pick} (hp : Picks pick) {s : Attrs} {A : Elems} {L : Nat → List Nat} (S : AShows s A L) (op : AOp) (h : op.may A) :
    ∃ N s' L', (∀ k, N ≤ k → op.exec pick k s = .ok () s') ∧ AShows s' (op.step A) L' := by
  cases op with
  | newElement e =>
    obtain ⟨s', r, S'⟩ := S.newElement h
    exact ⟨0, s', _, fun _ _ => r, S'⟩
  | parse e l =>
    have he : A e = some [] := h
    have hC := S.content e [] he
    have hL : L e = [] := List.forall₂_nil_right_iff.mp hC
    obtain ⟨s', L', r, S'⟩ := AShows.parse hp l S he (Nat.lt_succ_self _)
    rw [hL] at r
    refine ⟨(([] : List Nat).length + l.length).succ, s', L', fun k hk => ?_, S'⟩
    show (ParseAttributes pick k e none l >>= fun _ => pure ()) s = _
    have rk : ParseAttributes pick k e none l s = .ok (taken [] l).2 s' := r k hk
    rw [M.bind_ok rk]; rfl
  | set e n v =>
    obtain ⟨l, t, u, he, hn, hv, hself⟩ := h
    obtain ⟨N1, c1, r1, p1, _⟩ := S.ptr hn
    obtain ⟨N2, c2, r2, p2, q2⟩ := S.ptr hv
    obtain ⟨s', L', r, S'⟩ := S.setAttribute hp he p1 p2 (by
      intro a ha hna hc
      obtain ⟨e', m, rfl, ha', hm⟩ := q2 a hc
      obtain rfl := S.apart _ _ _ ha ha'
      cases ho : s.owned a with
      | false => rfl
      | true =>
        refine absurd ?_ hself
        subst hm
        subst hna
        rcases S.find he (points_text.mpr rfl : Points s (.text (s.name a)) (s.name a)) (Nat.lt_succ_self (L e).length) with
          ⟨h0, h1, _⟩ | ⟨x, l1, l2, as1, b, as2, h1, h2, h3, h4, h5, h6, h7, h8, _, _⟩
        · obtain ⟨x, hx⟩ := Option.isSome_iff_exists.mp (show (lookup (s.name a) l).isSome from by
            unfold Src.get at hv
            dsimp only at hv
            rw [he] at hv
            obtain ⟨y, hy, _⟩ := Option.map_eq_some_iff.mp hv
            change lookup (s.name a) l = some y at hy
            rw [hy]; rfl)
          rw [hx] at h0; cases h0
        · have : b = a := S.same he (by rw [h5]; simp) ha (h7.2.1.trans h2)
          subst this
          exact ⟨x, rfl, by rw [he]; exact h1, h7.2.2.2.symm.trans ho⟩)
    refine ⟨N1 + N2 + (L e).length + 1, s', L', fun k hk => ?_, ?_⟩
    · show (n.ptr k >>= fun n => v.ptr k >>= fun v => SetAttribute pick k e n v) s = _
      rw [M.bind_ok (r1 k (by omega)), M.bind_ok (r2 k (by omega))]
      exact r k (by omega)
    · show AShows s' (match A e, n.get A, v.get A with | some l, some t, some u => A.upd e (some (assign t u l)) | _, _, _ => A) L'
      rw [he, hn, hv]; exact S'
  | delete e n =>
    obtain ⟨l, t, he, hn⟩ := h
    obtain ⟨N1, c1, r1, p1, _⟩ := S.ptr hn
    obtain ⟨s', L', r, S'⟩ := S.deleteAttribute he p1
    refine ⟨N1 + (L e).length + 1, s', L', fun k hk => ?_, ?_⟩
    · show (n.ptr k >>= fun n => DeleteAttribute k e n) s = _
      rw [M.bind_ok (r1 k (by omega))]
      exact r k (by omega)
    · show AShows s' (match A e, n.get A with | some l, some t => A.upd e (some (without t l)) | _, _ => A) L'
      rw [he, hn]; exact S'
  | deleteElement e =>
    obtain ⟨l, he⟩ := h
    obtain ⟨s', L', r, S'⟩ := S.deleteElement he
    exact ⟨(L e).length + 1, s', L', fun k hk => r k (by omega), S'⟩

/-- the loop over all attributes -/
theorem walk_ok {s : Attrs} {p : P} {as : List Nat} {l : List Att} {n : Nat} (h : Linked s p as) (hl : List.Forall₂ (Rec s) as l) (hn : as.length < n) :
    walkAttributes n p s = .ok (l.map fun x => (x.name, x.value)) s := by
  induction hl generalizing p n with
  | nil =>
    obtain ⟨m, rfl⟩ : ∃ m, n = m + 1 := ⟨n - 1, by omega⟩
    cases p with
    | none => rfl
    | some a => exact h.elim
  | @cons a x as l h1 h2 ih =>
    rw [List.length_cons] at hn
    obtain ⟨m, rfl⟩ : ∃ m, n = m + 1 := ⟨n - 1, by omega⟩
    cases p with
    | none => exact h.elim
    | some b =>
      obtain ⟨rfl, h3, h4⟩ := h
      unfold walkAttributes
      rw [M.bind_ok (points_name.mpr ⟨h3, h1.2.1⟩ : Points s (.nameOf b) x.name), M.bind_ok (points_value.mpr ⟨h3, h1.2.2.1⟩ : Points s (.valueOf b) x.value), M.bind_ok (rd_ok h3), M.bind_ok (ih h4 (by omega))]
      rfl

theorem shows_nothing : AShows noAttrs noElems (fun _ => []) where
  elem _ := rfl
  gone _ _ := rfl
  linked _ h := by cases h
  content _ _ h := by cases h
  names _ _ h := by cases h
  nodup _ := List.nodup_nil
  apart _ _ _ h := by cases h
  used _ h := by cases h
  few := ⟨0, fun _ _ => rfl⟩

/-- each sequence of calls -/
theorem execAll_shows {pick : Pick} (hp : Picks pick) {ops : List AOp} {A A' : Elems} (h : ACalls A ops A') :
    ∀ {s : Attrs} {L : Nat → List Nat}, AShows s A L → ∃ N s' L', (∀ k, N ≤ k → aExecAll pick k ops s = .ok () s') ∧ AShows s' A' L' := by
  induction h with
  | nil => intro s L S; exact ⟨0, s, L, fun _ _ => rfl, S⟩
  | cons may _ ih =>
    intro s L S
    obtain ⟨N1, s1, L1, r1, S1⟩ := S.exec hp _ may
    obtain ⟨N2, s2, L2, r2, S2⟩ := ih S1
    refine ⟨N1 + N2, s2, L2, fun k hk => ?_, S2⟩
    unfold aExecAll
    rw [M.bind_ok (r1 k (by omega))]
    exact r2 k (by omega)

end Verif.Attr
