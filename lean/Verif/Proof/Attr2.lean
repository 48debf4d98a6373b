import Verif.Proof.Attr1
/-!
# Calls on lists of attributes
-/
namespace Verif.Attr
open Spec Xml.Attr

theorem upd_same (A : Elems) (e : Nat) (l : Option (List Att)) : A.upd e l e = l := if_pos rfl
theorem upd_ne (A : Elems) {e q : Nat} (l : Option (List Att)) (h : q ≠ e) : A.upd e l q = A q := if_neg h

/-- what an element keeps -/
def Keeps (s s' : Attrs) (as : List Nat) : Prop :=
  ∀ a ∈ as, s'.live a = s.live a ∧ s'.name a = s.name a ∧ s'.value a = s.value a ∧ s'.owned a = s.owned a ∧ s'.next a = s.next a

/-- a change of the attributes of one element -/
theorem _root_.Verif.Spec.AShows.update {s s' : Attrs} {A : Elems} {L : Nat → List Nat} (S : AShows s A L) {e : Nat} {as : List Nat} {l : List Att}
    (helem : ∀ q, s'.elem q = (s.elem q || (q == e)))
    (root : ∀ q, q ≠ e → s.elem q = true → s'.root q = s.root q) (same : ∀ q, q ≠ e → Keeps s s' (L q)) (link : Linked s' (s'.root e) as)
    (cont : List.Forall₂ (Rec s') as l) (names : (l.map Att.name).Nodup) (nodup : as.Nodup) (apart : ∀ q, q ≠ e → ∀ a ∈ as, a ∉ L q)
    (used : ∀ a, s'.live a = true → a ∈ as ∨ ∃ q, q ≠ e ∧ a ∈ L q) (few : ∃ N, ∀ a, N ≤ a → s'.live a = false) :
    AShows s' (A.upd e (some l)) (put L e as) where
  elem q := by
    rw [helem, S.elem]
    by_cases h : q = e
    · subst h; rw [upd_same]; simp
    · rw [upd_ne _ _ h]; simp [h]
  gone q hq := by
    by_cases h : q = e
    · subst h; rw [upd_same] at hq; cases hq
    · rw [upd_ne _ _ h] at hq; rw [put_ne _ _ h]; exact S.gone q hq
  linked q hq := by
    by_cases h : q = e
    · subst h; rw [put_same]; exact link
    · rw [put_ne _ _ h]
      have hq' : s.elem q = true := by rw [helem] at hq; simpa [h] using hq
      rw [root q h hq']
      exact linked_iff.mpr ((linked_iff.mp (S.linked q hq')).frame fun a ha => ⟨(same q h a ha).1, (same q h a ha).2.2.2.2⟩)
  content q m hq := by
    by_cases h : q = e
    · subst h; rw [put_same]; rw [upd_same] at hq; cases hq; exact cont
    · rw [put_ne _ _ h]; rw [upd_ne _ _ h] at hq
      exact content_frame (S.content q m hq) fun a ha => let r := same q h a ha; ⟨r.1, r.2.1, r.2.2.1, r.2.2.2.1⟩
  names q m hq := by
    by_cases h : q = e
    · subst h; rw [upd_same] at hq; cases hq; exact names
    · rw [upd_ne _ _ h] at hq; exact S.names q m hq
  nodup q := by
    by_cases h : q = e
    · subst h; rw [put_same]; exact nodup
    · rw [put_ne _ _ h]; exact S.nodup q
  apart q q' a h1 h2 := by
    by_cases h : q = e
    · subst h
      rw [put_same] at h1
      by_contra h'
      rw [put_ne _ _ (fun x => h' x.symm)] at h2
      exact apart q' (fun x => h' x.symm) a h1 h2
    · rw [put_ne _ _ h] at h1
      by_cases h' : q' = e
      · subst h'
        rw [put_same] at h2
        exact absurd h1 (apart q h a h2)
      · rw [put_ne _ _ h'] at h2
        exact S.apart q q' a h1 h2
  used a ha := by
    rcases used a ha with h | ⟨q, h1, h2⟩
    · exact ⟨e, by rw [put_same]; exact h⟩
    · exact ⟨q, by rw [put_ne _ _ h1]; exact h2⟩
  few := few

theorem _root_.Verif.Spec.AShows.used' {s : Attrs} {A : Elems} {L : Nat → List Nat} (S : AShows s A L) (e : Nat) {a : Nat} (h : s.live a = true) :
    a ∈ L e ∨ ∃ q, q ≠ e ∧ a ∈ L q := by
  obtain ⟨q, hq⟩ := S.used a h
  by_cases h : q = e
  · subst h; exact .inl hq
  · exact .inr ⟨q, h, hq⟩

theorem _root_.Verif.Spec.AShows.isLive {s : Attrs} {A : Elems} {L : Nat → List Nat} (S : AShows s A L) {e a : Nat} (h : a ∈ L e) : s.live a = true := by
  cases hA : A e with
  | none => rw [S.gone e hA] at h; cases h
  | some l => exact seg_live (linked_iff.mp (S.linked e (by rw [S.elem, hA]; rfl))) a h

theorem _root_.Verif.Spec.AShows.inElem {s : Attrs} {A : Elems} {L : Nat → List Nat} (S : AShows s A L) {e a : Nat} (h : a ∈ L e) : ∃ l, A e = some l := by
  cases hA : A e with
  | none => rw [S.gone e hA] at h; cases h
  | some l => exact ⟨l, rfl⟩

/-- what is found, with its place -/
theorem _root_.Verif.Spec.AShows.find {s : Attrs} {A : Elems} {L : Nat → List Nat} (S : AShows s A L) {e : Nat} {l : List Att} (he : A e = some l) {c : CStr} {t : Str}
    (hc : Points s c t) {k : Nat} (hk : (L e).length < k) :
    (lookup t l = none ∧ (∀ y ∈ l, y.name ≠ t) ∧ FindAttribute k e c s = .ok none s ∧ seek c k none (s.root e) s = .ok ((L e).getLast?, none) s) ∨
    (∃ x l1 l2 as1 a as2, lookup t l = some x ∧ x.name = t ∧ l = l1 ++ x :: l2 ∧ (∀ y ∈ l1, y.name ≠ t) ∧ L e = as1 ++ a :: as2 ∧
      List.Forall₂ (Rec s) as1 l1 ∧ Rec s a x ∧ List.Forall₂ (Rec s) as2 l2 ∧
      FindAttribute k e c s = .ok (some a) s ∧ seek c k none (s.root e) s = .ok (as1.getLast?, some a) s) := by
  have hel : s.elem e = true := by rw [S.elem, he]; rfl
  have hl := S.linked e hel
  have hC := S.content e l he
  unfold FindAttribute
  rw [M.bind_ok (rdRoot_ok hel)]
  cases hx : lookup t l with
  | none =>
    have hn := lookup_none hx
    obtain ⟨h1, h2⟩ := seek_none hc hl hC hn hk
    exact .inl ⟨rfl, hn, h2, h1⟩
  | some x =>
    obtain ⟨l1, l2, rfl, ht, hn⟩ := lookup_some hx
    obtain ⟨as1, a, as2, e1, c1, c2, c3⟩ := content_split hC
    rw [e1] at hl hk
    obtain ⟨h1, h2⟩ := seek_some hc hl c1 hn c2 ht hk
    exact .inr ⟨x, l1, l2, as1, a, as2, rfl, ht, rfl, hn, e1, c1, c2, c3, h2, h1⟩

theorem nodup_mid {c : Nat} {pre post : List Nat} (h : (pre ++ c :: post).Nodup) : c ∉ pre ∧ c ∉ post ∧ (pre ++ post).Nodup := by
  rw [List.nodup_append] at h
  obtain ⟨h1, h2, h3⟩ := h
  rw [List.nodup_cons] at h2
  refine ⟨fun m => h3 c m c List.mem_cons_self rfl, h2.1, ?_⟩
  rw [List.nodup_append]
  exact ⟨h1, h2.2, fun a ha b hb => h3 a ha b (List.mem_cons_of_mem _ hb)⟩

/-- the value of the attribute at `a` is set -/
theorem setValue_ok {s : Attrs} {a : Nat} {v : CStr} {u : Str} (ha : s.live a = true) (hv : Points s v u) (hself : v = .valueOf a → s.owned a = false) :
    SetValue (some a) v s = .ok () { s with value := put s.value a (some u), owned := put s.owned a true } := by
  unfold SetValue
  rw [M.bind_ok (rd_ok ha)]
  cases ho : s.owned a with
  | false =>
    simp only [Bool.false_eq_true, if_false]
    rw [M.bind_ok hv, wr_ok ha]
  | true =>
    simp only [if_true]
    rw [M.bind_ok (wr_ok ha)]
    have hv' : Points { s with value := put s.value a none } v u := by
      refine hv.frame fun b hb => ⟨fun _ => ⟨hb, rfl⟩, fun e => ⟨hb, ?_⟩⟩
      refine put_ne _ _ ?_
      rintro rfl
      rw [hself e] at ho; cases ho
    rw [M.bind_ok hv', wr_ok (by exact ha)]
    have : put (put s.value a none) a (some u) = put s.value a (some u) := by
      funext q; unfold put; split <;> rfl
    simp only [this]

/-- the value of an attribute that has been set is freed before it is read -/
theorem setValue_self {s : Attrs} {a : Nat} (ha : s.live a = true) (ho : s.owned a = true) : SetValue (some a) (.valueOf a) s = .ub .dangling := by
  unfold SetValue
  rw [M.bind_ok (rd_ok ha), ho]
  simp only [if_true]
  rw [M.bind_ok (wr_ok ha)]
  have : deref (.valueOf a) { s with value := put s.value a none } = .ub .dangling := by
    unfold deref
    dsimp only
    rw [M.bind_ok (rd_ok (by exact ha))]
    simp only [put_same]
    rfl
  rw [M.bind_run, this]

/-- an attribute behind the last of an element -/
theorem _root_.Verif.Spec.AShows.append {s s' : Attrs} {A : Elems} {L : Nat → List Nat} (S : AShows s A L) {e a : Nat} {l : List Att} {x : Att} (he : A e = some l)
    (hx : lookup x.name l = none) (ha : s.live a = false)
    (live : s'.live = put s.live a true) (elem : s'.elem = s.elem)
    (old : ∀ b, b ≠ a → s'.name b = s.name b ∧ s'.value b = s.value b ∧ s'.owned b = s.owned b)
    (new : Rec s' a x) (hn : s'.next a = none)
    (link : (L e = [] ∧ s'.root = put s.root e (some a) ∧ ∀ b, b ≠ a → s'.next b = s.next b) ∨
      (∃ m, (L e).getLast? = some m ∧ s'.root = s.root ∧ s'.next m = some a ∧ ∀ b, b ≠ a → b ≠ m → s'.next b = s.next b)) :
    AShows s' (A.upd e (some (l ++ [x]))) (put L e (L e ++ [a])) := by
  have hel : s.elem e = true := by rw [S.elem, he]; rfl
  have hfresh : ∀ q, a ∉ L q := fun q h => by rw [S.isLive h] at ha; cases ha
  have hne : ∀ q b, b ∈ L q → b ≠ a := fun q b hb h => hfresh q (h ▸ hb)
  have hlive : ∀ b, b ≠ a → s'.live b = s.live b := fun b hb => by rw [live, put_ne _ _ hb]
  have hla : s'.live a = true := by rw [live, put_same]
  refine S.update ?_ ?_ ?_ ?_ ?_ ?_ ?_ ?_ ?_ ?_
  · intro q; rw [elem]
    by_cases h : q = e
    · subst h; rw [hel]; rfl
    · simp [h]
  · intro q hq _
    rcases link with ⟨_, h, _⟩ | ⟨_, _, h, _⟩
    · rw [h, put_ne _ _ hq]
    · rw [h]
  · intro q hq b hb
    have h := hne q b hb
    refine ⟨hlive b h, (old b h).1, (old b h).2.1, (old b h).2.2, ?_⟩
    rcases link with ⟨_, _, h'⟩ | ⟨m, h1, _, _, h'⟩
    · exact h' b h
    · refine h' b h ?_
      rintro rfl
      exact hq (S.apart q e b hb (List.mem_of_mem_getLast? h1))
  · rw [linked_iff]
    have hs := linked_iff.mp (S.linked e hel)
    rcases link with ⟨h1, h2, _⟩ | ⟨m, h1, h2, h3, h4⟩
    · rw [h1, h2, put_same]
      exact ⟨rfl, hla, hn⟩
    · obtain ⟨as, has⟩ : ∃ as, L e = as ++ [m] := List.getLast?_eq_some_iff.mp h1
      rw [h2, seg_append]
      have hnd := S.nodup e
      rw [has] at hs hnd ⊢
      refine ⟨some a, hs.relink (fun b hb => hlive b (hne e b (has ▸ hb))) (fun b hb => h4 b (hne e b (by rw [has]; simp [hb])) ?_) h3, rfl, hla, hn⟩
      rintro rfl
      rw [List.nodup_append] at hnd
      exact hnd.2.2 b hb b (by simp) rfl
  · refine List.rel_append (content_frame (S.content e l he) fun b hb => ?_) (.cons new .nil)
    have h := hne e b hb
    exact ⟨hlive b h, (old b h).1, (old b h).2.1, (old b h).2.2⟩
  · rw [List.map_append, List.nodup_append]
    refine ⟨S.names e l he, by simp, ?_⟩
    intro m hm n hn' h
    obtain ⟨y, hy, rfl⟩ := List.mem_map.mp hm
    simp only [List.map_cons, List.map_nil, List.mem_singleton] at hn'
    exact lookup_none hx y hy (h.trans hn')
  · rw [List.nodup_append]
    refine ⟨S.nodup e, by simp, ?_⟩
    intro b hb c hc h
    rw [List.mem_singleton] at hc
    exact hne e b hb (h.trans hc)
  · intro q hq b hb h
    rcases List.mem_append.mp hb with hb | hb
    · exact hq (S.apart q e b h hb)
    · rw [List.mem_singleton] at hb; subst hb; exact hfresh q h
  · intro b hb
    by_cases h : b = a
    · left; simp [h]
    · rw [hlive b h] at hb
      rcases S.used' e hb with h | h
      · left; simp [h]
      · exact .inr h
  · obtain ⟨N, hN⟩ := S.few
    refine ⟨max N (a + 1), fun b hb => ?_⟩
    rw [hlive b (by omega)]
    exact hN b (by omega)

/-- the attribute at `a` is taken out -/
theorem _root_.Verif.Spec.AShows.remove {s s' : Attrs} {A : Elems} {L : Nat → List Nat} (S : AShows s A L) {e a : Nat} {l1 l2 : List Att} {x : Att} {as1 as2 : List Nat}
    (he : A e = some (l1 ++ x :: l2)) (hL : L e = as1 ++ a :: as2) (h1 : List.Forall₂ (Rec s) as1 l1) (h2 : List.Forall₂ (Rec s) as2 l2)
    (live : s'.live = put s.live a false) (elem : s'.elem = s.elem) (name : s'.name = s.name) (value : s'.value = s.value) (owned : s'.owned = s.owned)
    (link : (as1 = [] ∧ s'.root = put s.root e (s.next a) ∧ s'.next = s.next) ∨
      (∃ m, as1.getLast? = some m ∧ s'.root = s.root ∧ s'.next = put s.next m (s.next a))) :
    AShows s' (A.upd e (some (l1 ++ l2))) (put L e (as1 ++ as2)) := by
  have hel : s.elem e = true := by rw [S.elem, he]; rfl
  have hnd := S.nodup e
  rw [hL] at hnd
  obtain ⟨n1, n2, n3⟩ := nodup_mid hnd
  have hlive : ∀ b, b ≠ a → s'.live b = s.live b := fun b hb => by rw [live, put_ne _ _ hb]
  have hne : ∀ b ∈ as1 ++ as2, b ≠ a := by
    rintro b hb rfl
    rcases List.mem_append.mp hb with h | h
    · exact n1 h
    · exact n2 h
  have haL : a ∈ L e := by rw [hL]; simp
  refine S.update ?_ ?_ ?_ ?_ ?_ ?_ ?_ ?_ ?_ ?_
  · intro q; rw [elem]
    by_cases h : q = e
    · subst h; rw [hel]; rfl
    · simp [h]
  · intro q hq _
    rcases link with ⟨_, h, _⟩ | ⟨_, _, h, _⟩
    · rw [h, put_ne _ _ hq]
    · rw [h]
  · intro q hq b hb
    have h : b ≠ a := by rintro rfl; exact hq (S.apart q e b hb haL)
    refine ⟨hlive b h, by rw [name], by rw [value], by rw [owned], ?_⟩
    rcases link with ⟨_, _, h'⟩ | ⟨m, h1, _, h'⟩
    · rw [h']
    · rw [h', put_ne]
      rintro rfl
      exact hq (S.apart q e b hb (by rw [hL]; exact List.mem_append_left _ (List.mem_of_mem_getLast? h1)))
  · rw [linked_iff]
    have hs := linked_iff.mp (S.linked e hel)
    rw [hL] at hs
    obtain ⟨p, s1, s2⟩ := seg_append.mp hs
    obtain ⟨rfl, s3, s4⟩ := seg_head s2
    rw [seg_append]
    rcases link with ⟨rfl, g2, g3⟩ | ⟨m, g1, g2, g3⟩
    · rw [g2, put_same]
      refine ⟨_, rfl, s4.frame fun b hb => ⟨hlive b (hne b (by simp [hb])), by rw [g3]⟩⟩
    · obtain ⟨as, rfl⟩ := List.getLast?_eq_some_iff.mp g1
      rw [g2]
      refine ⟨_, s1.relink (fun b hb => hlive b (hne b (by rw [List.mem_append]; exact .inl hb))) (fun b hb => ?_) rfl, ?_⟩
      · rw [g3, put_ne]
        rintro rfl
        rw [List.nodup_append, List.nodup_append] at hnd
        exact hnd.1.2.2 b hb b (by simp) rfl
      · rw [g3, put_same]
        refine s4.frame fun b hb => ⟨hlive b (hne b (by simp [hb])), ?_⟩
        rw [g3, put_ne]
        rintro rfl
        rw [List.nodup_append] at n3
        exact n3.2.2 b (by simp) b hb rfl
  · have hk : ∀ as : List Nat, (∀ b ∈ as, b ≠ a) → ∀ b ∈ as, s'.live b = s.live b ∧ s'.name b = s.name b ∧ s'.value b = s.value b ∧ s'.owned b = s.owned b :=
      fun as h b hb => ⟨hlive b (h b hb), by rw [name], by rw [value], by rw [owned]⟩
    exact List.rel_append (content_frame h1 (hk as1 fun b hb => hne b (by simp [hb]))) (content_frame h2 (hk as2 fun b hb => hne b (by simp [hb])))
  · have := S.names e _ he
    rw [List.map_append, List.map_cons, List.nodup_append] at this
    obtain ⟨t1, t2, t3⟩ := this
    rw [List.nodup_cons] at t2
    rw [List.map_append, List.nodup_append]
    exact ⟨t1, t2.2, fun b hb c hc => t3 b hb c (List.mem_cons_of_mem _ hc)⟩
  · exact n3
  · intro q hq b hb h
    refine hq (S.apart q e b h ?_)
    rw [hL]
    rcases List.mem_append.mp hb with h | h <;> simp [h]
  · intro b hb
    have h : b ≠ a := by rintro rfl; rw [live, put_same] at hb; cases hb
    rw [hlive b h] at hb
    rcases S.used' e hb with h' | h'
    · left
      rw [hL] at h'
      simp only [List.mem_append, List.mem_cons] at h' ⊢
      rcases h' with h' | h' | h'
      · exact .inl h'
      · exact absurd h' h
      · exact .inr h'
    · exact .inr h'
  · obtain ⟨N, hN⟩ := S.few
    refine ⟨N, fun b hb => ?_⟩
    rw [live]
    unfold put
    split
    · rfl
    · exact hN b hb

end Verif.Attr
