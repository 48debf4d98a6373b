import Verif.Spec.Visit
import Verif.Proof.XDom6
/-!
# Helper lemmas: a visitor's tour
-/
namespace Verif
open Spec Xml.Dom

theorem look_ok {α : Type} {s : Dom} {h : List Call} {c : Nat} (hc : s.live c = true) (field : Dom → Nat → α) :
    look field (some c) ⟨s, h⟩ = .ok (field s c) ⟨s, h⟩ := by
  show (match rd field (some c) s with | .ok a s' => _ | .err e s' => _ | .ub u => _) = _
  rw [rd_ok hc]

section
variable {K : Nat → List Nat} {inner : Nat → Bool} {ans : Visitor}

mutual
theorem Spec.Visits.unique {h l l' : List Call} {c : Nat} {b b' : Bool} (v : Visits K inner ans h c l b) (w : Visits K inner ans h c l' b') : l' = l ∧ b' = b := by
  match v with
  | .leaf i => cases w with
    | leaf _ => exact ⟨rfl, rfl⟩
    | skip i' _ => rw [i] at i'; cases i'
    | inside i' _ _ => rw [i] at i'; cases i'
  | .skip i a => cases w with
    | leaf i' => rw [i] at i'; cases i'
    | skip _ _ => exact ⟨rfl, rfl⟩
    | inside _ a' _ => rw [a] at a'; cases a'
  | .inside i a r => cases w with
    | leaf i' => rw [i] at i'; cases i'
    | skip _ a' => rw [a] at a'; cases a'
    | inside _ _ r' => cases Spec.Row.unique r r'; exact ⟨rfl, rfl⟩

theorem Spec.Row.unique {h l l' : List Call} {cs : List Nat} (v : Row K inner ans h cs l) (w : Row K inner ans h cs l') : l' = l := by
  match v with
  | .nil => cases w; rfl
  | .stop v => cases w with
    | stop v' => exact (v.unique v').1
    | cons v' _ => cases (v.unique v').2
  | .cons v r => cases w with
    | stop v' => cases (v.unique v').2
    | cons v' r' => cases (v.unique v').1; rw [r.unique r']
end

mutual
theorem Spec.Visits.paired {h l : List Call} {c : Nat} {b : Bool} (v : Visits K inner ans h c l b) : ∀ m, Paired m → Paired (l ++ m) := by
  match v with
  | .leaf i => exact fun m hm => .visit _ hm
  | .skip i a => exact fun m hm => .pair _ .nil hm
  | .inside (l := l) i a r =>
    intro m hm
    have := Paired.pair c (by simpa using Spec.Row.paired r [] .nil) hm
    simpa using this

theorem Spec.Row.paired {h l : List Call} {cs : List Nat} (v : Row K inner ans h cs l) : ∀ m, Paired m → Paired (l ++ m) := by
  match v with
  | .nil => exact fun m hm => hm
  | .stop v => exact v.paired
  | .cons v r => intro m hm; rw [List.append_assoc]; exact v.paired _ (r.paired _ hm)
end

mutual
theorem Spec.Visits.seen {h l : List Call} {c : Nat} {b : Bool} (v : Visits K inner ans h c l b) : ∀ x ∈ l, Toured K inner (nodeOf x) c := by
  match v with
  | .leaf i => intro x hx; cases List.mem_singleton.1 hx; exact .refl
  | .skip i a => intro x hx; simp at hx; rcases hx with rfl | rfl <;> exact .refl
  | .inside (l := l) i a r =>
    intro x hx
    simp at hx
    rcases hx with rfl | hx | rfl
    · exact .refl
    · obtain ⟨d, hd, hs⟩ := Spec.Row.seen r x hx
      exact .tail hs ⟨hd, i⟩
    · exact .refl

theorem Spec.Row.seen {h l : List Call} {cs : List Nat} (v : Row K inner ans h cs l) : ∀ x ∈ l, ∃ d ∈ cs, Toured K inner (nodeOf x) d := by
  match v with
  | .nil => intro x hx; cases hx
  | .stop v => exact fun x hx => ⟨_, List.mem_cons_self, v.seen x hx⟩
  | .cons v r =>
    intro x hx
    rcases List.mem_append.1 hx with hx | hx
    · exact ⟨_, List.mem_cons_self, v.seen x hx⟩
    · obtain ⟨d, hd, hs⟩ := r.seen x hx
      exact ⟨d, List.mem_cons_of_mem _ hd, hs⟩
end

mutual
theorem Spec.Visits.shape {h l : List Call} {c : Nat} {b : Bool} (v : Visits K inner ans h c l b) :
    ∀ x ∈ l, x = opening inner (nodeOf x) ∨ x = closing inner (nodeOf x) := by
  match v with
  | .leaf i => intro x hx; cases List.mem_singleton.1 hx; left; simp [opening, nodeOf, i]
  | .skip i a => intro x hx; simp at hx; rcases hx with rfl | rfl <;> simp [opening, closing, nodeOf, i]
  | .inside (l := l) i a r =>
    intro x hx
    simp at hx
    rcases hx with rfl | hx | rfl
    · simp [opening, nodeOf, i]
    · exact Spec.Row.shape r x hx
    · simp [closing, nodeOf, i]

theorem Spec.Row.shape {h l : List Call} {cs : List Nat} (v : Row K inner ans h cs l) :
    ∀ x ∈ l, x = opening inner (nodeOf x) ∨ x = closing inner (nodeOf x) := by
  match v with
  | .nil => intro x hx; cases hx
  | .stop v => exact v.shape
  | .cons v r => exact fun x hx => (List.mem_append.1 hx).elim (v.shape x) (r.shape x)
end

/-- the first and the last call, and the answer to the latter -/
theorem Spec.Visits.ends {h l : List Call} {c : Nat} {b : Bool} (v : Visits K inner ans h c l b) :
    l.head? = some (opening inner c) ∧ ∃ l0, l = l0 ++ [closing inner c] ∧ b = ans (h ++ l0) (closing inner c) := by
  cases v with
  | leaf i => exact ⟨by simp [opening, i], [], by simp [closing, i], by simp [closing, i]⟩
  | skip i a => exact ⟨by simp [opening, i], [.enter c], by simp [closing, i], by simp [closing, i]⟩
  | @inside _ l _ i a r => exact ⟨by simp [opening, i], .enter c :: l, by rw [closing, if_pos i]; rfl, by rw [closing, if_pos i]⟩

theorem Spec.Following.append {h l m : List Call} (A : Following K inner ans h l) (B : Following K inner ans (h ++ l) m)
    (J : ∀ l0 x y m0, l = l0 ++ [x] → m = y :: m0 → Follow K inner x (ans (h ++ l0) x) y) : Following K inner ans h (l ++ m) := by
  intro l1 x y l2 e
  rcases List.append_eq_append_iff.1 e with ⟨u, e1, e2⟩ | ⟨u, e1, e2⟩
  · -- the split is in `m`
    subst e1
    have := B u x y l2 e2
    rwa [List.append_assoc] at this
  · cases u with
    | nil => simp at e1 e2; subst e1; exact (by have := B [] x y l2 (by simpa using e2.symm); simpa using this)
    | cons z u =>
      simp at e2
      obtain ⟨rfl, e2⟩ := e2
      cases u with
      | nil => simp at e2; exact J l1 x y l2 e1 e2.symm
      | cons z u =>
        simp at e2
        obtain ⟨rfl, e2⟩ := e2
        exact A l1 x y u e1

theorem Spec.Following.one (h : List Call) (x : Call) : Following K inner ans h [x] := by
  intro l1 z y l2 e
  have := congrArg List.length e
  simp at this
  omega

mutual
theorem Spec.Visits.following {h l : List Call} {c : Nat} {b : Bool} (v : Visits K inner ans h c l b) : Following K inner ans h l := by
  match v with
  | .leaf i => exact .one h _
  | .skip i a =>
    refine Spec.Following.append (l := [.enter c]) (m := [.exit c]) (.one _ _) (.one _ _) ?_
    intro l0 x y m0 e1 e2
    obtain ⟨rfl, rfl⟩ : l0 = [] ∧ x = .enter c := by cases l0 <;> simp_all
    cases e2
    simp only [List.append_nil, a]
    exact .skip
  | .inside (l := l) i a r =>
    obtain ⟨R1, R2, R3⟩ := Spec.Row.following r c [] rfl
    refine Spec.Following.append (l := [.enter c]) (m := l ++ [.exit c]) (.one _ _) ?_ ?_
    · refine Spec.Following.append R1 (.one _ _) ?_
      intro l0 x y m0 e1 e2
      cases e2
      exact R3 l0 x e1
    · intro l0 x y m0 e1 e2
      obtain ⟨rfl, rfl⟩ : l0 = [] ∧ x = .enter c := by cases l0 <;> simp_all
      simp only [List.append_nil, a]
      cases hk : K c with
      | nil =>
        rw [hk] at R2
        cases l with
        | nil => cases e2; exact .empty hk
        | cons z l => cases R2
      | cons d cs =>
        rw [hk] at R2
        cases l with
        | nil => cases R2
        | cons z l => cases R2; cases e2; exact .down hk

theorem Spec.Row.following {h l : List Call} {cs : List Nat} (v : Row K inner ans h cs l) : ∀ p pre, K p = pre ++ cs →
    Following K inner ans h l ∧ l.head? = cs.head?.map (opening inner) ∧ ∀ l0 x, l = l0 ++ [x] → Follow K inner x (ans (h ++ l0) x) (.exit p) := by
  match v with
  | .nil => exact fun p pre e => ⟨fun l1 x y l2 e => by simp at e, rfl, fun l0 x e => by simp at e⟩
  | .stop v =>
    intro p pre e
    obtain ⟨E1, l0, E2, E3⟩ := v.ends
    refine ⟨v.following, E1, fun l1 x e1 => ?_⟩
    rw [E2] at e1
    obtain ⟨rfl, e3⟩ := List.append_inj' e1 rfl
    cases e3
    rw [← E3]
    exact .stop (by rw [e]; simp)
  | .cons (l := l) (m := m) (c := c) (cs := cs) v r =>
    intro p pre e
    obtain ⟨E1, l0, E2, E3⟩ := v.ends
    obtain ⟨R1, R2, R3⟩ := r.following p (pre ++ [c]) (by rw [e]; simp)
    refine ⟨Spec.Following.append v.following R1 ?_, ?_, ?_⟩
    · intro l1 x y m0 e1 e2
      rw [E2] at e1
      obtain ⟨rfl, e3⟩ := List.append_inj' e1 rfl
      cases e3
      rw [← E3]
      rw [e2] at R2
      cases cs with
      | nil => cases R2
      | cons d cs => cases R2; exact .next e
    · rw [List.head?_append, E1]; rfl
    · intro l1 x e1
      cases cs with
      | nil =>
        cases r
        rw [List.append_nil, E2] at e1
        obtain ⟨rfl, e3⟩ := List.append_inj' e1 rfl
        cases e3
        rw [← E3]
        exact .up e
      | cons d cs =>
        rcases List.eq_nil_or_concat m with rfl | ⟨m0, z, rfl⟩
        · cases R2
        · rw [List.concat_eq_append] at *
          rw [← List.append_assoc] at e1
          obtain ⟨rfl, e3⟩ := List.append_inj' e1 rfl
          cases e3
          rw [← List.append_assoc]
          exact R3 m0 _ rfl
end

/-- a visitor that always answers `true` sees everything -/
theorem Spec.Visits.all {c : Nat} (W : WellFounded (fun c p => c ∈ K p)) (T : ∀ h x, ans h x = true) :
    ∀ {h l : List Call} {b : Bool}, Visits K inner ans h c l b → b = true ∧ ∀ d, Toured K inner d c → opening inner d ∈ l ∧ closing inner d ∈ l := by
  induction c using W.induction with
  | _ c ih =>
    have row : ∀ (cs : List Nat), (∀ d ∈ cs, d ∈ K c) → ∀ {h l : List Call}, Row K inner ans h cs l →
        ∀ e ∈ cs, ∀ d, Toured K inner d e → opening inner d ∈ l ∧ closing inner d ∈ l := by
      intro cs
      induction cs with
      | nil => intro _ h l _ e he; cases he
      | cons x cs ihc =>
        intro hcs h l r e he d hd
        cases r with
        | stop v => exact absurd (ih x (hcs x List.mem_cons_self) v).1 (by simp)
        | cons v r =>
          rcases List.mem_cons.1 he with rfl | he
          · have := (ih e (hcs e List.mem_cons_self) v).2 d hd
            exact ⟨List.mem_append_left _ this.1, List.mem_append_left _ this.2⟩
          · have := ihc (fun d hd => hcs d (List.mem_cons_of_mem _ hd)) r e he d hd
            exact ⟨List.mem_append_right _ this.1, List.mem_append_right _ this.2⟩
    intro h l b v
    have own : opening inner c ∈ l ∧ closing inner c ∈ l := by
      obtain ⟨E1, l0, E2, -⟩ := v.ends
      exact ⟨List.mem_of_mem_head? E1, by rw [E2]; simp⟩
    obtain ⟨-, l0, -, E3⟩ := v.ends
    refine ⟨by rw [E3]; exact T _ _, fun d hd => ?_⟩
    rcases Relation.ReflTransGen.cases_tail hd with rfl | ⟨e, he, hec, hi⟩
    · exact own
    · cases v with
      | leaf i => rw [i] at hi; cases hi
      | skip i a => rw [T] at a; cases a
      | inside i a r =>
        have := row (K c) (fun _ h => h) r e hec d he
        exact ⟨by simp [this.1], by simp [this.2]⟩

end

/-! ## the calls of the program -/

theorem accept_run {s : Dom} {F : Forest} (I : Is s F) (inner : Nat → Bool) (ans : Visitor) (c : Nat) : s.live c = true → ∀ h : List Call,
    ∃ n l b, Visits F.K inner ans h c l b ∧ ∀ k, n ≤ k → Accept inner ans k c ⟨s, h⟩ = .ok b ⟨s, h ++ l⟩ := by
  induction c using I.wf.induction with
  | _ c ih =>
    have row : ∀ (cs pre : List Nat), F.K c = pre ++ cs → ∀ h : List Call,
        ∃ n l, Row F.K inner ans h cs l ∧ ∀ k, n ≤ k → acceptRow inner ans k cs.head? ⟨s, h⟩ = .ok () ⟨s, h ++ l⟩ := by
      intro cs
      induction cs with
      | nil =>
        intro pre e h
        refine ⟨1, [], .nil, fun k hk => ?_⟩
        obtain ⟨k, rfl⟩ : ∃ j, k = j + 1 := ⟨k - 1, by omega⟩
        simp only [List.head?_nil, acceptRow, List.append_nil]; rfl
      | cons x cs ihc =>
        intro pre e h
        obtain ⟨hx, hn, -⟩ := I.shows.out.next_mid e
        obtain ⟨n1, l1, b, v, r⟩ := ih x (by show x ∈ F.K c; rw [e]; simp) hx h
        cases b with
        | false =>
          refine ⟨n1 + 1, l1, .stop v, fun k hk => ?_⟩
          obtain ⟨k, rfl⟩ : ∃ j, k = j + 1 := ⟨k - 1, by omega⟩
          simp only [List.head?_cons, acceptRow]
          rw [M.bind_ok (r k (by omega))]; rfl
        | true =>
          obtain ⟨n2, l2, w, q⟩ := ihc (pre ++ [x]) (by rw [e]; simp) (h ++ l1)
          refine ⟨max n1 n2 + 1, l1 ++ l2, .cons v w, fun k hk => ?_⟩
          obtain ⟨k, rfl⟩ : ∃ j, k = j + 1 := ⟨k - 1, by omega⟩
          simp only [List.head?_cons, acceptRow]
          rw [M.bind_ok (r k (by omega)), if_pos rfl, M.bind_ok (look_ok hx _), hn, q k (by omega), List.append_assoc]
    intro hc h
    cases i : inner c with
    | false =>
      refine ⟨1, _, _, .leaf i, fun k hk => ?_⟩
      obtain ⟨k, rfl⟩ : ∃ j, k = j + 1 := ⟨k - 1, by omega⟩
      simp only [Accept]
      rw [M.bind_ok (look_ok hc _), if_neg (by simp [i])]; rfl
    | true =>
      cases a : ans h (.enter c) with
      | false =>
        refine ⟨1, _, _, .skip i a, fun k hk => ?_⟩
        obtain ⟨k, rfl⟩ : ∃ j, k = j + 1 := ⟨k - 1, by omega⟩
        simp only [Accept]
        rw [M.bind_ok (look_ok hc _), if_pos i, M.bind_ok (show tell ans (.enter c) ⟨s, h⟩ = .ok false ⟨s, h ++ [.enter c]⟩ by unfold tell; rw [a])]
        rw [if_neg (by simp)]
        simp [tell]
      | true =>
        obtain ⟨n, l, w, q⟩ := row (F.K c) [] rfl (h ++ [.enter c])
        refine ⟨n + 1, _, _, .inside i a w, fun k hk => ?_⟩
        obtain ⟨k, rfl⟩ : ∃ j, k = j + 1 := ⟨k - 1, by omega⟩
        simp only [Accept]
        rw [M.bind_ok (look_ok hc _), if_pos i, M.bind_ok (show tell ans (.enter c) ⟨s, h⟩ = .ok true ⟨s, h ++ [.enter c]⟩ by unfold tell; rw [a])]
        rw [if_pos rfl]
        rw [M.bind_ok (look_ok hc _), (I.shows.ends c hc).1, M.bind_ok (q k (by omega))]
        simp [tell]

/-! ## no call twice -/

theorem siblings_apart {s : Dom} {F : Forest} (I : Is s F) {p x d q : Nat} (hx : x ∈ F.K p) (hd : d ∈ F.K p) (hne : x ≠ d) (h1 : Below F.K q x) (h2 : Below F.K q d) :
    False := by
  have U : Relator.RightUnique (fun c p => c ∈ F.K p) := fun a b c hb hc => by
    have e1 := (I.shows.kid b a hb).2.1
    have e2 := (I.shows.kid c a hc).2.1
    rw [e1] at e2; injection e2
  have key : ∀ x d : Nat, x ∈ F.K p → d ∈ F.K p → x ≠ d → Below F.K x d → False := by
    intro x d hx hd hne h
    rcases Relation.ReflTransGen.cases_head h with e | ⟨p', e, h⟩
    · exact hne e
    · rw [U e hx] at h
      exact I.acyclic d (Relation.TransGen.head' hd h)
  rcases Relation.ReflTransGen.total_of_right_unique U h1 h2 with h | h
  · exact key x d hx hd hne h
  · exact key d x hd hx (Ne.symm hne) h

theorem Spec.Toured.below {K : Nat → List Nat} {inner : Nat → Bool} {d c : Nat} (h : Toured K inner d c) : Below K d c := by
  induction h with
  | refl => exact .refl
  | tail _ h ih => exact .tail ih h.1

theorem visits_nodup {s : Dom} {F : Forest} (I : Is s F) {inner : Nat → Bool} {ans : Visitor} (c : Nat) :
    ∀ {h l : List Call} {b : Bool}, Visits F.K inner ans h c l b → l.Nodup := by
  induction c using I.wf.induction with
  | _ c ih =>
    have row : ∀ (cs pre : List Nat), F.K c = pre ++ cs → ∀ {h l : List Call}, Row F.K inner ans h cs l → l.Nodup := by
      intro cs
      induction cs with
      | nil => intro pre e h l r; cases r; exact List.nodup_nil
      | cons x cs ihc =>
        intro pre e h l r
        have hx : x ∈ F.K c := by rw [e]; simp
        cases r with
        | stop v => exact ih x hx v
        | cons v r =>
          refine List.nodup_append.2 ⟨ih x hx v, ihc (pre ++ [x]) (by rw [e]; simp) r, ?_⟩
          intro u hu w hw euw
          subst euw
          obtain ⟨d, hd, hs⟩ := r.seen u hw
          have hne : x ≠ d := by
            have := I.shows.nodup c
            rw [e] at this
            rintro rfl
            simp [List.nodup_append] at this
            exact this.2.1.1 hd
          exact siblings_apart I hx (by rw [e]; simp [hd]) hne (v.seen u hu).below hs.below
    intro h l b v
    cases v with
    | leaf i => simp
    | skip i a => simp
    | @inside _ l _ i a r =>
      have out : ∀ x ∈ l, nodeOf x ≠ c := by
        intro x hx e
        obtain ⟨d, hd, hs⟩ := r.seen x hx
        rw [e] at hs
        exact I.acyclic d (Relation.TransGen.head' hd hs.below)
      have n1 := row (F.K c) [] rfl r
      refine List.nodup_cons.2 ⟨?_, List.nodup_append.2 ⟨n1, by simp, ?_⟩⟩
      · intro hm
        rcases List.mem_append.1 hm with hm | hm
        · exact out _ hm rfl
        · simp at hm
      · intro u hu w hw e
        cases List.mem_singleton.1 hw
        subst e
        exact out _ hu rfl

end Verif
