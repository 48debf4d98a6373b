import Verif.Proof.XDom1
/-!
# Insertion of children
-/
set_option linter.unusedSimpArgs false
namespace Verif
open Spec Xml.Dom

/-- what linking `a` between `pre` and `post` leaves -/
def linkedAt (p a : Nat) (pre post : List Nat) (s : Dom) : Dom :=
  { s with
    parent := put s.parent a (some p)
    prev := put (match post.head? with | some y => put s.prev y (some a) | none => s.prev) a pre.getLast?
    next := put (match pre.getLast? with | some x => put s.next x (some a) | none => s.next) a post.head?
    first := if pre = [] then put s.first p (some a) else s.first
    last := if post = [] then put s.last p (some a) else s.last }

theorem Outs.link {s : Dom} {K : Nat → List Nat} {A : List Nat} {p a : Nat} (S : Outs s K (a :: A)) (hA : a ∉ A) (hp : s.live p = true)
    (hd : s.doc a = s.doc p) {pre post : List Nat} (e : K p = pre ++ post) :
    Outs (linkedAt p a pre post s) (fun q => if q = p then pre ++ a :: post else K q) A := by
  obtain ⟨a1, a2, a3⟩ := S.out a List.mem_cons_self
  have notin : ∀ q, a ∉ K q := by
    intro q m
    have := (S.kid q a m).2.1
    rw [a2] at this; cases this
  have n0 : (pre ++ post).Nodup := e ▸ S.nodup p
  have na : a ∉ pre ++ post := e ▸ notin p
  have hnd : (pre ++ a :: post).Nodup := by
    rw [List.nodup_append] at n0 ⊢
    simp only [List.mem_append, not_or] at na
    refine ⟨n0.1, List.nodup_cons.mpr ⟨na.2, n0.2.1⟩, ?_⟩
    intro x hx y hy
    rcases List.mem_cons.mp hy with h | h
    · subst h; exact fun e => na.1 (e ▸ hx)
    · exact n0.2.2 x hx y h
  obtain ⟨n1, n2, n3⟩ := nodup_mid hnd
  have lp : ∀ x, pre.getLast? = some x → x ∈ K p := fun x hx => by rw [e]; exact List.mem_append_left _ (List.mem_of_getLast? hx)
  have lq : ∀ x, post.head? = some x → x ∈ K p := fun x hx => by rw [e]; exact List.mem_append_right _ (List.mem_of_head? hx)
  have nx : ∀ c, c ≠ a → (linkedAt p a pre post s).next c = if pre.getLast? = some c then some a else s.next c := by
    intro c hc
    simp only [linkedAt]
    rw [dput_ne _ _ hc]
    cases pre.getLast? with
    | none => simp
    | some x => by_cases e : c = x <;> simp [put, e, eq_comm]
  have pv : ∀ c, c ≠ a → (linkedAt p a pre post s).prev c = if post.head? = some c then some a else s.prev c := by
    intro c hc
    simp only [linkedAt]
    rw [dput_ne _ _ hc]
    cases post.head? with
    | none => simp
    | some x => by_cases e : c = x <;> simp [put, e, eq_comm]
  have pa : ∀ c, (linkedAt p a pre post s).parent c = if c = a then some p else s.parent c := by
    intro c; simp only [linkedAt, put]
  refine ⟨?_, ?_, ?_, ?_, ?_, ?_, S.own, ?_, ?_⟩
  · intro q
    try dsimp only
    split
    · exact hnd
    · exact S.nodup q
  · intro q hq
    have hq : s.live q = false := hq
    try dsimp only
    rw [if_neg (fun e => by rw [e, hp] at hq; cases hq)]
    exact S.gone q hq
  · intro q hq
    obtain ⟨e1, e2⟩ := S.ends q hq
    try dsimp only
    by_cases hqp : q = p
    · subst hqp
      rw [if_pos rfl]
      rw [e] at e1 e2
      simp only [linkedAt]
      constructor
      · cases pre with
        | nil => simp
        | cons x r => simp [e1]
      · cases post with
        | nil => simp
        | cons x r => simp [e2, List.getLast?_append, List.getLast?_cons]
    · rw [if_neg hqp]
      simp only [linkedAt]
      constructor
      · rw [← e1]; split
        · exact dput_ne _ _ hqp
        · rfl
      · rw [← e2]; split
        · exact dput_ne _ _ hqp
        · rfl
  · intro q c hc
    try dsimp only at hc ⊢
    by_cases ca : c = a
    · subst ca
      by_cases hqp : q = p
      · subst hqp
        rw [if_pos rfl, before_mid n1 n2, behind_mid n1]
        refine ⟨a1, ?_, ?_, ?_, hd, a3⟩
        · rw [pa, if_pos rfl]
        · simp [linkedAt]
        · simp [linkedAt]
      · rw [if_neg hqp] at hc
        exact absurd hc (notin q)
    · by_cases hqp : q = p
      · subst hqp
        rw [if_pos rfl] at hc ⊢
        have hc' : c ∈ pre ++ post := by
          rcases List.mem_append.mp hc with m | m
          · exact List.mem_append_left _ m
          · rcases List.mem_cons.mp m with m | m
            · exact absurd m ca
            · exact List.mem_append_right _ m
        obtain ⟨j1, j2, j3, j4, j5, j6⟩ := S.kid q c (e ▸ hc')
        refine ⟨j1, ?_, ?_, ?_, j5, j6⟩
        · rw [pa, if_neg ca, j2]
        · rw [pv c ca, (before_del hnd hc').2, j3, e]
        · rw [nx c ca, (behind_del hnd hc').2, j4, e]
      · rw [if_neg hqp] at hc ⊢
        obtain ⟨j1, j2, j3, j4, j5, j6⟩ := S.kid q c hc
        have nip : c ∉ K p := by
          intro m
          have := (S.kid p c m).2.1
          rw [j2] at this
          exact hqp (Option.some.inj this)
        refine ⟨j1, ?_, ?_, ?_, j5, j6⟩
        · rw [pa, if_neg ca, j2]
        · rw [pv c ca, if_neg (fun h => nip (lq c h)), j3]
        · rw [nx c ca, if_neg (fun h => nip (lp c h)), j4]
  · intro c hc hpar
    rw [pa] at hpar
    by_cases ca : c = a
    · rw [if_pos ca] at hpar; cases hpar
    · rw [if_neg ca] at hpar
      have nip : c ∉ K p := by
        intro m
        have := (S.kid p c m).2.1
        rw [hpar] at this; cases this
      rw [nx c ca, pv c ca, if_neg (fun h => nip (lq c h)), if_neg (fun h => nip (lp c h))]
      exact S.top c hc hpar
  · intro c q hc hpar
    try dsimp only
    rw [pa] at hpar
    by_cases ca : c = a
    · rw [if_pos ca] at hpar
      cases hpar
      rw [if_pos rfl, ca]; simp
    · rw [if_neg ca] at hpar
      have := S.child c q hc hpar
      split
      · rename_i h
        subst h
        rw [e] at this
        rcases List.mem_append.mp this with m | m
        · exact List.mem_append_left _ m
        · exact List.mem_append_right _ (List.mem_cons_of_mem _ m)
      · exact this
  · intro d h1 h2
    refine ⟨(S.loose d h1 h2).1, fun u => ?_⟩
    have := (S.loose d h1 h2).2 u
    rw [pa]
    show u ∈ s.unlinked d ↔ s.live u = true ∧ u ≠ d ∧ s.doc u = d ∧ _ ∧ _
    rw [this]
    by_cases ua : u = a
    · simp [ua]
    · simp [ua]
  · intro b hb
    obtain ⟨b1, b2, b3⟩ := S.out b (List.mem_cons_of_mem _ hb)
    refine ⟨b1, ?_, b3⟩
    rw [pa, if_neg (fun e' : b = a => hA (e' ▸ hb)), b2]

/-- the node to be inserted is taken from where it is -/
theorem Outs.preamble {s : Dom} {K : Nat → List Nat} (S : Outs s K []) {a : Nat} (ha : s.live a = true) (hd : s.doc a ≠ a) :
    ∃ s', InsertChildPreamble a s = .ok () s' ∧ Outs s' (fun q => (K q).erase a) [a] ∧ s'.live = s.live ∧ s'.doc = s.doc := by
  unfold InsertChildPreamble
  rw [M.bind_ok (rd_ok ha)]
  cases hp : s.parent a with
  | some q =>
    obtain ⟨u1, u2⟩ := S.unlink (S.child a q ha hp)
    refine ⟨_, ?_, u2, rfl, rfl⟩
    rw [if_pos (by rfl)]; exact u1
  | none =>
    obtain ⟨u1, u2⟩ := S.mark ha hp hd List.not_mem_nil
    have hK : (fun q => (K q).erase a) = K := by
      funext q
      apply List.erase_of_not_mem
      intro m
      have := (S.kid q a m).2.1
      rw [hp] at this; cases this
    refine ⟨marked (s.doc a) a s, ?_, by rw [hK]; exact u2, rfl, rfl⟩
    rw [if_neg (by simp), M.bind_ok (rd_ok ha), M.bind_ok u1, if_neg hd]; rfl

/-- a document cannot be inserted: its pool is null -/
theorem Outs.preamble_doc {s : Dom} {K : Nat → List Nat} (S : Outs s K []) {a : Nat} (ha : s.live a = true) (hd : s.doc a = a) :
    InsertChildPreamble a s = .ub .null := by
  unfold InsertChildPreamble
  rw [M.bind_ok (rd_ok ha)]
  cases hp : s.parent a with
  | some q => exact absurd hd (S.kid q a (S.child a q ha hp)).2.2.2.2.2
  | none =>
    rw [if_neg (by simp), M.bind_ok (rd_ok ha), M.bind_ok (MarkInUse_run (by rw [hd]; exact ha)), if_pos hd]; rfl

theorem dput_comm {α : Type} (f : Nat → α) {c d : Nat} (v w : α) (h : c ≠ d) : put (put f c v) d w = put (put f d w) c v := by
  funext q
  unfold put
  by_cases e1 : q = d
  · by_cases e2 : q = c
    · exact absurd (e2.symm.trans e1) h
    · rw [if_pos e1, if_neg e2, if_pos e1]
  · rw [if_neg e1, if_neg e1]

/-- the part of `InsertEndChild` behind the preamble -/
theorem Outs.end_link {s : Dom} {K : Nat → List Nat} {A : List Nat} {p a : Nat} (S : Outs s K (a :: A)) (hp : s.live p = true) :
    (do
      let l ← rd Dom.last (some p)
      if l.isSome then do
        setNext l (some a)
        let l ← rd Dom.last (some p)
        setPrev (some a) l
        setLast (some p) (some a)
        setNext (some a) none
      else do
        setLast (some p) (some a)
        setFirst (some p) (some a)
        setPrev (some a) none
        setNext (some a) none
      setParent (some a) (some p)
      pure (some a) : M Dom P) s = .ok (some a) (linkedAt p a (K p) [] s) := by
  obtain ⟨a1, a2, a3⟩ := S.out a List.mem_cons_self
  rw [M.bind_ok (rd_ok hp), (S.ends p hp).2]
  unfold setNext setPrev setLast setFirst setParent
  cases e : (K p).getLast? with
  | none =>
    have e0 : K p = [] := by simpa using e
    rw [if_neg (by simp)]
    rw [M.bind_ok (wr_ok (by exact hp)), M.bind_ok (wr_ok (by exact hp)), M.bind_ok (wr_ok (by exact a1)), M.bind_ok (wr_ok (by exact a1))]
    beta_reduce
    rw [M.bind_ok (wr_ok (by exact a1))]
    simp only [linkedAt, e0]
    rfl
  | some x =>
    have e0 : K p ≠ [] := by intro h; rw [h] at e; cases e
    have hx : s.live x = true := (S.kid p x (List.mem_of_getLast? e)).1
    rw [if_pos (by simp)]
    rw [M.bind_ok (wr_ok (by exact hx)), M.bind_ok (rd_ok (by exact hp)), M.bind_ok (wr_ok (by exact a1)), M.bind_ok (wr_ok (by exact hp)), M.bind_ok (wr_ok (by exact a1))]
    beta_reduce
    rw [M.bind_ok (wr_ok (by exact a1))]
    simp only [linkedAt, if_neg e0, e]
    simp only [(S.ends p hp).2, e]
    rfl

/-- the lists behind an insertion -/
theorem moved_eq {K : Nat → List Nat} {a p : Nat} {f : List Nat → List Nat} {l : List Nat} (h : f ((K p).erase a) = l) :
    moved K a p f = fun q => if q = p then l else (K q).erase a := by
  funext q
  unfold moved
  split
  · rename_i e; rw [e, h]
  · rfl

theorem Outs.insertEnd {s : Dom} {K : Nat → List Nat} (S : Outs s K []) {p a : Nat} (ha : s.live a = true) (hp : s.live p = true)
    (hd : s.doc a ≠ a) (hdp : s.doc a = s.doc p) :
    ∃ s', insertEnd p a s = .ok (some a) s' ∧ Outs s' (moved K a p (· ++ [a])) [] ∧ s'.live = s.live ∧ s'.doc = s.doc := by
  obtain ⟨s1, r1, S1, l1, d1⟩ := S.preamble ha hd
  refine ⟨linkedAt p a ((K p).erase a) [] s1, ?_, ?_, ?_, ?_⟩
  rotate_left
  · have := S1.link List.not_mem_nil (p := p) (by rw [l1]; exact hp) (by rw [d1]; exact hdp) (pre := (K p).erase a) (post := []) (by simp)
    rw [moved_eq (l := (K p).erase a ++ [a]) rfl]
    exact this
  · exact l1
  · exact d1
  · unfold Xml.Dom.insertEnd
    rw [M.bind_ok r1]
    exact S1.end_link (by rw [l1]; exact hp)

theorem Outs.insertEndChild {s : Dom} {K : Nat → List Nat} (S : Outs s K []) {p a : Nat} (ha : s.live a = true) (hp : s.live p = true)
    (hd : s.doc a ≠ a) (hdp : s.doc a = s.doc p) :
    ∃ s', InsertEndChild p a s = .ok (some a) s' ∧ Outs s' (moved K a p (· ++ [a])) [] ∧ s'.live = s.live ∧ s'.doc = s.doc := by
  unfold InsertEndChild
  rw [M.bind_ok (rd_ok ha), M.bind_ok (rd_ok hp), if_neg (by simpa using hdp)]
  exact S.insertEnd ha hp hd hdp

theorem Outs.insertFirstChild {s : Dom} {K : Nat → List Nat} (S : Outs s K []) {p a : Nat} (ha : s.live a = true) (hp : s.live p = true)
    (hd : s.doc a ≠ a) (hdp : s.doc a = s.doc p) :
    ∃ s', InsertFirstChild p a s = .ok (some a) s' ∧ Outs s' (moved K a p (a :: ·)) [] ∧ s'.live = s.live ∧ s'.doc = s.doc := by
  unfold InsertFirstChild
  rw [M.bind_ok (rd_ok ha), M.bind_ok (rd_ok hp), if_neg (by simpa using hdp)]
  obtain ⟨s1, r1, S1, l1, d1⟩ := S.preamble ha hd
  refine ⟨linkedAt p a [] ((K p).erase a) s1, ?_, ?_, ?_, ?_⟩
  rotate_left
  · have := S1.link List.not_mem_nil (p := p) (by rw [l1]; exact hp) (by rw [d1]; exact hdp) (pre := []) (post := (K p).erase a) (by simp)
    rw [moved_eq (l := a :: (K p).erase a) rfl]
    exact this
  · exact l1
  · exact d1
  · have hp1 : s1.live p = true := by rw [l1]; exact hp
    have a1 : s1.live a = true := by rw [l1]; exact ha
    rw [M.bind_ok r1, M.bind_ok (rd_ok hp1), (S1.ends p hp1).1]
    unfold setNext setPrev setLast setFirst setParent
    cases e : ((K p).erase a).head? with
    | none =>
      have e0 : (K p).erase a = [] := by simpa using e
      rw [if_neg (by simp)]
      rw [M.bind_ok (wr_ok (by exact hp1)), M.bind_ok (wr_ok (by exact hp1)), M.bind_ok (wr_ok (by exact a1)), M.bind_ok (wr_ok (by exact a1))]
      beta_reduce
      rw [M.bind_ok (wr_ok (by exact a1))]
      simp only [linkedAt, e0]
      rfl
    | some x =>
      have e0 : (K p).erase a ≠ [] := by intro h; rw [h] at e; cases e
      have hx : s1.live x = true := (S1.kid p x (List.mem_of_head? e)).1
      rw [if_pos (by simp)]
      rw [M.bind_ok (wr_ok (by exact hx)), M.bind_ok (rd_ok (by exact hp1)), M.bind_ok (wr_ok (by exact a1)), M.bind_ok (wr_ok (by exact hp1)), M.bind_ok (wr_ok (by exact a1))]
      beta_reduce
      rw [M.bind_ok (wr_ok (by exact a1))]
      simp only [linkedAt, if_neg e0, e]
      simp only [(S1.ends p hp1).1, e]
      rfl

/-! ## `InsertAfterChild` -/

theorem insBehind_mid {x a : Nat} {pre post : List Nat} (h : x ∉ pre) : insBehind x a (pre ++ x :: post) = pre ++ x :: a :: post := by
  induction pre with
  | nil => simp [insBehind]
  | cons y r ih =>
    simp only [List.mem_cons, not_or] at h
    simp only [List.cons_append, insBehind]
    rw [if_neg (fun e => h.1 e.symm), ih h.2]

/-- the part of `InsertAfterChild` behind the preamble -/
theorem Outs.after_link {s : Dom} {K : Nat → List Nat} {A : List Nat} {p a x y : Nat} (S : Outs s K (a :: A))
    {pre post : List Nat} (e : K p = (pre ++ [x]) ++ y :: post) :
    (do
      setPrev (some a) (some x)
      let n ← rd Dom.next (some x)
      setNext (some a) n
      let n ← rd Dom.next (some x)
      setPrev n (some a)
      setNext (some x) (some a)
      setParent (some a) (some p)
      pure (some a) : M Dom P) s = .ok (some a) (linkedAt p a (pre ++ [x]) (y :: post) s) := by
  obtain ⟨a1, a2, a3⟩ := S.out a List.mem_cons_self
  have notin : a ∉ K p := by
    intro m
    have := (S.kid p a m).2.1
    rw [a2] at this; cases this
  have mx : x ∈ K p := by rw [e]; simp
  have my : y ∈ K p := by rw [e]; simp
  have xa : x ≠ a := fun e => notin (e ▸ mx)
  have ya : y ≠ a := fun e => notin (e ▸ my)
  have hx := S.kid p x mx
  have hy := (S.kid p y my).1
  have hnx : s.next x = some y := by
    have hn : (pre ++ x :: (y :: post)).Nodup := by
      have := S.nodup p
      rw [e] at this
      simpa using this
    rw [hx.2.2.2.1, e]
    have : pre ++ [x] ++ y :: post = pre ++ x :: (y :: post) := by simp
    rw [this, behind_mid (nodup_mid hn).1]; rfl
  unfold setNext setPrev setParent
  rw [M.bind_ok (wr_ok (by exact a1)), M.bind_ok (rd_ok (by exact hx.1)), M.bind_ok (wr_ok (by exact a1)), M.bind_ok (rd_ok (by exact hx.1))]
  dsimp only
  rw [dput_ne _ _ xa, hnx]
  rw [M.bind_ok (wr_ok (by exact hy)), M.bind_ok (wr_ok (by exact hx.1)), M.bind_ok (wr_ok (by exact a1))]
  simp only [linkedAt, List.getLast?_append, List.getLast?_singleton, List.head?_cons, Option.some_or]
  rw [dput_comm s.next _ _ xa.symm, dput_comm s.prev _ _ ya.symm]
  rw [if_neg (by simp), if_neg (by simp)]
  rfl

theorem Outs.insertAfterChild {s : Dom} {K : Nat → List Nat} (S : Outs s K []) {p a x : Nat} (ha : s.live a = true)
    (hd : s.doc a ≠ a) (hdp : s.doc a = s.doc p) (hx : x ∈ K p) (hxa : x ≠ a) (hne : ¬ ∃ pre, K p = pre ++ [x, a]) :
    ∃ s', InsertAfterChild p x a s = .ok (some a) s' ∧ Outs s' (moved K a p (insBehind x a)) [] ∧ s'.live = s.live ∧ s'.doc = s.doc := by
  have hp := S.live_of_kid hx
  obtain ⟨x1, x2, x3, x4, x5, x6⟩ := S.kid p x hx
  unfold InsertAfterChild
  rw [M.bind_ok (rd_ok ha), M.bind_ok (rd_ok hp), if_neg (by simpa using hdp), M.bind_ok (rd_ok x1), if_neg (by simp [x2]), if_neg hxa, M.bind_ok (rd_ok x1)]
  obtain ⟨pre, post, e⟩ := List.append_of_mem hx
  have hnd : (pre ++ x :: post).Nodup := e ▸ S.nodup p
  obtain ⟨n1, n2, n3⟩ := nodup_mid hnd
  rw [e, behind_mid n1] at x4
  -- the list without `a`
  have hu : ((pre.erase a) ++ x :: (post.erase a)) = (K p).erase a := by
    rw [e]
    by_cases m : a ∈ pre
    · rw [List.erase_append_left _ m]
      have : a ∉ post := by
        intro m'
        exact (List.nodup_append.mp n3).2.2 a m a m' rfl
      rw [List.erase_of_not_mem this]
    · rw [List.erase_append_right _ m, List.erase_of_not_mem m, List.erase_cons_tail (by simpa using hxa)]
  have n1' : x ∉ pre.erase a := fun m => n1 (List.mem_of_mem_erase m)
  cases post with
  | nil =>
    rw [x4, if_pos (by rfl)]
    have := S.insertEndChild ha hp hd hdp
    have hm : moved K a p (insBehind x a) = moved K a p (· ++ [a]) := by
      funext q
      unfold moved
      split
      · rename_i hq
        subst hq
        rw [← hu, insBehind_mid n1']
        simp
      · rfl
    rw [hm]
    exact this
  | cons y r =>
    rw [x4, if_neg (by simp)]
    obtain ⟨s1, r1, S1, l1, d1⟩ := S.preamble ha hd
    obtain ⟨y', r', e'⟩ : ∃ y' r', (y :: r).erase a = y' :: r' := by
      by_cases hy : y = a
      · subst hy
        cases r with
        | nil => exact absurd ⟨pre, e⟩ hne
        | cons z r => exact ⟨z, r, by simp⟩
      · exact ⟨y, r.erase a, by rw [List.erase_cons_tail (by simpa using hy)]⟩
    have e1 : (K p).erase a = (pre.erase a ++ [x]) ++ y' :: r' := by rw [← hu, e']; simp
    refine ⟨linkedAt p a (pre.erase a ++ [x]) (y' :: r') s1, ?_, ?_, l1, d1⟩
    · rw [M.bind_ok r1]
      exact S1.after_link e1
    · have := S1.link List.not_mem_nil (p := p) (by rw [l1]; exact hp) (by rw [d1]; exact hdp) (pre := pre.erase a ++ [x]) (post := y' :: r') e1
      rw [moved_eq (l := (pre.erase a ++ [x]) ++ a :: y' :: r')]
      · exact this
      · rw [← hu, insBehind_mid n1', e']; simp

/-- the last child behind the one before it: a null pointer is followed -/
theorem Outs.insertAfterChild_null {s : Dom} {K : Nat → List Nat} (S : Outs s K []) {p a x : Nat} {pre : List Nat}
    (e : K p = pre ++ [x, a]) : InsertAfterChild p x a s = .ub .null := by
  have hx : x ∈ K p := by rw [e]; simp
  have hk : a ∈ K p := by rw [e]; simp
  have hp := S.live_of_kid hx
  obtain ⟨x1, x2, x3, x4, x5, x6⟩ := S.kid p x hx
  obtain ⟨a1, a2, a3, a4, a5, a6⟩ := S.kid p a hk
  have hnd : (pre ++ x :: [a]).Nodup := e ▸ S.nodup p
  obtain ⟨n1, n2, n3⟩ := nodup_mid hnd
  have hxa : x ≠ a := by simpa using n2
  rw [e, behind_mid n1] at x4
  unfold InsertAfterChild
  rw [M.bind_ok (rd_ok a1), M.bind_ok (rd_ok hp), if_neg (by simpa using a5), M.bind_ok (rd_ok x1), if_neg (by simp [x2]), if_neg hxa, M.bind_ok (rd_ok x1),
    x4, if_neg (by simp)]
  obtain ⟨s1, r1, S1, l1, d1⟩ := S.preamble a1 a6
  have e1 : (K p).erase a = pre ++ x :: [] := by
    rw [e]
    have : a ∉ pre := fun m => (List.nodup_append.mp n3).2.2 a m a (by simp) rfl
    rw [List.erase_append_right _ this, List.erase_cons_tail (by simpa using hxa)]
    simp
  have mx : x ∈ (K p).erase a := by rw [e1]; simp
  have hx' := S1.kid p x mx
  have nn : s1.next x = none := by
    rw [hx'.2.2.2.1]
    show behind x ((K p).erase a) = none
    rw [e1, behind_mid n1]; rfl
  rw [M.bind_ok r1]
  unfold setNext setPrev setParent
  rw [M.bind_ok (wr_ok (by rw [l1]; exact a1)), M.bind_ok (rd_ok (by exact hx'.1)), M.bind_ok (wr_ok (by exact (by rw [l1]; exact a1 : s1.live a = true))), M.bind_ok (rd_ok (by exact hx'.1))]
  dsimp only
  rw [dput_ne _ _ hxa, nn]
  rfl

end Verif
