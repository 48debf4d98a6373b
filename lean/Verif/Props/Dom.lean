import Verif.Proof.XDom6
/-!
# C83–C87: the tree of nodes of a document
-/
set_option linter.unusedSimpArgs false
namespace Verif.Props
open Verif Spec Xml.Dom

/-! ## a state to look at: document 0 with the child 1, which has the children 2, 3, 4; node 5 is unlinked; document 6 with the node 7 -/

/-- the calls -/
def domCalls : List DOp :=
  [.newDocument 0, .newNode 0 1, .newNode 0 2, .newNode 0 3, .newNode 0 4, .newNode 0 5, .newDocument 6, .newNode 6 7,
   .insertEnd 0 1, .insertEnd 1 3, .insertFirst 1 2, .insertAfter 1 3 4]

/-- the lists of children -/
def domK (q : Nat) : List Nat := if q = 0 then [1] else if q = 1 then [2, 3, 4] else []

theorem not_below {K : Nat → List Nat} {p a : Nat} (h : p ≠ a) (e : K a = []) : ¬ Below K p a := by
  rw [below_iff, e]
  simp [h]

/-- the calls are ones the program may make, and their outcome -/
theorem domRun : ∃ F, Calls Forest.empty domCalls F ∧ F.K = domK ∧ (∀ q, F.live q ↔ q < 8) ∧ F.doc = (fun q => if q = 6 ∨ q = 7 then 6 else 0) := by
  refine ⟨domCalls.foldl (fun F op => (op.step F).1) Forest.empty, ?_, ?_, ?_, ?_⟩
  · unfold domCalls
    refine .cons (by simp [DOp.may, Forest.empty]) ?_
    refine .cons (by simp [DOp.may, DOp.step, Forest.empty]) ?_
    refine .cons (by simp [DOp.may, DOp.step, Forest.empty, put]) ?_
    refine .cons (by simp [DOp.may, DOp.step, Forest.empty, put]) ?_
    refine .cons (by simp [DOp.may, DOp.step, Forest.empty, put]) ?_
    refine .cons (by simp [DOp.may, DOp.step, Forest.empty, put]) ?_
    refine .cons (by simp [DOp.may, DOp.step, Forest.empty, put]) ?_
    refine .cons (by simp [DOp.may, DOp.step, Forest.empty, put]) ?_
    refine .cons (by simp [DOp.may, DOp.step, Forest.empty, put, not_below]) ?_
    refine .cons (by simp [DOp.may, DOp.step, Forest.empty, put, not_below, moved]) ?_
    refine .cons (by simp [DOp.may, DOp.step, Forest.empty, put, not_below, moved]) ?_
    refine .cons (by
      simp [DOp.may, DOp.step, Forest.empty, put, not_below, moved]
      intro x h
      have := congrArg List.getLast? h
      simp at this) ?_
    exact .nil
  · funext q
    simp [domCalls, DOp.step, Forest.empty, put, moved, insBehind, domK]
    by_cases h0 : q = 0
    · simp [h0]
    · by_cases h1 : q = 1
      · simp [h1, insBehind]
      · simp [h0, h1]
  · intro q
    simp [domCalls, DOp.step, Forest.empty, put, moved, insBehind]
    omega
  · funext q
    simp [domCalls, DOp.step, Forest.empty, put, moved, insBehind]
    split <;> simp_all <;> omega

/-- the state shows the lists -/
theorem domIs : ∃ s F, Is s F ∧ F.K = domK ∧ (∀ q, F.live q ↔ q < 8) ∧ F.doc = (fun q => if q = 6 ∨ q = 7 then 6 else 0) := by
  obtain ⟨F, h, e⟩ := domRun
  obtain ⟨n, s, r, I⟩ := is_nothing.execAll h
  exact ⟨s, F, I, e⟩

/-- the same in a form the theorems below take -/
theorem domShows : ∃ s, Links s domK ∧ (∀ q, s.live q = true ↔ q < 8) ∧ s.doc = (fun q => if q = 6 ∨ q = 7 then 6 else 0) := by
  obtain ⟨s, F, I, e1, e2, e3⟩ := domIs
  exact ⟨s, e1 ▸ I.shows, fun q => by rw [I.live, e2], by rw [I.doc, e3]⟩

/-! ## C83: `InsertEndChild`, `InsertFirstChild` -/

theorem C83_end {s : Dom} {K : Nat → List Nat} (S : Links s K) {p a : Nat} (hp : s.live p = true) (ha : s.live a = true) :
    (s.doc a ≠ s.doc p → InsertEndChild p a s = .ok none s) ∧
    (s.doc a = s.doc p → s.doc a ≠ a →
      ∃ s', InsertEndChild p a s = .ok (some a) s' ∧ Links s' (moved K a p (· ++ [a])) ∧ s'.live = s.live ∧ s'.doc = s.doc) := by
  constructor
  · intro h
    unfold InsertEndChild
    rw [M.bind_ok (rd_ok ha), M.bind_ok (rd_ok hp), if_pos h]; rfl
  · intro h1 h2
    obtain ⟨s', r, S', l⟩ := S.out.insertEndChild ha hp h2 h1
    exact ⟨s', r, S'.shows, l⟩

theorem C83_first {s : Dom} {K : Nat → List Nat} (S : Links s K) {p a : Nat} (hp : s.live p = true) (ha : s.live a = true) :
    (s.doc a ≠ s.doc p → InsertFirstChild p a s = .ok none s) ∧
    (s.doc a = s.doc p → s.doc a ≠ a →
      ∃ s', InsertFirstChild p a s = .ok (some a) s' ∧ Links s' (moved K a p (a :: ·)) ∧ s'.live = s.live ∧ s'.doc = s.doc) := by
  constructor
  · intro h
    unfold InsertFirstChild
    rw [M.bind_ok (rd_ok ha), M.bind_ok (rd_ok hp), if_pos h]; rfl
  · intro h1 h2
    obtain ⟨s', r, S', l⟩ := S.out.insertFirstChild ha hp h2 h1
    exact ⟨s', r, S'.shows, l⟩

/-- of a document itself: its null pool is followed -/
theorem C83_document {s : Dom} {K : Nat → List Nat} (S : Links s K) {p a : Nat} (hp : s.live p = true) (ha : s.live a = true)
    (h1 : s.doc a = s.doc p) (h2 : s.doc a = a) : InsertEndChild p a s = .ub .null ∧ InsertFirstChild p a s = .ub .null := by
  have := S.out.preamble_doc ha h2
  constructor
  · unfold InsertEndChild
    rw [M.bind_ok (rd_ok ha), M.bind_ok (rd_ok hp), if_neg (by simpa using h1)]
    unfold insertEnd
    rw [M.bind_run, this]
  · unfold InsertFirstChild
    rw [M.bind_ok (rd_ok ha), M.bind_ok (rd_ok hp), if_neg (by simpa using h1), M.bind_run, this]

/-- a cycle arises exactly if a node is inserted into itself or into one below it; nothing prevents that -/
theorem C83_cycle {s : Dom} {K : Nat → List Nat} (S : Links s K) (C : Acyclic K) (p a : Nat) :
    (Acyclic (moved K a p (· ++ [a])) ↔ ¬ Below K p a) ∧ (Acyclic (moved K a p (a :: ·)) ↔ ¬ Below K p a) := by
  refine ⟨⟨fun h b => moved_cyclic ?_ ?_ b h, fun h => Acyclic.moved C S.nodup ?_ h⟩, ⟨fun h b => moved_cyclic ?_ ?_ b h, fun h => Acyclic.moved C S.nodup ?_ h⟩⟩
  · simp
  · intro c hc; exact List.mem_append_left _ hc
  · intro l c h; simpa using h
  · simp
  · intro c hc; exact List.mem_cons_of_mem _ hc
  · intro l c h
    rcases List.mem_cons.mp h with h | h
    exacts [Or.inr h, Or.inl h]

/-- node 5 at the end of the list of 1; node 4 to the front of its own list; node 7 is of another document -/
example : ∃ s s₁ s₂ s₃, Links s domK ∧ InsertEndChild 1 5 s = .ok (some 5) s₁ ∧ InsertFirstChild 1 4 s₁ = .ok (some 4) s₂ ∧
    InsertEndChild 1 7 s₂ = .ok none s₃ ∧ Links s₃ (fun q => if q = 0 then [1] else if q = 1 then [4, 2, 3, 5] else []) := by
  obtain ⟨s, S, hl, hd⟩ := domShows
  have lv : ∀ q, q < 8 → s.live q = true := fun q h => (hl q).mpr h
  obtain ⟨s1, r1, S1, l1, d1⟩ := (C83_end S (lv 1 (by decide)) (lv 5 (by decide))).2 (by simp [hd]) (by simp [hd])
  obtain ⟨s2, r2, S2, l2, d2⟩ := (C83_first S1 (p := 1) (a := 4) (by rw [l1]; exact lv 1 (by decide)) (by rw [l1]; exact lv 4 (by decide))).2
    (by simp [d1, hd]) (by simp [d1, hd])
  have r3 := (C83_end S2 (p := 1) (a := 7) (by rw [l2, l1]; exact lv 1 (by decide)) (by rw [l2, l1]; exact lv 7 (by decide))).1 (by simp [d2, d1, hd])
  refine ⟨s, s1, s2, s2, S, r1, r2, r3, ?_⟩
  have e : moved (moved domK 5 1 (· ++ [5])) 4 1 (4 :: ·) = fun q => if q = 0 then [1] else if q = 1 then [4, 2, 3, 5] else [] := by
    funext q
    by_cases h0 : q = 0
    · subst h0; rfl
    · by_cases h1 : q = 1
      · subst h1; rfl
      · simp [moved, domK, h0, h1]
  rw [← e]; exact S2

/-- document 0 into node 1; node 1 into node 2 -/
example : ∃ s, Links s domK ∧ InsertEndChild 1 0 s = .ub .null ∧ ¬ Acyclic (moved domK 1 2 (· ++ [1])) ∧ Acyclic (moved domK 2 4 (· ++ [2])) := by
  obtain ⟨s, F, I, e1, e2, e3⟩ := domIs
  have S : Links s domK := e1 ▸ I.shows
  have C : Acyclic domK := e1 ▸ I.acyclic
  have lv : ∀ q, q < 8 → s.live q = true := fun q h => (I.live q).mpr ((e2 q).mpr h)
  refine ⟨s, S, (C83_document S (lv 1 (by decide)) (lv 0 (by decide)) (by simp [I.doc, e3]) (by simp [I.doc, e3])).1, ?_, ?_⟩
  · rw [(C83_cycle S C 2 1).1, not_not]
    exact Relation.ReflTransGen.single (show 2 ∈ domK 1 by decide)
  · exact (C83_cycle S C 4 2).1.mpr (not_below (by decide) rfl)

/-! ## C84: `InsertAfterChild` -/

theorem C84_partial {s : Dom} {K : Nat → List Nat} (S : Links s K) {p x a : Nat} (hp : s.live p = true) (ha : s.live a = true) (hx : s.live x = true) :
    (s.doc a ≠ s.doc p → InsertAfterChild p x a s = .ok none s) ∧
    (s.doc a = s.doc p → x ∉ K p → InsertAfterChild p x a s = .ok none s) ∧
    (s.doc a = s.doc p → x ∈ K p → x = a → InsertAfterChild p x a s = .ok (some a) s) ∧
    (s.doc a = s.doc p → x ∈ K p → x ≠ a → s.doc a ≠ a → (¬ ∃ pre, K p = pre ++ [x, a]) →
      ∃ s', InsertAfterChild p x a s = .ok (some a) s' ∧ Links s' (moved K a p (insBehind x a)) ∧ s'.live = s.live ∧ s'.doc = s.doc) := by
  refine ⟨fun h => ?_, fun h1 h2 => ?_, fun h1 h2 h3 => ?_, fun h1 h2 h3 h4 h5 => ?_⟩
  · unfold InsertAfterChild
    rw [M.bind_ok (rd_ok ha), M.bind_ok (rd_ok hp), if_pos h]; rfl
  · unfold InsertAfterChild
    rw [M.bind_ok (rd_ok ha), M.bind_ok (rd_ok hp), if_neg (by simpa using h1), M.bind_ok (rd_ok hx), if_pos (fun hh => h2 (S.child x p hx hh))]; rfl
  · unfold InsertAfterChild
    rw [M.bind_ok (rd_ok ha), M.bind_ok (rd_ok hp), if_neg (by simpa using h1), M.bind_ok (rd_ok hx), if_neg (by rw [(S.kid p x h2).2.1]; simp), if_pos h3]; rfl
  · obtain ⟨s', r, S', l⟩ := S.out.insertAfterChild ha h4 h1 h2 h3 h5
    exact ⟨s', r, S'.shows, l⟩

/-- the last child behind the one before it: a null pointer is followed -/
theorem C84_null {s : Dom} {K : Nat → List Nat} (S : Links s K) {p x a : Nat} {pre : List Nat} (h : K p = pre ++ [x, a]) :
    InsertAfterChild p x a s = .ub .null := S.out.insertAfterChild_null h

/-- it is not true that the node always ends up behind the other -/
theorem C84_false : ¬ ∀ (s : Dom) (K : Nat → List Nat) (p x a : Nat), Links s K → s.live a = true → s.doc a = s.doc p → s.doc a ≠ a → x ∈ K p → x ≠ a →
    ∃ s', InsertAfterChild p x a s = .ok (some a) s' ∧ Links s' (moved K a p (insBehind x a)) := by
  intro h
  obtain ⟨s, S, hl, hd⟩ := domShows
  obtain ⟨s', r, _⟩ := h s domK 1 3 4 S ((hl 4).mpr (by decide)) (by simp [hd]) (by simp [hd]) (by decide) (by decide)
  rw [C84_null S (p := 1) (x := 3) (a := 4) (pre := [2]) rfl] at r
  cases r

theorem C84_cycle {s : Dom} {K : Nat → List Nat} (S : Links s K) (C : Acyclic K) {p x a : Nat} (hx : x ∈ K p) (hxa : x ≠ a) :
    Acyclic (moved K a p (insBehind x a)) ↔ ¬ Below K p a := by
  refine ⟨fun h b => moved_cyclic ?_ ?_ b h, fun h => Acyclic.moved C S.nodup mem_insBehind h⟩
  · have : x ∈ (K p).erase a := (List.mem_erase_of_ne hxa).mpr hx
    obtain ⟨u, v, e, hu⟩ := List.eq_append_cons_of_mem this
    rw [e, insBehind_mid hu]; simp
  · intro c hc
    have : x ∈ (K p).erase a := (List.mem_erase_of_ne hxa).mpr hx
    obtain ⟨u, v, e, hu⟩ := List.eq_append_cons_of_mem this
    rw [e] at hc ⊢
    rw [insBehind_mid hu]
    simp only [List.mem_append, List.mem_cons] at hc ⊢
    tauto

/-- 4 behind 2; 5 behind 3; 2 behind 4 -/
example : ∃ s s₁ s₂ s₃, Links s domK ∧ InsertAfterChild 1 2 4 s = .ok (some 4) s₁ ∧ InsertAfterChild 1 3 5 s₁ = .ok (some 5) s₂ ∧
    InsertAfterChild 1 4 2 s₂ = .ok (some 2) s₃ ∧ Links s₃ (fun q => if q = 0 then [1] else if q = 1 then [4, 2, 3, 5] else []) := by
  obtain ⟨s, S, hl, hd⟩ := domShows
  have lv : ∀ q, q < 8 → s.live q = true := fun q h => (hl q).mpr h
  have ne : ∀ (l : List Nat) (x a : Nat), l.getLast? ≠ some a → ¬ ∃ pre, l = pre ++ [x, a] := by
    rintro l x a h ⟨pre, e⟩
    rw [e] at h; simp at h
  obtain ⟨s1, r1, S1, l1, d1⟩ := (C84_partial S (p := 1) (x := 2) (a := 4) (lv 1 (by decide)) (lv 4 (by decide)) (lv 2 (by decide))).2.2.2 (by simp [hd]) (by decide) (by decide) (by simp [hd])
    (by rintro ⟨pre, e⟩
        have : pre.length = 1 := by have := congrArg List.length e; simpa [domK] using this.symm
        obtain ⟨y, rfl⟩ := List.length_eq_one_iff.mp this
        simp [domK] at e)
  have K1 : moved domK 4 1 (insBehind 2 4) 1 = [2, 4, 3] := rfl
  obtain ⟨s2, r2, S2, l2, d2⟩ := (C84_partial S1 (p := 1) (x := 3) (a := 5) (by rw [l1]; exact lv 1 (by decide)) (by rw [l1]; exact lv 5 (by decide)) (by rw [l1]; exact lv 3 (by decide))).2.2.2
    (by simp [d1, hd]) (by rw [K1]; decide) (by decide) (by simp [d1, hd]) (by rw [K1]; exact ne _ _ _ (by decide))
  have K2 : moved (moved domK 4 1 (insBehind 2 4)) 5 1 (insBehind 3 5) 1 = [2, 4, 3, 5] := rfl
  obtain ⟨s3, r3, S3, l3, d3⟩ := (C84_partial S2 (p := 1) (x := 4) (a := 2) (by rw [l2, l1]; exact lv 1 (by decide)) (by rw [l2, l1]; exact lv 2 (by decide)) (by rw [l2, l1]; exact lv 4 (by decide))).2.2.2
    (by simp [d2, d1, hd]) (by rw [K2]; decide) (by decide) (by simp [d2, d1, hd]) (by rw [K2]; exact ne _ _ _ (by decide))
  refine ⟨s, s1, s2, s3, S, r1, r2, r3, ?_⟩
  have e : moved (moved (moved domK 4 1 (insBehind 2 4)) 5 1 (insBehind 3 5)) 2 1 (insBehind 4 2) = fun q => if q = 0 then [1] else if q = 1 then [4, 2, 3, 5] else [] := by
    funext q
    by_cases h0 : q = 0
    · subst h0; rfl
    · by_cases h1 : q = 1
      · subst h1; rfl
      · simp [moved, domK, h0, h1]
  rw [← e]; exact S3

/-! ## C85: walking and searching -/

/-- forwards all children in order, backwards in reverse order -/
theorem C85_walk {s : Dom} {K : Nat → List Nat} (S : Links s K) {p : Nat} (hp : s.live p = true) {n : Nat} (hn : (K p).length < n) :
    walk Dom.next n (s.first p) s = .ok (K p) s ∧ walk Dom.prev n (s.last p) s = .ok (K p).reverse s := by
  rw [(S.ends p hp).1, (S.ends p hp).2]
  refine ⟨S.out.walk_next (p := p) (K p) n [] (by simp) hn, ?_⟩
  have := S.out.walk_prev (p := p) (K p).reverse n [] (by simp) (by simpa using hn)
  rwa [List.head?_reverse] at this

/-- the first and the last child of a kind -/
theorem C85_child {s : Dom} {K : Nat → List Nat} (S : Links s K) {p : Nat} (hp : s.live p = true) (isIt : Nat → Bool) {n : Nat} (hn : (K p).length < n) :
    FirstChildElement n isIt p s = .ok ((K p).find? isIt) s ∧ LastChildElement n isIt p s = .ok ((K p).reverse.find? isIt) s := by
  unfold FirstChildElement LastChildElement
  rw [M.bind_ok (rd_ok hp), M.bind_ok (rd_ok hp), (S.ends p hp).1, (S.ends p hp).2]
  refine ⟨S.out.find_next isIt (p := p) (K p) n [] (by simp) hn, ?_⟩
  have := S.out.find_prev isIt (p := p) (K p).reverse n [] (by simp) (by simpa using hn)
  rwa [List.head?_reverse] at this

/-- the next sibling of a kind and the one before -/
theorem C85_sibling {s : Dom} {K : Nat → List Nat} (S : Links s K) {p c : Nat} {pre post : List Nat} (h : K p = pre ++ c :: post) (isIt : Nat → Bool)
    {n : Nat} (hn : (K p).length < n) :
    NextSiblingElement n isIt c s = .ok (post.find? isIt) s ∧ PreviousSiblingElement n isIt c s = .ok (pre.reverse.find? isIt) s := by
  obtain ⟨h1, h2, h3⟩ := S.out.next_mid h
  have len : pre.length + post.length + 1 < n := by rw [h] at hn; simp at hn; omega
  unfold NextSiblingElement PreviousSiblingElement
  rw [M.bind_ok (rd_ok h1), M.bind_ok (rd_ok h1), h2, h3]
  refine ⟨S.out.find_next isIt (p := p) post n (pre ++ [c]) (by rw [h]; simp) (by omega), ?_⟩
  have := S.out.find_prev isIt (p := p) pre.reverse n (c :: post) (by rw [h]; simp) (by simp; omega)
  rwa [List.head?_reverse] at this

/-- a node without a parent has no siblings -/
theorem C85_loose {s : Dom} {K : Nat → List Nat} (S : Links s K) {c : Nat} (hc : s.live c = true) (hp : s.parent c = none) (isIt : Nat → Bool) {n : Nat} (hn : 0 < n) :
    NextSiblingElement n isIt c s = .ok none s ∧ PreviousSiblingElement n isIt c s = .ok none s := by
  obtain ⟨t1, t2⟩ := S.top c hc hp
  obtain ⟨n, rfl⟩ : ∃ m, n = m + 1 := ⟨n - 1, by omega⟩
  unfold NextSiblingElement PreviousSiblingElement
  rw [M.bind_ok (rd_ok hc), M.bind_ok (rd_ok hc), t1, t2]
  exact ⟨rfl, rfl⟩

example : ∃ s, Links s domK ∧ walk Dom.next 4 (s.first 1) s = .ok [2, 3, 4] s ∧ walk Dom.prev 4 (s.last 1) s = .ok [4, 3, 2] s ∧
    FirstChildElement 4 (fun c => c % 2 == 1) 1 s = .ok (some 3) s ∧ LastChildElement 4 (fun c => c % 2 == 0) 1 s = .ok (some 4) s ∧
    NextSiblingElement 4 (fun c => c % 2 == 0) 3 s = .ok (some 4) s ∧ PreviousSiblingElement 4 (fun c => c % 2 == 1) 3 s = .ok none s := by
  obtain ⟨s, S, hl, hd⟩ := domShows
  have h1 := (hl 1).mpr (by decide)
  exact ⟨s, S, (C85_walk S h1 (by decide)).1, (C85_walk S h1 (by decide)).2, (C85_child S h1 _ (by decide)).1, (C85_child S h1 _ (by decide)).2,
    (C85_sibling S (p := 1) (c := 3) (pre := [2]) (post := [4]) rfl _ (by decide)).1, (C85_sibling S (p := 1) (c := 3) (pre := [2]) (post := [4]) rfl _ (by decide)).2⟩

/-! ## C86: deletion -/

/-- a child and all below it go, and nothing else; so with `XMLDocument::DeleteNode` and any node but a document -/
theorem C86_node {s : Dom} {F : Forest} (I : Is s F) :
    (∀ p a, a ∈ F.K p → ∃ n s', (∀ k, n ≤ k → DeleteChild k p (some a) s = .ok () s') ∧ Is s' (F.remove fun q => Below F.K q a)) ∧
    (∀ a, F.live a → F.doc a ≠ a → ∃ n s', (∀ k, n ≤ k → docDeleteNode k a s = .ok () s') ∧ Is s' (F.remove fun q => Below F.K q a)) := by
  constructor
  · intro p a h
    obtain ⟨n, s', r, D⟩ := delChild I.shows.out I.wf h
    exact ⟨n, s', r, I.deleted D⟩
  · intro a h1 h2
    obtain ⟨n, s', r, D⟩ := docDel I.shows.out I.wf ((I.live a).mpr h1) (by rw [I.doc]; exact h2)
    exact ⟨n, s', r, I.deleted D⟩

/-- all below a node go -/
theorem C86_children {s : Dom} {F : Forest} (I : Is s F) {p : Nat} (h : F.live p) :
    ∃ n s', (∀ k, n ≤ k → DeleteChildren k p s = .ok () s') ∧ Is s' (F.remove fun q => ∃ a ∈ F.K p, Below F.K q a) := by
  obtain ⟨n, s', r, D⟩ := delChildren I.wf (fun a _ => delNode I.wf a) (F.K p) s F.K [] (fun q x h => h) I.shows.out ((I.live p).mpr h) rfl
  exact ⟨n, s', r, I.deleted D⟩

/-- all nodes of a document go, the unlinked ones too; with the document itself if it is destroyed -/
theorem C86_document {s : Dom} {F : Forest} (I : Is s F) {d : Nat} (h : F.live d) (hd : F.doc d = d) :
    (∃ n s', (∀ k, n ≤ k → Clear k d s = .ok () s') ∧ Is s' (F.remove fun q => F.doc q = d ∧ q ≠ d)) ∧
    (∃ n s', (∀ k, n ≤ k → deleteDocument k d s = .ok () s') ∧ Is s' (F.remove fun q => F.doc q = d)) := by
  have h1 := clearDoc I.shows.out I.fewS I.acyclic ((I.live d).mpr h) (by rw [I.doc]; exact hd)
  have h2 := delDoc I.shows.out I.fewS I.acyclic ((I.live d).mpr h) (by rw [I.doc]; exact hd)
  rw [I.doc] at h1 h2
  obtain ⟨n1, s1, r1, D1⟩ := h1
  obtain ⟨n2, s2, r2, D2⟩ := h2
  exact ⟨⟨n1, s1, r1, I.deleted D1⟩, ⟨n2, s2, r2, I.deleted D2⟩⟩

/-- a node once deleted may not be used: undefined behaviour -/
theorem C86_dangling {s : Dom} {a : Nat} (h : s.live a = false) (k p : Nat) :
    InsertEndChild p a s = .ub .dangling ∧ docDeleteNode k a s = .ub .dangling := by
  have hr : ∀ {α : Type} (f : Dom → Nat → α), rd f (some a) s = .ub .dangling := by intro α f; simp [rd, h]
  constructor
  · unfold InsertEndChild; rw [M.bind_run, hr]
  · unfold docDeleteNode; rw [M.bind_run, hr]

/-- Deleting node 1 takes 2, 3 and 4 with it.  Clearing the document takes 5 too. -/
example : ∃ s F s₁ s₂ n, Is s F ∧ (∀ k, n ≤ k → DeleteChild k 0 (some 1) s = .ok () s₁) ∧ (∀ q, s₁.live q = true ↔ q = 0 ∨ q = 5 ∨ q = 6 ∨ q = 7) ∧
    (∀ k, n ≤ k → Clear k 0 s = .ok () s₂) ∧ (∀ q, s₂.live q = true ↔ q = 0 ∨ q = 6 ∨ q = 7) := by
  obtain ⟨s, F, I, e1, e2, e3⟩ := domIs
  obtain ⟨n1, s1, r1, I1⟩ := (C86_node I).1 0 1 (by rw [e1]; decide)
  obtain ⟨n2, s2, r2, I2⟩ := (C86_document I (d := 0) ((e2 0).mpr (by decide)) (by rw [e3]; rfl)).1
  refine ⟨s, F, s1, s2, n1 + n2, I, fun k hk => r1 k (by omega), fun q => ?_, fun k hk => r2 k (by omega), fun q => ?_⟩
  · rw [I1.live]
    show F.live q ∧ ¬ Below F.K q 1 ↔ _
    have b : Below F.K q 1 ↔ q = 1 ∨ q = 2 ∨ q = 3 ∨ q = 4 := by
      have leaf : ∀ a, 1 < a → (Below domK q a ↔ q = a) := by
        intro a ha
        rw [below_iff]
        have : domK a = [] := by unfold domK; rw [if_neg (by omega), if_neg (by omega)]
        simp [this]
      rw [e1, below_iff]
      have : domK 1 = [2, 3, 4] := rfl
      simp [this, leaf]
    rw [b, e2]; omega
  · rw [I2.live]
    show F.live q ∧ ¬ (F.doc q = 0 ∧ q ≠ 0) ↔ _
    rw [e2, e3]
    by_cases h : q = 6 ∨ q = 7
    · simp only [if_pos h]; omega
    · simp only [if_neg h, true_and, not_not]; omega

/-! ## C87: all programs that edit documents -/

/-- whatever calls a program makes in whatever order: no undefined behaviour, and the state is always the forest the calls describe -/
theorem C87_runs {ops : List DOp} {F : Forest} (h : Calls Forest.empty ops F) :
    ∃ n s, (∀ k, n ≤ k → execAll k ops nothing = .ok () s) ∧ Is s F := is_nothing.execAll h

/-- a single call from any such state, with the pointer it returns -/
theorem C87_call {s : Dom} {F : Forest} (I : Is s F) (op : DOp) (h : op.may F) :
    ∃ n s', (∀ k, n ≤ k → op.exec k s = .ok (op.step F).2 s') ∧ Is s' (op.step F).1 := I.exec op h

/-- when all documents are destroyed no node is left -/
theorem C87_no_leak {ops : List DOp} {F : Forest} (h : Calls Forest.empty ops F) (hd : ∀ d, F.live d → F.doc d ≠ d) : ∀ q, ¬ F.live q := by
  obtain ⟨n, s, _, I⟩ := C87_runs h
  intro q hq
  obtain ⟨h1, h2⟩ := I.doc_live hq
  exact hd _ h1 h2

example : ∃ F n s, Calls Forest.empty domCalls F ∧ (∀ k, n ≤ k → execAll k domCalls nothing = .ok () s) ∧ s.first 1 = some 2 ∧ s.next 3 = some 4 ∧ s.parent 4 = some 1 := by
  obtain ⟨F, h, e1, e2, e3⟩ := domRun
  obtain ⟨n, s, r, I⟩ := C87_runs h
  have S : Links s domK := e1 ▸ I.shows
  refine ⟨F, n, s, h, r, ?_, ?_, ?_⟩
  · exact (S.ends 1 ((I.live 1).mpr ((e2 1).mpr (by decide)))).1
  · exact (S.kid 1 3 (by decide)).2.2.2.1
  · exact (S.kid 1 4 (by decide)).2.1

/-- with the documents destroyed: nothing is left -/
example : ∃ F, Calls Forest.empty [.newDocument 0, .newNode 0 1, .newNode 0 2, .insertEnd 0 1, .deleteDocument 0] F ∧ ∀ q, ¬ F.live q := by
  have h : Calls Forest.empty [.newDocument 0, .newNode 0 1, .newNode 0 2, .insertEnd 0 1, .deleteDocument 0]
      ([DOp.newDocument 0, .newNode 0 1, .newNode 0 2, .insertEnd 0 1, .deleteDocument 0].foldl (fun F op => (op.step F).1) Forest.empty) := by
    refine .cons (by simp [DOp.may, Forest.empty]) ?_
    refine .cons (by simp [DOp.may, DOp.step, Forest.empty]) ?_
    refine .cons (by simp [DOp.may, DOp.step, Forest.empty, put]) ?_
    refine .cons (by simp [DOp.may, DOp.step, Forest.empty, put, not_below]) ?_
    refine .cons (by simp [DOp.may, DOp.step, Forest.empty, put, not_below]) ?_
    exact .nil
  refine ⟨_, h, C87_no_leak h ?_⟩
  intro d
  simp [DOp.step, Forest.empty, put, Forest.remove]

end Verif.Props
