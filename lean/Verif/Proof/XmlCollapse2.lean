import Verif.Proof.XmlCollapse1
/-! Collapsing white space in the tree: helper lemmas. -/
namespace Verif.Xml.InPlace
open Tec Spec

theorem Chain.move {b b' : Str} {xs ys : List Pair} {s s' : StrPair} {v v' : Str} {lo hi : Nat} (h : Chain b lo (xs ++ (s, v) :: ys) hi)
    (hf : Frame b b' s.start (s.stop + 1)) (h1 : s.start ≤ s'.start) (h2 : s'.stop = s.stop) (h3 : Holds b' s' v') : Chain b' lo (xs ++ (s', v') :: ys) hi := by
  obtain ⟨m, k1, k2, k3, k4⟩ := chain_append.1 h
  simp only [] at k2 k3 k4
  refine chain_append.2 ⟨m, k1.before hf k2, le_trans k2 h1, h3, ?_⟩
  simp only [h2]; exact k4.behind hf le_rfl

theorem answer_again {s : StrPair} (c : Bool) (h : s.flush = false) (v : Str) : answer c s v = v := by simp [answer, h]

theorem asksC_run {lo hi : Nat} : ∀ (ks : List Nat) {b : Str} {xs : List (Pair × Bool)}, Chain b lo (xs.map Prod.fst) hi → (∀ k ∈ ks, k < xs.length) →
    ∃ ps b', asksC (xs.map fun x => (x.1.1, x.2)) ks b = .ok (ps, ks.map fun k => (xs.map fun x => answer x.2 x.1.1 x.1.2).getD k []) b' := by
  intro ks
  induction ks with
  | nil => intro b xs h _; exact ⟨_, b, rfl⟩
  | cons k ks ih =>
    intro b xs h hk
    have hlt := hk k (by simp)
    obtain ⟨⟨⟨s, v⟩, c⟩, hsv⟩ : ∃ x, xs[k] = x := ⟨_, rfl⟩
    have hx : xs = xs.take k ++ ((s, v), c) :: xs.drop (k + 1) := by
      rw [← hsv, List.getElem_cons_drop, List.take_append_drop]
    have h' : Chain b lo ((xs.take k).map Prod.fst ++ (s, v) :: (xs.drop (k + 1)).map Prod.fst) hi := by
      have := h
      rw [hx, List.map_append, List.map_cons] at this
      exact this
    obtain ⟨s', b1, r1, r2, r3, r4, r5, r6⟩ := askC_run h'.holds c
    have hc := h'.move r6 r3 r4 r2
    have hm : (xs.take k).map Prod.fst ++ (s', answer c s v) :: (xs.drop (k + 1)).map Prod.fst = (xs.take k ++ ((s', answer c s v), c) :: xs.drop (k + 1)).map Prod.fst := by simp
    rw [hm] at hc
    obtain ⟨ps, b', q1⟩ := ih hc (fun k' hk' => by have := hk k' (by simp [hk']); simp; omega)
    have e1 : (xs.map fun x => (x.1.1, x.2))[k]? = some (s, c) := by simp [hlt, hsv]
    have e2 : (xs.map fun x => (x.1.1, x.2)).set k (s', c) = (xs.take k ++ ((s', answer c s v), c) :: xs.drop (k + 1)).map fun x => (x.1.1, x.2) := by
      conv_lhs => rw [hx]
      rw [List.map_append, List.map_append, List.map_cons, List.map_cons]
      rw [List.set_append_right _ _ (by simp)]
      simp [Nat.min_eq_left (Nat.le_of_lt hlt)]
    have e3 : (xs.take k ++ ((s', answer c s v), c) :: xs.drop (k + 1)).map (fun x => answer x.2 x.1.1 x.1.2) = xs.map fun x => answer x.2 x.1.1 x.1.2 := by
      conv_rhs => rw [hx]
      simp [answer_again c r5]
    refine ⟨ps, b', ?_⟩
    rw [asksC, e1]
    simp only []
    rw [M.bind_ok r1]
    simp only []
    rw [e2, M.bind_ok q1, e3]
    have e4 : (xs.map fun x => answer x.2 x.1.1 x.1.2).getD k [] = answer c s v := by
      rw [List.getD_eq_getElem?_getD, List.getElem?_map, List.getElem?_eq_getElem hlt, hsv]; rfl
    rw [List.map_cons, e4]
    rfl

/-! ## Texts are not asked for while reading -/

mutual
def Fresh : Tree StrPair → Prop
  | .elem _ _ cs => FreshAll cs
  | .text c s => c = false → s.flush = true
  | _ => True
def FreshAll : List (Tree StrPair) → Prop
  | [] => True
  | t :: ts => Fresh t ∧ FreshAll ts
end

theorem fresh_append (l m : List (Tree StrPair)) : FreshAll (l ++ m) ↔ FreshAll l ∧ FreshAll m := by
  induction l with
  | nil => simp [FreshAll]
  | cons t l ih => rw [List.cons_append, FreshAll, FreshAll, ih, and_assoc]

theorem fresh_snoc {l : List (Tree StrPair)} {t : Tree StrPair} (h : FreshAll l) (h' : Fresh t) : FreshAll (l ++ [t]) :=
  (fresh_append l [t]).2 ⟨h, by rw [FreshAll]; exact ⟨h', by rw [FreshAll]; trivial⟩⟩

theorem bind_inv {α β : Type} {m : B α} {k : α → B β} {b b' : Str} {r : β} (h : (m >>= k) b = .ok r b') : ∃ a b1, m b = .ok a b1 ∧ k a b1 = .ok r b' := by
  cases hm : m b with
  | ok a b1 => rw [M.bind_ok hm] at h; exact ⟨a, b1, rfl, h⟩
  | err e s => rw [M.bind_err hm] at h; cases h
  | ub u => rw [M.bind_ub hm] at h; cases h

theorem parseTextB_fresh {tag : Str} {ent : Bool} {p : Nat} {b b' : Str} {v : StrPair} {p' : Nat} (h : parseTextB tag ent p b = .ok (some (v, p')) b') : v.flush = true := by
  unfold parseTextB at h
  obtain ⟨f, b1, -, h⟩ := bind_inv h
  obtain ⟨r, b2, -, h⟩ := bind_inv h
  cases r with
  | none => injection h with h _; cases h
  | some e => injection h with h _; injection h with h; injection h with h _; rw [← h]

def EndedB.fresh : EndedB → Prop
  | .atEnd l => FreshAll l
  | .byTag l _ _ => FreshAll l
  | .failed _ => True

theorem parseNodesB_fresh : ∀ (f : Nat) {doc : Bool} {cs : List (Tree StrPair)} {p : Nat} {b b' : Str} {r : EndedB},
    parseNodesB f doc cs p b = .ok r b' → FreshAll cs → r.fresh := by
  intro f
  induction f with
  | zero => intro doc cs p b b' r h; cases h
  | succ f ih =>
    intro doc cs p b b' r h hc
    have fin : ∀ {x r : EndedB} {b b' : Str}, (pure x : B EndedB) b = .ok r b' → x.fresh → r.fresh := by
      intro x r b b' h hx; injection h with h _; exact h ▸ hx
    rw [parseNodesB] at h
    obtain ⟨c, b1, -, h⟩ := bind_inv h
    split at h
    · exact fin h hc
    obtain ⟨k, b2, -, h⟩ := bind_inv h
    split at h
    · exact fin h hc
    · obtain ⟨k, b3, -, h⟩ := bind_inv h
      split at h
      · exact fin h trivial
      · exact ih h (fresh_snoc hc (by rw [Fresh]; all_goals simp))
    · obtain ⟨k, b3, -, h⟩ := bind_inv h
      split at h
      · exact fin h trivial
      · split at h
        · exact ih h (fresh_snoc hc (by rw [Fresh]; all_goals simp))
        · obtain ⟨_, _, -, h⟩ := bind_inv h
          exact fin h trivial
    · obtain ⟨k, b3, -, h⟩ := bind_inv h
      split at h
      · exact fin h trivial
      · exact ih h (fresh_snoc hc (by rw [Fresh]; intro e; cases e))
    · obtain ⟨k, b3, -, h⟩ := bind_inv h
      split at h
      · exact fin h trivial
      · exact ih h (fresh_snoc hc (by rw [Fresh]; all_goals simp))
    · obtain ⟨k, b3, e, h⟩ := bind_inv h
      split at h
      · exact fin h trivial
      · obtain ⟨c, b4, -, h⟩ := bind_inv h
        split at h
        · exact fin h trivial
        · exact ih h (fresh_snoc hc (by rw [Fresh]; intro _; exact parseTextB_fresh e))
    · obtain ⟨k, b3, -, h⟩ := bind_inv h
      split at h
      · exact fin h trivial
      · exact fin h hc
      · exact ih h (fresh_snoc hc (by rw [Fresh, FreshAll]; trivial))
      · obtain ⟨c, b4, -, h⟩ := bind_inv h
        split at h
        · obtain ⟨_, _, -, h⟩ := bind_inv h
          exact fin h trivial
        · obtain ⟨k, b5, e, h⟩ := bind_inv h
          have hk := ih e (by rw [FreshAll]; trivial)
          split at h
          · exact fin h trivial
          · exact fin h trivial
          · obtain ⟨_, _, -, h⟩ := bind_inv h
            obtain ⟨_, _, -, h⟩ := bind_inv h
            obtain ⟨_, _, -, h⟩ := bind_inv h
            obtain ⟨_, _, -, h⟩ := bind_inv h
            split at h
            · exact ih h (fresh_snoc hc (by rw [Fresh]; exact hk))
            · obtain ⟨_, _, -, h⟩ := bind_inv h
              exact fin h trivial

theorem loadB_fresh {content : Str} {t : List (Tree StrPair)} {b' : Str} (h : loadB content = .ok (.ok t) b') : FreshAll t := by
  unfold loadB parseB at h
  obtain ⟨_, _, -, h⟩ := bind_inv h
  obtain ⟨_, _, -, h⟩ := bind_inv h
  obtain ⟨_, _, -, h⟩ := bind_inv h
  obtain ⟨_, _, -, h⟩ := bind_inv h
  split at h
  · injection h with h _; cases h
  · obtain ⟨r, _, e, h⟩ := bind_inv h
    have := parseNodesB_fresh _ e (by rw [FreshAll]; trivial)
    cases r with
    | atEnd l => injection h with h _; injection h with h; exact h ▸ this
    | byTag l n p => injection h with h _; injection h with h; exact h ▸ this
    | failed e => injection h with h _; cases h

/-! ## Trees of values -/

mutual
theorem marks_length {α : Type} : ∀ t : Tree α, t.marks.length = t.flat.length
  | .elem n as cs => by
    rw [Tree.marks, Tree.flat, List.length_cons, List.length_cons, List.length_append, List.length_append, marksAll_length cs]
    simp
  | .text _ _ => by rw [Tree.marks, Tree.flat]; rfl
  | .comment _ => by rw [Tree.marks, Tree.flat]; rfl
  | .decl _ => by rw [Tree.marks, Tree.flat]; rfl
  | .unknown _ => by rw [Tree.marks, Tree.flat]; rfl
theorem marksAll_length {α : Type} : ∀ l : List (Tree α), (marksAll l).length = (flatAll l).length
  | [] => by rw [marksAll, flatAll]; rfl
  | t :: l => by rw [marksAll, flatAll, List.length_append, List.length_append, marks_length t, marksAll_length l]
end

mutual
theorem marks_map {α β : Type} (f : α → β) : ∀ t : Tree α, (t.map f).marks = t.marks
  | .elem n as cs => by
    rw [Tree.map, Tree.marks, Tree.marks, marksAll_map f cs]
    simp [List.flatMap_map]
  | .text _ _ => by rw [Tree.map, Tree.marks, Tree.marks]
  | .comment _ => by rw [Tree.map, Tree.marks, Tree.marks]
  | .decl _ => by rw [Tree.map, Tree.marks, Tree.marks]
  | .unknown _ => by rw [Tree.map, Tree.marks, Tree.marks]
theorem marksAll_map {α β : Type} (f : α → β) : ∀ l : List (Tree α), marksAll (mapAll f l) = marksAll l
  | [] => by rw [mapAll, marksAll, marksAll]
  | t :: l => by rw [mapAll, marksAll, marksAll, marks_map f t, marksAll_map f l]
end

mutual
/-- the texts of elements changed -/
def Tree.coll : Tree Str → Tree Str
  | .elem n as cs => .elem n as (collAll cs)
  | .text c v => .text c (if c then v else collapse v)
  | .comment v => .comment v
  | .decl v => .decl v
  | .unknown v => .unknown v
def collAll : List (Tree Str) → List (Tree Str)
  | [] => []
  | t :: l => t.coll :: collAll l
end

mutual
theorem node_coll : ∀ t : Tree Str, t.coll.node = t.node.collapsed
  | .elem n as cs => by rw [Tree.coll, Tree.node, Tree.node, Node.collapsed, nodeAll_coll cs]
  | .text _ _ => by rw [Tree.coll, Tree.node, Tree.node, Node.collapsed]
  | .comment _ => by rw [Tree.coll, Tree.node, Node.collapsed] <;> simp
  | .decl _ => by rw [Tree.coll, Tree.node, Node.collapsed] <;> simp
  | .unknown _ => by rw [Tree.coll, Tree.node, Node.collapsed] <;> simp
theorem nodeAll_coll : ∀ l : List (Tree Str), nodeAll (collAll l) = collapsedAll (nodeAll l)
  | [] => by rw [collAll, nodeAll, collapsedAll]
  | t :: l => by rw [collAll, nodeAll, nodeAll, collapsedAll, node_coll t, nodeAll_coll l]
end

/-- a value, collapsed if it is marked -/
def pick (v : Str) (c : Bool) : Str := if c then collapse v else v

theorem pick_attrs (as : List (Str × Str)) : List.zipWith pick (as.flatMap fun a => [a.1, a.2]) (as.flatMap fun _ => [false, false]) = as.flatMap fun a => [a.1, a.2] := by
  induction as with
  | nil => rfl
  | cons a as ih =>
    rw [List.flatMap_cons, List.flatMap_cons]
    exact congrArg (fun l => a.1 :: a.2 :: l) ih

mutual
theorem flat_coll : ∀ t : Tree Str, t.coll.flat = List.zipWith pick t.flat t.marks
  | .elem n as cs => by
    rw [Tree.coll, Tree.flat, Tree.flat, Tree.marks, List.zipWith_cons_cons, List.zipWith_append (by simp), pick_attrs, flatAll_coll cs]; rfl
  | .text c v => by rw [Tree.coll, Tree.flat, Tree.flat, Tree.marks]; cases c <;> rfl
  | .comment _ => by rw [Tree.coll, Tree.flat, Tree.marks]; rfl
  | .decl _ => by rw [Tree.coll, Tree.flat, Tree.marks]; rfl
  | .unknown _ => by rw [Tree.coll, Tree.flat, Tree.marks]; rfl
theorem flatAll_coll : ∀ l : List (Tree Str), flatAll (collAll l) = List.zipWith pick (flatAll l) (marksAll l)
  | [] => by rw [collAll, flatAll]; rfl
  | t :: l => by rw [collAll, flatAll, flatAll, marksAll, List.zipWith_append (marks_length t).symm, flat_coll t, flatAll_coll l]
end

mutual
theorem shape_coll : ∀ t : Tree Str, t.coll.map (fun _ => ()) = t.map fun _ => ()
  | .elem n as cs => by rw [Tree.coll, Tree.map, Tree.map, shapeAll_coll cs]
  | .text _ _ => by rw [Tree.coll, Tree.map, Tree.map]
  | .comment _ => by rw [Tree.coll]
  | .decl _ => by rw [Tree.coll]
  | .unknown _ => by rw [Tree.coll]
theorem shapeAll_coll : ∀ l : List (Tree Str), mapAll (fun _ => ()) (collAll l) = mapAll (fun _ => ()) l
  | [] => by rw [collAll]
  | t :: l => by rw [collAll, mapAll, mapAll, shape_coll t, shapeAll_coll l]
end

theorem fresh_attrs (as : List (StrPair × StrPair)) : ∀ x ∈ (as.flatMap fun a => [a.1, a.2]).zip (as.flatMap fun _ => [false, false]), x.2 = false := by
  intro x hx
  have := (List.of_mem_zip hx).2
  rw [List.mem_flatMap] at this
  obtain ⟨_, _, h⟩ := this
  simpa using h

mutual
theorem fresh_zip : ∀ t : Tree StrPair, Fresh t → ∀ x ∈ t.flat.zip t.marks, x.2 = true → x.1.flush = true
  | .elem n as cs, h, x, hx, e => by
    rw [Fresh] at h
    rw [Tree.flat, Tree.marks, List.zip_cons_cons, List.zip_append (by simp), List.mem_cons, List.mem_append] at hx
    rcases hx with rfl | hx | hx
    · cases e
    · rw [fresh_attrs as x hx] at e; cases e
    · exact freshAll_zip cs h x hx e
  | .text c s, h, x, hx, e => by
    rw [Fresh] at h
    rw [Tree.flat, Tree.marks] at hx
    have hx : x ∈ [(s, !c)] := hx
    rw [List.mem_singleton] at hx
    subst hx
    exact h (by simpa using e)
  | .comment s, h, x, hx, e => by
    rw [Tree.flat, Tree.marks] at hx
    have hx : x ∈ [(s, false)] := hx
    rw [List.mem_singleton] at hx; subst hx; cases e
  | .decl s, h, x, hx, e => by
    rw [Tree.flat, Tree.marks] at hx
    have hx : x ∈ [(s, false)] := hx
    rw [List.mem_singleton] at hx; subst hx; cases e
  | .unknown s, h, x, hx, e => by
    rw [Tree.flat, Tree.marks] at hx
    have hx : x ∈ [(s, false)] := hx
    rw [List.mem_singleton] at hx; subst hx; cases e
theorem freshAll_zip : ∀ l : List (Tree StrPair), FreshAll l → ∀ x ∈ (flatAll l).zip (marksAll l), x.2 = true → x.1.flush = true
  | [], h, x, hx, e => by rw [flatAll, marksAll] at hx; cases hx
  | t :: l, h, x, hx, e => by
    rw [FreshAll] at h
    rw [flatAll, marksAll, List.zip_append (marks_length t).symm, List.mem_append] at hx
    rcases hx with hx | hx
    · exact fresh_zip t h.1 x hx e
    · exact freshAll_zip l h.2 x hx e
end

theorem zipWith_zip {α β γ : Type} (f : α → β → γ) : ∀ (l : List α) (m : List β), List.zipWith f l m = (l.zip m).map fun x => f x.1 x.2
  | [], _ => rfl
  | _ :: _, [] => rfl
  | a :: l, b :: m => by rw [List.zipWith_cons_cons, List.zip_cons_cons, List.map_cons, zipWith_zip f l m]

/-! ## Words -/

theorem split_white (r : Str) : ∀ w ∈ r.splitOnP wh, ∀ b ∈ w, ¬ White b := by
  induction r with
  | nil => intro w hw b hb; rw [List.splitOnP_nil] at hw; simp at hw; subst hw; cases hb
  | cons a r ih =>
    intro w hw b hb
    cases ha : isSpace a with
    | true =>
      rw [split_space ha] at hw
      rcases List.mem_cons.1 hw with rfl | hw
      · cases hb
      · exact ih w hw b hb
    | false =>
      obtain ⟨x, t, e⟩ := split_cons r
      rw [split_word ha r e] at hw
      rw [e] at ih
      rcases List.mem_cons.1 hw with rfl | hw
      · rcases List.mem_cons.1 hb with rfl | hb
        · intro h; rw [← isSpace_iff, ha] at h; cases h
        · exact ih x (by simp) b hb
      · exact ih w (by simp [hw]) b hb

/-- words have bytes and no white space -/
theorem words_are (s : Str) : ∀ w ∈ words s, w ≠ [] ∧ ∀ b ∈ w, ¬ White b := fun w hw =>
  ⟨by have := (List.mem_filter.1 hw).2; simpa using this, split_white s w (List.mem_filter.1 hw).1⟩

theorem split_before : ∀ (w : Str), (∀ b ∈ w, ¬ White b) → ∀ (r : Str), (w ++ 32 :: r).splitOnP wh = w :: r.splitOnP wh
  | [], _, r => split_space (by decide) r
  | c :: w, h, r => by
    have hc : isSpace c = false := by
      cases e : isSpace c with
      | false => rfl
      | true => exact (h c (by simp) ((isSpace_iff c).1 e)).elim
    exact split_word hc _ (split_before w (fun b hb => h b (by simp [hb])) r)

theorem split_last : ∀ (w : Str), (∀ b ∈ w, ¬ White b) → w.splitOnP wh = [w]
  | [], _ => List.splitOnP_nil
  | c :: w, h => by
    have hc : isSpace c = false := by
      cases e : isSpace c with
      | false => rfl
      | true => exact (h c (by simp) ((isSpace_iff c).1 e)).elim
    exact split_word hc _ (split_last w fun b hb => h b (by simp [hb]))

theorem words_join : ∀ (W : List Str), (∀ w ∈ W, w ≠ [] ∧ ∀ b ∈ w, ¬ White b) → words ([32].intercalate W) = W
  | [], _ => rfl
  | [w], h => by
    show (([32].intercalate [w]).splitOnP wh).filter _ = [w]
    have : [32].intercalate [w] = w := by simp [List.intercalate]
    rw [this, split_last w (h w (by simp)).2]
    simp [(h w (by simp)).1]
  | w :: x :: W, h => by
    have e : [32].intercalate (w :: x :: W) = w ++ 32 :: [32].intercalate (x :: W) := by simp [List.intercalate]
    have ih : (([32].intercalate (x :: W)).splitOnP wh).filter (· ≠ []) = x :: W := words_join (x :: W) fun y hy => h y (by simp [hy])
    show (([32].intercalate (w :: x :: W)).splitOnP wh).filter (· ≠ []) = _
    rw [e, split_before w (h w (by simp)).2, List.filter_cons_of_pos (by simpa using (h w (by simp)).1), ih]

end Verif.Xml.InPlace
