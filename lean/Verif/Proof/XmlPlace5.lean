import Verif.Proof.XmlPlace4
/-! Reading the nodes inside the buffer: helper lemmas. -/
namespace Verif.Xml.InPlace
open Tec

theorem mapAll_append {α β : Type} (f : α → β) (xs ys : List (Tree α)) : mapAll f (xs ++ ys) = mapAll f xs ++ mapAll f ys := by
  induction xs with
  | nil => rfl
  | cons x xs ih => simp [mapAll, ih]

theorem flatAll_append {α : Type} (xs ys : List (Tree α)) : flatAll (xs ++ ys) = flatAll xs ++ flatAll ys := by
  induction xs with
  | nil => rfl
  | cons x xs ih => simp [flatAll, ih]

theorem nodeAll_append (xs ys : List (Tree Str)) : nodeAll (xs ++ ys) = nodeAll xs ++ nodeAll ys := by
  induction xs with
  | nil => rfl
  | cons x xs ih => simp [nodeAll, ih]

def ptrs (T : List (Tree Pair)) : List (Tree StrPair) := mapAll Prod.fst T
def nodes (T : List (Tree Pair)) : List Node := nodeAll (mapAll Prod.snd T)

theorem ptrs_snoc (T : List (Tree Pair)) (t : Tree Pair) : ptrs (T ++ [t]) = ptrs T ++ [t.map Prod.fst] := by simp [ptrs, mapAll_append, mapAll]
theorem nodes_snoc (T : List (Tree Pair)) (t : Tree Pair) : nodes (T ++ [t]) = nodes T ++ [(t.map Prod.snd).node] := by
  simp [nodes, mapAll_append, nodeAll_append, mapAll, nodeAll]
theorem flat_snoc (T : List (Tree Pair)) (t : Tree Pair) : flatAll (T ++ [t]) = flatAll T ++ t.flat := by simp [flatAll_append, flatAll]

theorem decl_same (T : List (Tree Pair)) : (ptrs T).all Tree.isDecl = (nodes T).all Node.isDecl := by
  induction T with
  | nil => rfl
  | cons t T ih =>
    have e1 : ptrs (t :: T) = t.map Prod.fst :: ptrs T := rfl
    have e2 : nodes (t :: T) = (t.map Prod.snd).node :: nodes T := rfl
    rw [e1, e2, List.all_cons, List.all_cons, ih]
    congr 1
    cases t <;> simp [Tree.map, Tree.node, Tree.isDecl, Node.isDecl]

/-! ## The kind of the next node -/

theorem skip_head {l : Str} (h : l.head? = some 60) : skipSpace l = l := by
  cases l with
  | nil => rfl
  | cons c l => simp at h; subst h; exact skipSpace_cons (by decide) l

theorem identifyB_run {b : Str} {E p : Nat} {l : Str} (h : At b E p l) :
    match identify l with
    | none => identifyB p b = .ok none b
    | some (k, q) => ∃ p', identifyB p b = .ok (some (k, p')) b ∧ At b E p' q ∧
        ((k = .text ∧ p' = p ∧ q = l ∧ l.head? ≠ some 60) ∨ (k ≠ .text ∧ p < p')) := by
  obtain ⟨p1, k1, k2, k3⟩ := skip_run h (f := b.length + 1) (by have := h.fuel; omega)
  generalize hX : identifyB p b = X
  have step := hX.symm
  rw [identifyB, bind_rounds, M.bind_ok k1, bind_rd k2.get] at step
  rw [identify]
  by_cases hl : skipSpace l = []
  · rw [if_pos (k2.zero.2 hl)] at step
    simp only [if_pos hl]
    exact step
  rw [if_neg (fun x => hl (k2.zero.1 x))] at step
  simp only [if_neg hl]
  rw [M.bind_ok (equalAt_run (by decide) k2)] at step
  cases h1 : strip (lit "<?") (skipSpace l) with
  | some r =>
    rw [h1, if_pos (by rfl)] at step
    exact ⟨_, step, k2.strip h1, .inr ⟨by simp, by omega⟩⟩
  | none =>
  rw [h1, if_neg (by simp), M.bind_ok (equalAt_run (by decide) k2)] at step
  simp only []
  cases h2 : strip (lit "<!--") (skipSpace l) with
  | some r =>
    rw [h2, if_pos (by rfl)] at step
    exact ⟨_, step, k2.strip h2, .inr ⟨by simp, by omega⟩⟩
  | none =>
  rw [h2, if_neg (by simp), M.bind_ok (equalAt_run (by decide) k2)] at step
  simp only []
  cases h3 : strip (lit "<![CDATA[") (skipSpace l) with
  | some r =>
    rw [h3, if_pos (by rfl)] at step
    exact ⟨_, step, k2.strip h3, .inr ⟨by simp, by omega⟩⟩
  | none =>
  rw [h3, if_neg (by simp), M.bind_ok (equalAt_run (by decide) k2)] at step
  simp only []
  cases h4 : strip (lit "<!") (skipSpace l) with
  | some r =>
    rw [h4, if_pos (by rfl)] at step
    exact ⟨_, step, k2.strip h4, .inr ⟨by simp, by omega⟩⟩
  | none =>
  rw [h4, if_neg (by simp), M.bind_ok (equalAt_run (by decide) k2)] at step
  simp only []
  cases h5 : strip (lit "<") (skipSpace l) with
  | some r =>
    rw [h5, if_pos (by rfl)] at step
    exact ⟨_, step, k2.strip h5, .inr ⟨by simp, by omega⟩⟩
  | none =>
  rw [h5, if_neg (by simp)] at step
  refine ⟨_, step, h, .inl ⟨rfl, rfl, rfl, fun hh => ?_⟩⟩
  rw [skip_head hh] at h5
  cases l with
  | nil => simp at hh
  | cons c l => simp at hh; subst hh; rw [show lit "<" = [60] by decide] at h5; simp [strip] at h5

/-! ## Nodes -/

/-- the state of the loop of `XMLNode::ParseDeep`: the nodes so far stand between `lo` and `p`; the NUL of a text that is not decoded
yet may come to stand on the `<` at `p` -/
structure Before (b : Str) (lo p : Nat) (l : Str) (T : List (Tree Pair)) : Prop where
  chain : ∃ m, Chain b lo (flatAll T) m ∧ (m ≤ p ∨ m = p + 1 ∧ l.head? = some 60)
  top : ∀ x ∈ flatAll T, x.1.top ≤ p
  lo : lo ≤ p

/-- one node more -/
theorem Before.add {b b' : Str} {lo p p1 p' : Nat} {l r : Str} {T : List (Tree Pair)} (h : Before b lo p l T) {t : Tree Pair} (hf : Frame b b' p p')
    (hp1 : p < p1 ∨ p = p1 ∧ l.head? ≠ some 60) (hc : Chain b' p1 t.flat p') : Before b' lo p' r (T ++ [t]) := by
  obtain ⟨m, h1, h2⟩ := h.chain
  have h1' : Chain b' lo (flatAll T) m := h1.frame hf fun x hx => .inl (h.top x hx)
  have hm : m ≤ p1 := by
    rcases h2 with h2 | ⟨h2, h3⟩
    · omega
    · rcases hp1 with h4 | ⟨h4, h5⟩
      · omega
      · exact absurd h3 h5
  have hle := hc.le
  refine ⟨⟨p', ?_, .inl le_rfl⟩, ?_, by have := h.lo; omega⟩
  · rw [flat_snoc]; exact chain_append.2 ⟨m, h1', hc.mono hm le_rfl⟩
  · rw [flat_snoc]
    intro x hx
    rcases List.mem_append.1 hx with hx | hx
    · have := h.top x hx; omega
    · have := hc.mem hx; have := x.1.top_le; omega

/-- a leaf that is cut out of the text -/
theorem Before.leaf {b : Str} {E lo p p1 : Nat} {l q v r : Str} {T : List (Tree Pair)} (h : Before b lo p l T) (hp1 : p < p1) (ha : At b E p1 q) {tag : Str} (ht : tag ≠ [])
    (ent : Bool) (hp : parseText tag q = some (v, r)) {t : Tree Pair} (ht' : t.flat = [(⟨p1, p1 + v.length, true, ent, true⟩, value ent v)]) :
    Before b lo (p1 + v.length + tag.length) r (T ++ [t]) := by
  refine h.add (.refl ..) (.inl hp1) (p1 := p1) ?_
  rw [ht']
  have := List.length_pos_iff.2 ht
  exact ⟨le_rfl, cut_text ha ent hp, show p1 + v.length + 1 ≤ _ by omega⟩

theorem Before.text {b : Str} {E lo p : Nat} {l v r : Str} {T : List (Tree Pair)} (h : Before b lo p l T) (hl : l.head? ≠ some 60) (ha : At b E p l)
    (hp : parseText [60] l = some (v, r)) :
    Before b lo (p + v.length) (60 :: r) (T ++ [.text false (⟨p, p + v.length, true, true, true⟩, value true v)]) := by
  obtain ⟨m, h1, h2⟩ := h.chain
  have hm : m ≤ p := by
    rcases h2 with h2 | ⟨-, h2⟩
    · exact h2
    · exact absurd h2 hl
  refine ⟨⟨p + v.length + 1, ?_, .inr ⟨rfl, rfl⟩⟩, ?_, by have := h.lo; omega⟩
  · rw [flat_snoc]
    exact chain_append.2 ⟨m, h1, ⟨hm, cut_text ha true hp, le_rfl⟩⟩
  · rw [flat_snoc]
    intro x hx
    rcases List.mem_append.1 hx with hx | hx
    · have := h.top x hx; omega
    · simp [Tree.flat] at hx
      subst hx
      simp [StrPair.top]

/-- what is known after the children of a node -/
def Reads (b : Str) (E lo p : Nat) (X : Res Str EndedB) : Ended → Prop
  | .failed e => ∃ b', X = .ok (.failed e) b'
  | .atEnd cs => ∃ b' T m, X = .ok (.atEnd (ptrs T)) b' ∧ nodes T = cs ∧ Chain b' lo (flatAll T) m
  | .byTag cs n r => ∃ b' T N p', X = .ok (.byTag (ptrs T) N p') b' ∧ nodes T = cs ∧ At b' E p' r ∧ Chain b' lo (flatAll T ++ [(N, n)]) p' ∧
      Frame b b' p p' ∧ p < p'

theorem Reads.later {b b1 : Str} {E lo p p1 : Nat} {X : Res Str EndedB} {r : Ended} (h : Reads b1 E lo p1 X r) (hf : Frame b b1 p p1) (hp : p ≤ p1) : Reads b E lo p X r := by
  cases r with
  | failed e => exact h
  | atEnd cs => exact h
  | byTag cs n r =>
    obtain ⟨b', T, N, p', h1, h2, h3, h4, h5, h6⟩ := h
    exact ⟨b', T, N, p', h1, h2, h3, h4, (hf.mono le_rfl (by omega)).trans (h5.mono hp le_rfl), by omega⟩

theorem nodes_run {E : Nat} : ∀ (f : Nat) {g : Nat} {doc : Bool} {T : List (Tree Pair)} {b l : Str} {lo p : Nat}, At b E p l → Before b lo p l T → l.length ≤ f → l.length < g →
    Reads b E lo p (parseNodesB g doc (ptrs T) p b) (parseNodes f doc (nodes T) l) := by
  intro f
  induction f with
  | zero =>
    intro g doc T b l lo p h hB hf hg
    obtain rfl : l = [] := List.length_eq_zero_iff.1 (by omega)
    cases g with
    | zero => omega
    | succ g =>
      obtain ⟨m, h1, -⟩ := hB.chain
      refine ⟨b, T, m, ?_, rfl, h1⟩
      rw [parseNodesB, bind_rd h.nil, if_pos rfl]; rfl
  | succ f ih =>
    intro g doc T b l lo p h hB hf hg
    cases g with
    | zero => omega
    | succ g =>
    generalize hX : parseNodesB (g + 1) doc (ptrs T) p b = X
    have step := hX.symm
    rw [parseNodesB, bind_rd h.get] at step
    have hid := identifyB_run h
    rw [parseNodes]
    have fin : ∀ {b1 r : Str} {p1 : Nat} {T1 : List (Tree Pair)}, X = parseNodesB g doc (ptrs T1) p1 b1 → At b1 E p1 r → Before b1 lo p1 r T1 → Frame b b1 p p1 → p < p1 →
        Reads b E lo p X (parseNodes f doc (nodes T1) r) := by
      intro b1 r p1 T1 e a1 B1 F1 hp
      have e1 := a1.pos; have e2 := h.pos
      exact e ▸ (ih a1 B1 (by omega) (by omega)).later F1 (by omega)
    by_cases hl : l = []
    · obtain ⟨m, h1, -⟩ := hB.chain
      subst hl
      rw [if_pos (h.zero.2 rfl)] at step
      exact ⟨b, T, m, step, rfl, h1⟩
    rw [if_neg (fun x => hl (h.zero.1 x))] at step
    cases hi : identify l with
    | none =>
      rw [hi] at hid
      obtain ⟨m, h1, -⟩ := hB.chain
      rw [M.bind_ok hid] at step
      exact ⟨b, T, m, step, rfl, h1⟩
    | some x =>
      obtain ⟨k, q⟩ := x
      rw [hi] at hid
      obtain ⟨p1, i1, i2, i3⟩ := hid
      rw [M.bind_ok i1] at step
      cases k with
      | comment =>
        have hp1 : p < p1 := by rcases i3 with ⟨e, -⟩ | ⟨-, e⟩ <;> [cases e; exact e]
        simp only [] at step ⊢
        rw [M.bind_ok (parseTextB_run i2 (by decide) false)] at step
        cases hp : parseText (lit "-->") q with
        | none => rw [hp] at step; exact ⟨b, step⟩
        | some y =>
          obtain ⟨v, r⟩ := y
          rw [hp] at step
          simp only [Option.map_some] at step ⊢
          have := fin (T1 := T ++ [.comment (⟨p1, p1 + v.length, true, false, true⟩, value false v)]) (by rw [ptrs_snoc]; exact step) (i2.cut hp)
            (hB.leaf hp1 i2 (by decide) false hp rfl) (.refl ..) (by omega)
          rw [nodes_snoc] at this
          exact this
      | decl =>
        have hp1 : p < p1 := by rcases i3 with ⟨e, -⟩ | ⟨-, e⟩ <;> [cases e; exact e]
        simp only [] at step ⊢
        rw [M.bind_ok (parseTextB_run i2 (by decide) false)] at step
        cases hp : parseText (lit "?>") q with
        | none => rw [hp] at step; exact ⟨b, step⟩
        | some y =>
          obtain ⟨v, r⟩ := y
          rw [hp] at step
          simp only [Option.map_some] at step ⊢
          rw [decl_same] at step
          by_cases hd : (doc && (nodes T).all Node.isDecl) = true
          · rw [if_pos hd] at step ⊢
            have := fin (T1 := T ++ [.decl (⟨p1, p1 + v.length, true, false, true⟩, value false v)]) (by rw [ptrs_snoc]; exact step) (i2.cut hp)
              (hB.leaf hp1 i2 (by decide) false hp rfl) (.refl ..) (by omega)
            rw [nodes_snoc] at this
            exact this
          · rw [if_neg hd] at step ⊢
            obtain ⟨s', b', a1, -⟩ := ask_run (cut_text i2 false hp)
            rw [M.bind_ok a1] at step
            exact ⟨b', step⟩
      | cdata =>
        have hp1 : p < p1 := by rcases i3 with ⟨e, -⟩ | ⟨-, e⟩ <;> [cases e; exact e]
        simp only [] at step ⊢
        rw [M.bind_ok (parseTextB_run i2 (by decide) false)] at step
        cases hp : parseText (lit "]]>") q with
        | none => rw [hp] at step; exact ⟨b, step⟩
        | some y =>
          obtain ⟨v, r⟩ := y
          rw [hp] at step
          simp only [Option.map_some] at step ⊢
          have := fin (T1 := T ++ [.text true (⟨p1, p1 + v.length, true, false, true⟩, value false v)]) (by rw [ptrs_snoc]; exact step) (i2.cut hp)
            (hB.leaf hp1 i2 (by decide) false hp rfl) (.refl ..) (by omega)
          rw [nodes_snoc] at this
          exact this
      | unknown =>
        have hp1 : p < p1 := by rcases i3 with ⟨e, -⟩ | ⟨-, e⟩ <;> [cases e; exact e]
        simp only [] at step ⊢
        rw [M.bind_ok (parseTextB_run i2 (by decide) false)] at step
        cases hp : parseText (lit ">") q with
        | none => rw [hp] at step; exact ⟨b, step⟩
        | some y =>
          obtain ⟨v, r⟩ := y
          rw [hp] at step
          simp only [Option.map_some] at step ⊢
          have := fin (T1 := T ++ [.unknown (⟨p1, p1 + v.length, true, false, true⟩, value false v)]) (by rw [ptrs_snoc]; exact step) (i2.cut hp)
            (hB.leaf hp1 i2 (by decide) false hp rfl) (.refl ..) (by omega)
          rw [nodes_snoc] at this
          exact this
      | text =>
        obtain ⟨rfl, rfl, hhead⟩ : p1 = p ∧ q = l ∧ l.head? ≠ some 60 := by
          rcases i3 with ⟨-, e⟩ | ⟨e, -⟩
          · exact e
          · exact absurd rfl e
        simp only [] at step ⊢
        rw [show lit "<" = [60] by decide] at step ⊢
        rw [M.bind_ok (parseTextB_run i2 (by decide) true)] at step
        cases hp : parseText [60] q with
        | none => rw [hp] at step; exact ⟨b, step⟩
        | some y =>
          obtain ⟨v, r⟩ := y
          rw [hp] at step
          simp only [Option.map_some] at step ⊢
          have hcut := i2.cut hp
          rw [bind_rd hcut.get] at step
          by_cases hr : r = []
          · rw [if_pos (hcut.zero.2 hr)] at step
            rw [if_pos hr]
            exact ⟨b, step⟩
          · rw [if_neg (fun x => hr (hcut.zero.1 x))] at step
            rw [if_neg hr]
            have e := parseText_split hp
            have hv : v ≠ [] := by
              rintro rfl
              rw [e] at hhead
              simp at hhead
            have hvl := List.length_pos_iff.2 hv
            have hat : At b E (p1 + v.length) (60 :: r) := by
              rw [e] at i2; exact i2.app
            have := fin (T1 := T ++ [.text false (⟨p1, p1 + v.length, true, true, true⟩, value true v)]) (p1 := p1 + v.length) (by rw [ptrs_snoc]; exact step) hat
              (hB.text hhead i2 hp) (.refl ..) (by omega)
            rw [nodes_snoc] at this
            exact this
      | elem =>
        have hp1 : p < p1 := by rcases i3 with ⟨e, -⟩ | ⟨-, e⟩ <;> [cases e; exact e]
        simp only [] at step ⊢
        have ht := parseTagB_run i2
        cases hp : parseTag q with
        | error e =>
          rw [hp] at ht
          obtain ⟨b', t⟩ := ht
          rw [M.bind_ok t] at step
          exact ⟨b', step⟩
        | ok y =>
          obtain ⟨n, as, cl, r⟩ := y
          rw [hp] at ht
          obtain ⟨b1, N, A, p2, t1, t2, t3, t4, t5, t6⟩ := ht
          rw [M.bind_ok t1] at step
          subst t2
          have hF : Frame b b1 p p2 := t5.mono (by omega) le_rfl
          cases cl with
          | closing =>
            simp only [] at step ⊢
            obtain ⟨m, h1, h2⟩ := hB.chain
            have h1' : Chain b1 lo (flatAll T) m := h1.frame hF fun x hx => .inl (hB.top x hx)
            refine ⟨b1, T, N, p2, step, rfl, t3, ?_, hF, by omega⟩
            refine chain_append.2 ⟨m, h1', ?_, t4.2.1, (t4.2.2.le)⟩
            have := t4.1
            simp only [] at this ⊢
            omega
          | closed =>
            simp only [] at step ⊢
            have := fin (T1 := T ++ [.elem (N, n) A []]) (by rw [ptrs_snoc]; exact step) t3
              (hB.add (r := r) (t := .elem (N, n) A []) hF (.inl hp1) (by simpa [Tree.flat, flatAll, attrFlat] using t4)) hF (by omega)
            rw [nodes_snoc] at this
            exact this
          | opened =>
            simp only [] at step ⊢
            rw [bind_rd t3.get] at step
            by_cases hr : r = []
            · rw [if_pos (t3.zero.2 hr)] at step
              rw [if_pos hr]
              obtain ⟨s', b', a1, -⟩ := ask_run t4.2.1
              rw [M.bind_ok a1] at step
              exact ⟨b', step⟩
            · rw [if_neg (fun x => hr (t3.zero.1 x))] at step
              rw [if_neg hr]
              have e1 := t3.pos; have e2 := h.pos
              have hin := ih (g := g) (doc := false) (T := []) (b := b1) (lo := p2) t3 ⟨⟨p2, le_refl _, .inl le_rfl⟩, by simp [flatAll], le_rfl⟩ (by omega) (by omega)
              change Reads b1 E p2 p2 (parseNodesB g false [] p2 b1) (parseNodes f false [] r) at hin
              cases hres : parseNodes f false [] r with
              | failed e =>
                rw [hres] at hin
                obtain ⟨b', t⟩ := hin
                rw [M.bind_ok t] at step
                exact ⟨b', step⟩
              | atEnd cs =>
                rw [hres] at hin
                obtain ⟨b', T', m, t, -⟩ := hin
                rw [M.bind_ok t] at step
                exact ⟨b', step⟩
              | byTag ks mm r' =>
                rw [hres] at hin
                obtain ⟨b2, K, M', p3, s1, s2, s3, s4, s5, s6⟩ := hin
                rw [M.bind_ok s1] at step
                simp only [] at step ⊢
                subst s2
                have c1 : Chain b2 p1 ((N, n) :: attrFlat A ++ flatAll K ++ [(M', mm)]) p3 := by
                  rw [List.append_assoc]
                  exact chain_append.2 ⟨p2, t4.before s5 le_rfl, s4⟩
                obtain ⟨M1, b3, u1, u2, u3, u4, u5, u6⟩ := c1.getStr (ys := [])
                have hM := c1.mem (x := (M', mm)) (by simp)
                have hN := c1.mem (x := (N, n)) (by simp)
                simp only [] at hM hN
                have u2' : Chain b3 p1 ([] ++ (N, n) :: (attrFlat A ++ flatAll K ++ [(M1, mm)])) p3 := by
                  simpa using u2
                obtain ⟨N1, b4, w1, w2, w3, w4, w5, w6⟩ := u2'.getStr
                have hM1 := (w2.mem (x := (M1, mm)) (by simp)).2.2
                have hN1 := (w2.mem (x := (N1, n)) (by simp)).2.2
                rw [M.bind_ok u1, M.bind_ok w1, bind_rounds, M.bind_ok (eqPair_run hM1 hN1 u5 w5)] at step
                have hMp := hM.2.2.le
                have hNp := hN.2.2.le
                have F4 : Frame b b4 p p3 := ((hF.mono le_rfl (by omega)).trans (s5.mono (by omega) le_rfl)).trans
                  ((u6.mono (by omega) (by omega)).trans (w6.mono (by omega) (by omega)))
                by_cases e : mm = n
                · rw [if_pos (by simpa using e)] at step
                  rw [if_pos e]
                  have hat : At b4 E p3 r' := w6.at (by omega) (u6.at (by omega) s3)
                  have hch : Chain b4 p1 (Tree.elem (N1, n) A K).flat p3 := by
                    have : Chain b4 p1 ((N1, n) :: (attrFlat A ++ flatAll K) ++ [(M1, mm)]) p3 := by simpa using w2
                    obtain ⟨m, g1, g2⟩ := chain_append.1 this
                    exact g1.mono le_rfl g2.le
                  have := fin (T1 := T ++ [.elem (N1, n) A K]) (by rw [ptrs_snoc]; exact step) hat (hB.add (r := r') F4 (.inl hp1) hch) F4 (by omega)
                  rw [nodes_snoc] at this
                  exact this
                · rw [if_neg (by simpa using e)] at step
                  rw [if_neg e]
                  obtain ⟨s', b', a1, -⟩ := ask_run hN1
                  rw [M.bind_ok a1] at step
                  exact ⟨b', step⟩

/-! ## Documents -/

theorem seg_self (b : Str) : Seg b 0 b := seg_iff.2 fun i hi => by simp

theorem at_start (content : Str) : At (content ++ [0]) (cstr content).length 0 (cstr content) := by
  have := seg_append.1 (cstr_seg (seg_self (content ++ [0])))
  refine ⟨by simp, this.1, by simpa using this.2.1, (cstr_get content).2⟩

theorem load_run (content : Str) :
    match parse content with
    | .error e => ∃ b', loadB content = .ok (.error e) b'
    | .ok ns => ∃ b' T m, loadB content = .ok (.ok (ptrs T)) b' ∧ nodes T = ns ∧ Chain b' 0 (flatAll T) m := by
  have h := at_start content
  generalize hX : loadB content = X
  have step := hX.symm
  obtain ⟨p1, k1, k2, k3⟩ := skip_run h (f := (content ++ [0]).length + 1) (by have := h.fuel; omega)
  rw [loadB, parseB, bind_rounds, M.bind_ok k1] at step
  have hbom : readBOM p1 (content ++ [0]) = .ok (if (strip [0xEF, 0xBB, 0xBF] (skipSpace (cstr content))).isSome = true then p1 + 3 else p1) (content ++ [0]) := by
    rw [readBOM, M.bind_ok (equalAt_run (by decide) k2)]; rfl
  rw [M.bind_ok hbom] at step
  rw [parse]
  obtain ⟨p2, e2, a2⟩ : ∃ p2, (if (strip [0xEF, 0xBB, 0xBF] (skipSpace (cstr content))).isSome = true then p1 + 3 else p1) = p2 ∧
      At (content ++ [0]) (cstr content).length p2 ((strip [0xEF, 0xBB, 0xBF] (skipSpace (cstr content))).getD (skipSpace (cstr content))) := by
    cases hs : strip [0xEF, 0xBB, 0xBF] (skipSpace (cstr content)) with
    | none => exact ⟨p1, rfl, k2⟩
    | some r => exact ⟨p1 + 3, rfl, k2.strip hs⟩
  rw [e2, bind_rd a2.get] at step
  generalize (strip [0xEF, 0xBB, 0xBF] (skipSpace (cstr content))).getD (skipSpace (cstr content)) = l at a2 step ⊢
  by_cases hl : l = []
  · rw [if_pos (a2.zero.2 hl)] at step
    rw [if_pos hl]
    exact ⟨_, step⟩
  · rw [if_neg (fun x => hl (a2.zero.1 x))] at step
    rw [if_neg hl]
    have := nodes_run l.length (g := (content ++ [0]).length + 1) (doc := true) (T := []) (lo := p2) a2 ⟨⟨p2, le_refl _, .inl le_rfl⟩, by simp [flatAll], le_rfl⟩ le_rfl
      (by have := a2.fuel; omega)
    change Reads _ _ p2 p2 (parseNodesB _ true [] p2 _) (parseNodes l.length true [] l) at this
    cases hres : parseNodes l.length true [] l with
    | failed e =>
      rw [hres] at this
      obtain ⟨b', t⟩ := this
      rw [M.bind_ok t] at step
      exact ⟨b', step⟩
    | atEnd cs =>
      rw [hres] at this
      obtain ⟨b', T, m, t, s1, s2⟩ := this
      rw [M.bind_ok t] at step
      exact ⟨b', T, m, step, s1, s2.mono (Nat.zero_le _) le_rfl⟩
    | byTag cs n r =>
      rw [hres] at this
      obtain ⟨b', T, N, p', t, s1, s2, s3, -⟩ := this
      rw [M.bind_ok t] at step
      obtain ⟨m, s4, -⟩ := chain_append.1 s3
      exact ⟨b', T, m, step, s1, s4.mono (Nat.zero_le _) le_rfl⟩

/-! ## Asking for names and values -/

theorem asks_run {lo hi : Nat} : ∀ (ks : List Nat) {b : Str} {xs : List Pair}, Chain b lo xs hi → (∀ k ∈ ks, k < xs.length) →
    ∃ xs' b', asks (xs.map Prod.fst) ks b = .ok (xs'.map Prod.fst, ks.map fun k => (xs.map Prod.snd).getD k []) b' ∧ xs'.map Prod.snd = xs.map Prod.snd ∧
      Chain b' lo xs' hi := by
  intro ks
  induction ks with
  | nil => intro b xs h _; exact ⟨xs, b, rfl, rfl, h⟩
  | cons k ks ih =>
    intro b xs h hk
    have hlt := hk k (by simp)
    obtain ⟨⟨s, v⟩, hsv⟩ : ∃ x, xs[k] = x := ⟨_, rfl⟩
    have hx : xs = xs.take k ++ (s, v) :: xs.drop (k + 1) := by
      rw [← hsv, List.getElem_cons_drop, List.take_append_drop]
    have h' : Chain b lo (xs.take k ++ (s, v) :: xs.drop (k + 1)) hi := hx ▸ h
    obtain ⟨s', b1, r1, r2, r3, r4, r5, r6⟩ := ask_run h'.holds
    have hc := h'.set r6 r3 r4 r2
    obtain ⟨xs', b', q1, q2, q3⟩ := ih hc (fun k' hk' => by have := hk k' (by simp [hk']); simp; omega)
    have e1 : (xs.map Prod.fst)[k]? = some s := by simp [hlt, hsv]
    have e2 : (xs.map Prod.fst).set k s' = (xs.take k ++ (s', v) :: xs.drop (k + 1)).map Prod.fst := by
      conv_lhs => rw [hx]
      rw [List.map_append, List.map_append, List.map_cons, List.map_cons]
      rw [List.set_append_right _ _ (by simp)]
      simp [Nat.min_eq_left (Nat.le_of_lt hlt)]
    have e3 : (xs.take k ++ (s', v) :: xs.drop (k + 1)).map Prod.snd = xs.map Prod.snd := by
      conv_rhs => rw [hx]
      simp
    refine ⟨xs', b', ?_, q2.trans e3, q3⟩
    rw [asks, e1]
    simp only []
    rw [M.bind_ok r1]
    simp only []
    rw [e2, M.bind_ok q1, e3]
    simp [hlt, hsv]

theorem flat_map {α β : Type} (f : α → β) : (∀ t : Tree α, (t.map f).flat = t.flat.map f) ∧ ∀ ts : List (Tree α), flatAll (mapAll f ts) = (flatAll ts).map f := by
  refine ⟨fun t => ?_, fun ts => ?_⟩
  · exact Tree.rec (motive_1 := fun t => (t.map f).flat = t.flat.map f) (motive_2 := fun ts => flatAll (mapAll f ts) = (flatAll ts).map f)
      (fun n as cs ih => by simp [Tree.map, Tree.flat, ih, List.flatMap_map, List.map_flatMap]) (fun _ _ => rfl) (fun _ => rfl) (fun _ => rfl) (fun _ => rfl) rfl
      (fun t ts h1 h2 => by simp [mapAll, flatAll, h1, h2]) t
  · induction ts with
    | nil => rfl
    | cons t ts ih =>
      have : (t.map f).flat = t.flat.map f :=
        Tree.rec (motive_1 := fun t => (t.map f).flat = t.flat.map f) (motive_2 := fun ts => flatAll (mapAll f ts) = (flatAll ts).map f)
          (fun n as cs ih => by simp [Tree.map, Tree.flat, ih, List.flatMap_map, List.map_flatMap]) (fun _ _ => rfl) (fun _ => rfl) (fun _ => rfl) (fun _ => rfl) rfl
          (fun t ts h1 h2 => by simp [mapAll, flatAll, h1, h2]) t
      simp [mapAll, flatAll, this, ih]

theorem map_map {α β γ : Type} (f : α → β) (g : β → γ) (ts : List (Tree α)) : mapAll g (mapAll f ts) = mapAll (g ∘ f) ts := by
  have : ∀ t : Tree α, (t.map f).map g = t.map (g ∘ f) := fun t =>
    Tree.rec (motive_1 := fun t => (t.map f).map g = t.map (g ∘ f)) (motive_2 := fun ts => mapAll g (mapAll f ts) = mapAll (g ∘ f) ts)
      (fun n as cs ih => by simp [Tree.map, ih]) (fun _ _ => rfl) (fun _ => rfl) (fun _ => rfl) (fun _ => rfl) rfl (fun t ts h1 h2 => by simp [mapAll, h1, h2]) t
  induction ts with
  | nil => rfl
  | cons t ts ih => simp [mapAll, this, ih]

end Verif.Xml.InPlace
