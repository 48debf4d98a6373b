import Verif.Proof.XmlPlace3
import Verif.Spec.XmlPlace
/-! Reading the attributes and the tag of an element inside the buffer: helper lemmas. -/
namespace Verif.Xml.InPlace
open Tec

abbrev Pair := StrPair × Str

/-- the pairs stand for their texts, one behind the other, without common bytes, between `lo` and `hi` -/
def Chain (b : Str) : Nat → List Pair → Nat → Prop
  | lo, [], hi => lo ≤ hi
  | lo, x :: r, hi => lo ≤ x.1.start ∧ Holds b x.1 x.2 ∧ Chain b (x.1.stop + 1) r hi

theorem Chain.le {b : Str} {xs : List Pair} : ∀ {lo hi : Nat}, Chain b lo xs hi → lo ≤ hi := by
  induction xs with
  | nil => intro lo hi h; exact h
  | cons x xs ih => intro lo hi h; have := ih h.2.2; have := h.2.1.le; have := h.1; omega

theorem chain_append {b : Str} {xs ys : List Pair} {hi : Nat} : ∀ {lo : Nat}, Chain b lo (xs ++ ys) hi ↔ ∃ m, Chain b lo xs m ∧ Chain b m ys hi := by
  induction xs with
  | nil =>
    intro lo
    constructor
    · intro h; exact ⟨lo, le_refl lo, h⟩
    · rintro ⟨m, h1, h2⟩
      cases ys with
      | nil => exact le_trans (show lo ≤ m from h1) h2
      | cons y ys => exact ⟨le_trans (show lo ≤ m from h1) h2.1, h2.2⟩
  | cons x xs ih =>
    intro lo
    rw [List.cons_append]
    constructor
    · rintro ⟨h1, h2, h3⟩
      obtain ⟨m, h4, h5⟩ := ih.1 h3
      exact ⟨m, ⟨h1, h2, h4⟩, h5⟩
    · rintro ⟨m, ⟨h1, h2, h4⟩, h5⟩
      exact ⟨h1, h2, ih.2 ⟨m, h4, h5⟩⟩

theorem Chain.mono {b : Str} {xs : List Pair} : ∀ {lo lo' hi hi' : Nat}, Chain b lo xs hi → lo' ≤ lo → hi ≤ hi' → Chain b lo' xs hi' := by
  induction xs with
  | nil => intro lo lo' hi hi' h h1 h2; have : lo ≤ hi := h; show lo' ≤ hi'; omega
  | cons x xs ih => intro lo lo' hi hi' h h1 h2; exact ⟨by have := h.1; omega, h.2.1, ih h.2.2 le_rfl h2⟩

theorem Chain.mem {b : Str} {xs : List Pair} {x : Pair} (hx : x ∈ xs) : ∀ {lo hi : Nat}, Chain b lo xs hi → lo ≤ x.1.start ∧ x.1.stop + 1 ≤ hi ∧ Holds b x.1 x.2 := by
  induction xs with
  | nil => cases hx
  | cons y xs ih =>
    intro lo hi h
    rcases List.mem_cons.1 hx with rfl | hx
    · exact ⟨h.1, h.2.2.le, h.2.1⟩
    · have := ih hx h.2.2
      have := h.2.1.le; have := h.1
      exact ⟨by omega, by omega, by tauto⟩

theorem Chain.frame {b b' : Str} {lo' hi' : Nat} (hf : Frame b b' lo' hi') {xs : List Pair} : ∀ {lo hi : Nat}, Chain b lo xs hi → (∀ x ∈ xs, x.1.top ≤ lo' ∨ hi' ≤ x.1.start) → Chain b' lo xs hi := by
  induction xs with
  | nil => intro lo hi h _; exact h
  | cons y xs ih => intro lo hi h hd; exact ⟨h.1, h.2.1.frame hf (hd y (by simp)), ih h.2.2 fun x hx => hd x (by simp [hx])⟩

theorem Chain.before {b b' : Str} {lo' hi' : Nat} (hf : Frame b b' lo' hi') {xs : List Pair} {lo hi : Nat} (h : Chain b lo xs hi) (hd : hi ≤ lo') : Chain b' lo xs hi :=
  h.frame hf fun x hx => .inl (by have := h.mem hx; have := x.1.top_le; omega)

theorem Chain.behind {b b' : Str} {lo' hi' : Nat} (hf : Frame b b' lo' hi') {xs : List Pair} {lo hi : Nat} (h : Chain b lo xs hi) (hd : hi' ≤ lo) : Chain b' lo xs hi :=
  h.frame hf fun x hx => .inr (by have := h.mem hx; omega)

/-- asking for one of them leaves the others as they are -/
theorem Chain.set {b b' : Str} {xs ys : List Pair} {s s' : StrPair} {v : Str} {lo hi : Nat} (h : Chain b lo (xs ++ (s, v) :: ys) hi)
    (hf : Frame b b' s.start (s.stop + 1)) (h1 : s'.start = s.start) (h2 : s'.stop = s.stop) (h3 : Holds b' s' v) : Chain b' lo (xs ++ (s', v) :: ys) hi := by
  obtain ⟨m, k1, k2, k3, k4⟩ := chain_append.1 h
  simp only [] at k2 k3 k4
  refine chain_append.2 ⟨m, k1.before hf k2, ?_, h3, ?_⟩
  · simp only [h1]; exact k2
  · simp only [h2]; exact k4.behind hf le_rfl

theorem Chain.holds {b : Str} {xs ys : List Pair} {s : StrPair} {v : Str} {lo hi : Nat} (h : Chain b lo (xs ++ (s, v) :: ys) hi) : Holds b s v :=
  (h.mem (x := (s, v)) (by simp)).2.2

theorem Chain.getStr {b : Str} {xs ys : List Pair} {s : StrPair} {v : Str} {lo hi : Nat} (h : Chain b lo (xs ++ (s, v) :: ys) hi) :
    ∃ s' b', getStr s b = .ok s' b' ∧ Chain b' lo (xs ++ (s', v) :: ys) hi ∧ s'.start = s.start ∧ s'.stop = s.stop ∧ s'.flush = false ∧ Frame b b' s.start (s.stop + 1) := by
  obtain ⟨s', b', h1, h2, h3, h4, h5, h6⟩ := getStr_run h.holds
  exact ⟨s', b', h1, h.set h6 h3 h4 h2, h3, h4, h5, h6⟩

/-! ## Attributes -/

def attrPtrs (A : List (Pair × Pair)) : List (StrPair × StrPair) := A.map fun a => (a.1.1, a.2.1)
def attrVals (A : List (Pair × Pair)) : List (Str × Str) := A.map fun a => (a.1.2, a.2.2)
def attrFlat (A : List (Pair × Pair)) : List Pair := A.flatMap fun a => [a.1, a.2]

theorem attrFlat_append (A B : List (Pair × Pair)) : attrFlat (A ++ B) = attrFlat A ++ attrFlat B := by simp [attrFlat]

theorem hasAttr_run {K : StrPair} {k : Str} (hK : K.flush = false) : ∀ {A : List (Pair × Pair)} {b : Str} {lo hi : Nat}, Chain b lo (attrFlat A) hi → Holds b K k → hi ≤ K.start →
    ∃ A' b', hasAttr K.start (attrPtrs A) b = .ok ((attrVals A).any (fun x => x.1 == k), attrPtrs A') b' ∧ attrVals A' = attrVals A ∧
      Chain b' lo (attrFlat A') hi ∧ Frame b b' lo hi := by
  intro A
  induction A with
  | nil => intro b lo hi h _ _; exact ⟨[], b, rfl, rfl, h, .refl ..⟩
  | cons a A ih =>
    obtain ⟨⟨n, nv⟩, ⟨v, vv⟩⟩ := a
    intro b lo hi h hk hhi
    have h' : Chain b lo ([] ++ (n, nv) :: ((v, vv) :: attrFlat A)) hi := h
    obtain ⟨n', b1, r1, r2, r3, r4, r5, r6⟩ := h'.getStr
    have hm := h'.mem (x := (n, nv)) (by simp)
    simp only [] at hm
    have hk1 : Holds b1 K k := hk.frame r6 (.inr (by omega))
    have r6' : Frame b b1 lo hi := r6.mono (by omega) (by omega)
    show ∃ A' b', hasAttr K.start ((n, v) :: attrPtrs A) b = .ok (nv == k || (attrVals A).any (fun x => x.1 == k), attrPtrs A') b' ∧ attrVals A' = (nv, vv) :: attrVals A ∧ _
    rw [hasAttr, M.bind_ok r1, bind_rounds, M.bind_ok (eqPair_run r2.2.1 hk1 r5 hK)]
    by_cases e : (nv == k) = true
    · rw [if_pos e]
      have r2' : Chain b1 lo ([(n', nv)] ++ (v, vv) :: attrFlat A) hi := r2
      obtain ⟨v', b2, s1, s2, s3, s4, s5, s6⟩ := r2'.getStr
      have hm' := r2'.mem (x := (v, vv)) (by simp)
      simp only [] at hm'
      refine ⟨((n', nv), (v', vv)) :: A, b2, ?_, rfl, s2, r6'.trans (s6.mono (by omega) (by omega))⟩
      rw [M.bind_ok s1, e]; rfl
    · rw [if_neg e]
      obtain ⟨q1, q2, q3, q4, q5⟩ := r2
      simp only [] at q1 q2 q3 q4 q5
      obtain ⟨A', b2, s1, s2, s3, s4⟩ := ih q5 hk1 hhi
      have hq4 := q4.le
      have hn' := q2.le
      have hq : v.stop + 1 ≤ hi := q5.le
      refine ⟨((n', nv), (v, vv)) :: A', b2, ?_, by simp [attrVals] at s2 ⊢; exact s2, ?_, r6'.trans (s4.mono (by omega) le_rfl)⟩
      · rw [M.bind_ok s1]
        simp only [Bool.not_eq_true] at e
        rw [e]; rfl
      · exact ⟨q1, q2.frame s4 (.inl (by have := n'.top_le; omega)), q3, q4.frame s4 (.inl v.top_le), s3⟩

theorem parseAttrB_run {b : Str} {E p : Nat} {l : Str} (h : At b E p l) :
    match parseAttr l with
    | none => parseAttrB p b = .ok none b
    | some ((n, v), r) => ∃ sn sv p', parseAttrB p b = .ok (some ((sn, sv), p')) b ∧ At b E p' r ∧ Holds b sn n ∧ Holds b sv v ∧
        sn.start = p ∧ sn.stop < sv.start ∧ sv.stop < p' := by
  rw [parseAttr]
  cases hn : parseName l with
  | none => simp only []; rw [parseAttrB, M.bind_ok (parseNameB_run h), hn]; rfl
  | some x =>
    obtain ⟨n, l1⟩ := x
    obtain ⟨hc1, h1⟩ := cut_name h hn
    generalize hX : parseAttrB p b = X
    have step := hX.symm
    rw [parseAttrB, M.bind_ok (parseNameB_run h), hn] at step
    simp only [Option.map_some] at step
    rw [bind_rd h1.get] at step
    simp only []
    by_cases hl1 : l1 = []
    · subst hl1
      rw [if_pos (show ([] : Str).head?.getD 0 = 0 from rfl)] at step
      exact step
    rw [if_neg (fun x => hl1 (h1.zero.1 x)), bind_rounds] at step
    obtain ⟨p2, k1, k2, k3⟩ := skip_run h1 (f := b.length + 1) (by have := h1.fuel; omega)
    rw [M.bind_ok k1] at step
    cases hl2 : skipSpace l1 with
    | nil =>
      rw [hl2] at k2
      rw [bind_rd k2.nil, if_pos (by decide)] at step
      exact step
    | cons c l2 =>
      rw [hl2] at k2
      rw [bind_rd k2.hd.1] at step
      by_cases hc : c = 61
      · subst hc
        rw [if_neg (by simp)] at step
        obtain ⟨p3, m1, m2, m3⟩ := skip_run k2.tl (f := b.length + 1) (by have := k2.tl.fuel; omega)
        rw [M.bind_ok m1] at step
        simp only []
        cases hl3 : skipSpace l2 with
        | nil =>
          rw [hl3] at m2
          rw [bind_rd m2.nil, if_neg (by decide)] at step
          exact step
        | cons q l3 =>
          rw [hl3] at m2
          rw [bind_rd m2.hd.1] at step
          simp only []
          by_cases hq : q = 34 ∨ q = 39
          · rw [if_pos hq] at step ⊢
            have hq0 : ∀ c ∈ [q], c ≠ 0 := by
              intro c hc
              simp only [List.mem_singleton] at hc
              subst hc; rcases hq with rfl | rfl <;> decide
            rw [M.bind_ok (parseTextB_run m2.tl hq0 true)] at step
            cases hv : parseText [q] l3 with
            | none => rw [hv] at step; exact step
            | some y =>
              obtain ⟨v, r⟩ := y
              rw [hv] at step
              simp only []
              exact ⟨_, _, _, step, m2.tl.cut hv, hc1, cut_text m2.tl true hv, rfl, by simp only []; omega, by simp⟩
          · rw [if_neg hq] at step ⊢
            exact step
      · rw [if_pos hc] at step
        split
        · exact step
        · next h =>
          split at h
          · next h' => exact absurd (by injection h') hc
          · cases h

theorem parseAttrsB_run {N : StrPair} {nm : Str} {E lo : Nat} (hN : N.stop + 1 ≤ lo) : ∀ (f : Nat) {g : Nat} {A : List (Pair × Pair)} {b l : Str} {p m : Nat},
    At b E p l → Holds b N nm → Chain b lo (attrFlat A) m → m ≤ p + 1 → (m = p + 1 → ∀ c, l.head? = some c → isNameStart c = false) →
    l.length < f → l.length < g →
    match parseAttrs f (attrVals A) l with
    | .error e => ∃ b', parseAttrsB N g (attrPtrs A) p b = .ok (.error e) b'
    | .ok (as, sealed, r) => ∃ b' A' p', parseAttrsB N g (attrPtrs A) p b = .ok (.ok (attrPtrs A', sealed, p')) b' ∧ attrVals A' = as ∧ At b' E p' r ∧
        Chain b' lo (attrFlat A') p' ∧ Frame b b' lo p' ∧ p < p' := by
  intro f
  induction f with
  | zero => intro g A b l p m _ _ _ _ _ hf; omega
  | succ f ih =>
    intro g A b l p m h hh hc hm hm' hf hg
    cases g with
    | zero => omega
    | succ g =>
    obtain ⟨p1, k1, k2, k3⟩ := skip_run h (f := b.length + 1) (by have := h.fuel; omega)
    generalize hX : parseAttrsB N (g + 1) (attrPtrs A) p b = X
    have step := hX.symm
    rw [parseAttrsB, bind_rounds, M.bind_ok k1] at step
    rw [parseAttrs]
    cases hl : skipSpace l with
    | nil =>
      rw [hl] at k2
      rw [bind_rd k2.nil, if_pos rfl] at step
      obtain ⟨b', e⟩ := failWith_run (α := List (StrPair × StrPair) × Bool × Nat) hh .parsingElement
      exact ⟨b', step.trans e⟩
    | cons c l1 =>
      rw [hl] at k2
      rw [bind_rd k2.hd.1, if_neg k2.hd.2] at step
      simp only []
      have hlt : l1.length < l.length := by
        have := k2.pos; have := h.pos; simp at *; omega
      by_cases hs : isNameStart c = true
      · rw [if_pos hs] at step ⊢
        have hmp : m ≤ p1 := by
          by_cases e : m = p + 1
          · by_cases e' : p1 = p
            · have : l = c :: l1 := by
                have hp1 := k2.pos; have hp := h.pos
                rw [← hl] at hp1
                have hsl : (skipSpace l).length = l.length := by omega
                rw [← hl]
                exact ((List.dropWhile_suffix _).eq_of_length hsl).symm
              have := hm' e c (by rw [this]; rfl)
              rw [hs] at this; cases this
            · omega
          · omega
        have ha := parseAttrB_run k2
        cases hp : parseAttr (c :: l1) with
        | none =>
          rw [hp] at ha
          simp only [] at ha ⊢
          rw [M.bind_ok ha] at step
          obtain ⟨b', e⟩ := failWith_run (α := List (StrPair × StrPair) × Bool × Nat) hh .parsingAttribute
          exact ⟨b', step.trans e⟩
        | some x =>
          obtain ⟨⟨n, v⟩, r⟩ := x
          rw [hp] at ha
          simp only [] at ha ⊢
          obtain ⟨sn, sv, p2, a1, a2, a3, a4, a5, a6, a7⟩ := ha
          rw [M.bind_ok a1] at step
          simp only [] at step
          obtain ⟨sn', b1, c1, c2, c3, c4, c5, c6⟩ := getStr_run a3
          rw [M.bind_ok c1] at step
          have hmlo := hc.le
          have hsv := a4.le
          have hsn := a3.le
          obtain ⟨A', b2, d1, d2, d3, d4⟩ := hasAttr_run (K := sn') c5 (hc.before c6 (by omega)) c2 (by omega)
          rw [M.bind_ok d1] at step
          simp only [] at step
          have hh2 : Holds b2 N nm := (hh.frame c6 (.inl (by have := N.top_le; omega))).frame d4 (.inl (by have := N.top_le; omega))
          by_cases hd : (attrVals A).any (fun x => x.1 == n) = true
          · rw [if_pos hd] at step ⊢
            obtain ⟨b', e⟩ := failWith_run (α := List (StrPair × StrPair) × Bool × Nat) hh2 .parsingAttribute
            exact ⟨b', step.trans e⟩
          · rw [if_neg hd] at step ⊢
            have hat : At b2 E p2 r := d4.at (by omega) (c6.at (by omega) a2)
            have hch : Chain b2 lo (attrFlat (A' ++ [((sn', n), (sv, v))])) p2 := by
              rw [attrFlat_append]
              refine chain_append.2 ⟨m, d3, ?_⟩
              exact ⟨show m ≤ sn'.start by omega, c2.frame d4 (.inr (by omega)), show sn'.stop + 1 ≤ sv.start by omega,
                (a4.frame c6 (.inr (by omega))).frame d4 (.inr (by omega)), show sv.stop + 1 ≤ p2 by omega⟩
            have hr : r.length < l.length := by have := a2.pos; have := h.pos; omega
            have := ih (g := g) hat hh2 hch (by omega) (by omega) (by omega) (by omega)
            have e1 : attrVals (A' ++ [((sn', n), (sv, v))]) = attrVals A ++ [(n, v)] := by rw [← d2]; simp [attrVals]
            have e2 : attrPtrs (A' ++ [((sn', n), (sv, v))]) = attrPtrs A' ++ [(sn', sv)] := by simp [attrPtrs]
            rw [e1, e2, ← step] at this
            cases hres : parseAttrs f (attrVals A ++ [(n, v)]) r with
            | error e => rw [hres] at this; exact this
            | ok y =>
              obtain ⟨as, sl, r'⟩ := y
              rw [hres] at this
              simp only [] at this ⊢
              obtain ⟨b', A'', p', t1, t2, t3, t4, t5, t6⟩ := this
              exact ⟨b', A'', p', t1, t2, t3, t4, ((c6.mono (by omega) (by omega)).trans (d4.mono le_rfl (by omega))).trans t5, by omega⟩
      · rw [if_neg hs] at step ⊢
        by_cases h62 : c = 62
        · rw [if_pos h62] at step ⊢
          exact ⟨b, A, p1 + 1, step, rfl, k2.tl, hc.mono le_rfl (by omega), .refl .., by omega⟩
        · rw [if_neg h62] at step ⊢
          by_cases h47 : c = 47
          · rw [if_pos h47] at step ⊢
            cases l1 with
            | nil =>
              rw [bind_rd k2.tl.nil, if_neg (by decide)] at step
              exact ⟨b, step⟩
            | cons d l2 =>
              rw [bind_rd k2.tl.hd.1] at step
              by_cases hd : d = 62
              · subst hd
                rw [if_pos rfl] at step
                simp only []
                exact ⟨b, A, p1 + 2, step, rfl, k2.tl.tl, hc.mono le_rfl (by omega), .refl .., by omega⟩
              · rw [if_neg hd] at step
                split
                · next h =>
                  split at h
                  · next h' => exact absurd (by injection h') hd
                  · injection h with h; subst h; exact ⟨b, step⟩
                · next h =>
                  split at h
                  · next h' => exact absurd (by injection h') hd
                  · cases h
          · rw [if_neg h47] at step ⊢
            exact ⟨b, step⟩

theorem parseName_next {l n r : Str} (h : parseName l = some (n, r)) : ∀ c, r.head? = some c → isNameStart c = false := by
  cases l with
  | nil => simp [parseName] at h
  | cons d l =>
    rw [parseName] at h
    split at h
    · simp only [Option.some.injEq, Prod.mk.injEq] at h
      obtain ⟨-, rfl⟩ := h
      intro c hc
      have := List.head?_dropWhile_not isNameChar l
      rw [hc] at this
      simp only [] at this
      simp [isNameChar] at this
      tauto
    · cases h

theorem parseTagB_run {b : Str} {E p : Nat} {l : Str} (h : At b E p l) :
    match parseTag l with
    | .error e => ∃ b', parseTagB p b = .ok (.error e) b'
    | .ok (n, as, cl, r) => ∃ b' N A p', parseTagB p b = .ok (.ok (N, attrPtrs A, cl, p')) b' ∧ attrVals A = as ∧ At b' E p' r ∧
        Chain b' p ((N, n) :: attrFlat A) p' ∧ Frame b b' p p' ∧ p < p' := by
  obtain ⟨p1, k1, k2, k3⟩ := skip_run h (f := b.length + 1) (by have := h.fuel; omega)
  generalize hX : parseTagB p b = X
  have step := hX.symm
  rw [parseTagB, bind_rounds, M.bind_ok k1, bind_rd k2.get] at step
  rw [parseTag]
  have key : ∀ (c : Bool) (p2 : Nat) (l2 : Str), At b E p2 l2 → p1 ≤ p2 → (strip [47] (skipSpace l)).getD (skipSpace l) = l2 → (strip [47] (skipSpace l)).isSome = c →
      (if (skipSpace l).head?.getD 0 = 47 then p1 + 1 else p1) = p2 → ((skipSpace l).head?.getD 0 = 47 ↔ c = true) →
      match (match parseName ((strip [47] (skipSpace l)).getD (skipSpace l)) with
      | none => Except.error Code.parsing
      | some (n, p) => match parseAttrs (p.length + 1) [] p with
        | .error e => .error e
        | .ok (as, sealed, r) => .ok (n, as, if sealed = true then Closing.closed else if (strip [47] (skipSpace l)).isSome = true then .closing else .opened, r)) with
      | .error e => ∃ b', X = .ok (.error e) b'
      | .ok (n, as, cl, r) => ∃ b' N A p', X = .ok (.ok (N, attrPtrs A, cl, p')) b' ∧ attrVals A = as ∧ At b' E p' r ∧
          Chain b' p ((N, n) :: attrFlat A) p' ∧ Frame b b' p p' ∧ p < p' := by
    intro c p2 l2 h2 hp2 e1 e2 e3 e4
    rw [e3, M.bind_ok (parseNameB_run h2)] at step
    rw [e1, e2]
    cases hn : parseName l2 with
    | none => rw [hn] at step; exact ⟨b, step⟩
    | some x =>
      obtain ⟨n, l3⟩ := x
      rw [hn] at step
      obtain ⟨c1, c2⟩ := cut_name h2 hn
      have := parseAttrsB_run (N := ⟨p2, p2 + n.length, true, false, false⟩) (lo := p2 + n.length + 1) le_rfl (l3.length + 1) (g := b.length + 1) (A := []) (m := p2 + n.length + 1)
        c2 c1 (le_refl _) le_rfl (fun _ => parseName_next hn) (by omega) (by have := c2.fuel; omega)
      simp only [Option.map_some] at step ⊢
      change match parseAttrs (l3.length + 1) [] l3 with
        | .error e => ∃ b', parseAttrsB _ _ [] _ b = .ok (.error e) b'
        | .ok (as, sealed, r) => ∃ b' A' p', parseAttrsB _ _ [] _ b = .ok (.ok (attrPtrs A', sealed, p')) b' ∧ _ at this
      cases hr : parseAttrs (l3.length + 1) [] l3 with
      | error e =>
        rw [hr] at this
        obtain ⟨b', t⟩ := this
        rw [M.bind_ok t] at step
        exact ⟨b', step⟩
      | ok y =>
        obtain ⟨as, sl, r⟩ := y
        rw [hr] at this
        simp only [] at this ⊢
        obtain ⟨b', A', p', t1, t2, t3, t4, t5, t6⟩ := this
        rw [M.bind_ok t1] at step
        refine ⟨b', _, A', p', ?_, t2, t3, ⟨by simp only []; omega, c1.frame t5 (.inl (by simp [StrPair.top])), t4⟩, t5.mono (by omega) le_rfl, by omega⟩
        rw [step]
        simp only [e4]
        rfl
  cases hl : skipSpace l with
  | nil =>
    rw [hl] at k2
    rw [hl] at key step
    exact key false p1 [] k2 le_rfl rfl rfl rfl (by decide)
  | cons c l1 =>
    rw [hl] at k2
    rw [hl] at key step
    by_cases hc : c = 47
    · subst hc
      exact key true (p1 + 1) l1 k2.tl (by omega) rfl rfl rfl (by simp)
    · exact key false p1 (c :: l1) k2 le_rfl (by simp [strip, Ne.symm hc]) (by simp [strip, Ne.symm hc]) (by simp [hc]) (by simp [hc])

end Verif.Xml.InPlace
