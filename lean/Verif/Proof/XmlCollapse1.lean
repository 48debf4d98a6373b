import Verif.Proof.XmlPlace5
import Verif.Proof.Xml8
import Verif.Spec.XmlCollapse
/-! Collapsing white space at its place: helper lemmas. -/
namespace Verif.Xml.InPlace
open Tec Spec

/-- the white bytes -/
abbrev wh : UInt8 → Bool := fun b => decide (White b)

theorem wh_space (b : UInt8) : wh b = isSpace b := by
  rw [Bool.eq_iff_iff, isSpace_iff]; simp [wh]

/-- the text in front of white space, then each word with a space before it -/
def mid (r : Str) : Str :=
  match r.splitOnP wh with
  | [] => []
  | h :: t => h ++ (t.filter (· ≠ [])).flatMap (32 :: ·)

theorem mid_nil : mid [] = [] := by simp [mid, List.splitOnP_nil]

theorem split_cons (r : Str) : ∃ h t, r.splitOnP wh = h :: t := by
  cases e : r.splitOnP wh with
  | nil => exact (List.splitOnP_ne_nil _ _ e).elim
  | cons h t => exact ⟨h, t, rfl⟩

theorem split_word {c : Byte} (hc : isSpace c = false) (r : Str) {h : Str} {t : List Str} (e : r.splitOnP wh = h :: t) :
    (c :: r).splitOnP wh = (c :: h) :: t := by
  rw [List.splitOnP_cons_eq_if_modifyHead, wh_space, hc, e]; rfl

theorem split_space {c : Byte} (hc : isSpace c = true) (r : Str) : (c :: r).splitOnP wh = [] :: r.splitOnP wh := by
  rw [List.splitOnP_cons_eq_if_modifyHead, wh_space, hc]; rfl

theorem words_skip (r : Str) : words r = words (skipSpace r) := by
  induction r with
  | nil => rfl
  | cons c r ih =>
    cases hc : isSpace c with
    | false => rw [skipSpace_cons hc]
    | true =>
      have : skipSpace (c :: r) = skipSpace r := by unfold skipSpace; rw [List.dropWhile_cons, if_pos hc]
      rw [this, ← ih]
      show ((c :: r).splitOnP wh).filter _ = (r.splitOnP wh).filter _
      rw [split_space hc]; rfl

theorem words_word {c : Byte} (hc : isSpace c = false) {r h : Str} {t : List Str} (e : r.splitOnP wh = h :: t) :
    words (c :: r) = (c :: h) :: t.filter (· ≠ []) := by
  show ((c :: r).splitOnP wh).filter _ = _
  rw [split_word hc r e]; rfl

theorem mid_word {c : Byte} (hc : isSpace c = false) (r : Str) : mid (c :: r) = c :: mid r := by
  obtain ⟨h, t, e⟩ := split_cons r
  unfold mid
  rw [split_word hc r e, e]; rfl

theorem mid_space {c : Byte} (hc : isSpace c = true) (r : Str) :
    mid (c :: r) = match skipSpace (c :: r) with | [] => [] | d :: s => 32 :: d :: mid s := by
  have hs : skipSpace (c :: r) = skipSpace r := by unfold skipSpace; rw [List.dropWhile_cons, if_pos hc]
  have h1 : mid (c :: r) = (words r).flatMap (32 :: ·) := by
    unfold mid
    rw [split_space hc]; rfl
  rw [h1, hs, words_skip r]
  cases e : skipSpace r with
  | nil => rfl
  | cons d s =>
    have hd := skipSpace_head' e
    obtain ⟨h, t, e'⟩ := split_cons s
    rw [words_word hd e']
    show _ = 32 :: d :: mid s
    unfold mid
    rw [e']; rfl
where
  skipSpace_head' {p : Str} {b : UInt8} {l : Str} (h : skipSpace p = b :: l) : isSpace b = false := by
    induction p with
    | nil => cases h
    | cons a p ih =>
      cases ha : isSpace a with
      | false => rw [skipSpace_cons ha] at h; injection h with h1 h2; rw [← h1]; exact ha
      | true =>
        have : skipSpace (a :: p) = skipSpace p := by unfold skipSpace; rw [List.dropWhile_cons, if_pos ha]
        exact ih (this ▸ h)

theorem intercalate_flat (h : Str) (t : List Str) : [32].intercalate (h :: t) = h ++ t.flatMap (32 :: ·) := by
  induction t generalizing h with
  | nil => simp [List.intercalate]
  | cons a t ih =>
    have : [32].intercalate (h :: a :: t) = h ++ 32 :: [32].intercalate (a :: t) := by simp [List.intercalate]
    rw [this, ih]; simp

theorem collapse_mid (r : Str) : collapse r = match skipSpace r with | [] => [] | d :: s => d :: mid s := by
  unfold collapse
  rw [words_skip]
  cases e : skipSpace r with
  | nil => simp [words, List.splitOnP_nil, List.intercalate]
  | cons d s =>
    have hd := mid_space.skipSpace_head' e
    obtain ⟨h, t, e'⟩ := split_cons s
    rw [words_word hd e', intercalate_flat]
    show _ = d :: mid s
    unfold mid
    rw [e']; rfl

/-! ## The loop -/

theorem Frame.one (b : Str) (q : Nat) (c : Byte) : Frame b (b.set q c) q (q + 1) :=
  ⟨by simp, fun i hi => List.getElem?_set_ne (by omega)⟩

theorem collapseLoop_run {E : Nat} : ∀ (f : Nat) {b : Str} {p q : Nat} {r : Str}, At b E p r → q ≤ p → r.length < f →
    ∃ b', collapseLoop f p q b = .ok (q + (mid r).length) b' ∧ q + (mid r).length ≤ E ∧ Seg b' q (mid r) ∧ Frame b b' q E := by
  intro f
  induction f with
  | zero => intro b p q r _ _ hf; omega
  | succ f ih =>
    intro b p q r ha hq hf
    cases r with
    | nil =>
      have hp : p = E := by have := ha.pos; simpa using this
      refine ⟨b, ?_, ?_, ?_, Frame.refl _ _ _⟩
      · rw [collapseLoop, bind_rd (hp ▸ ha.nul), if_pos rfl, mid_nil]; rfl
      · rw [mid_nil]; simp; omega
      · rw [mid_nil]; trivial
    | cons c r =>
      have hc0 : c ≠ 0 := ha.no c (by simp)
      have hpos := ha.pos
      have hlt := ha.lt
      rw [List.length_cons] at hpos hf
      rw [collapseLoop, bind_rd ha.seg.1, if_neg hc0]
      cases hc : isSpace c with
      | false =>
        rw [if_neg (by simp), bind_wr (by omega)]
        have hf1 := Frame.one b q c
        have ha1 : At (b.set q c) E (p + 1) r := hf1.at (by omega) ⟨by omega, ha.seg.2, ha.nul, fun x hx => ha.no x (by simp [hx])⟩
        obtain ⟨b', e, h1, h2, h3⟩ := ih ha1 (Nat.succ_le_succ hq) (by omega)
        rw [mid_word hc, List.length_cons]
        refine ⟨b', ?_, by omega, ⟨?_, h2⟩, ?_⟩
        · rw [e]; congr 1; omega
        · rw [h3.same q (by omega)]; exact List.getElem?_set_self (by omega)
        · exact (hf1.mono le_rfl (by omega)).trans (h3.mono (by omega) le_rfl)
      | true =>
        rw [if_pos rfl, bind_rounds]
        obtain ⟨p', e, ha', hp'⟩ := skip_run (f := b.length + 1) ha (by simp; omega)
        rw [M.bind_ok e]
        have hs : skipSpace (c :: r) = skipSpace r := by unfold skipSpace; rw [List.dropWhile_cons, if_pos hc]
        have hl := skipSpace_length r
        rw [mid_space hc]
        cases e2 : skipSpace (c :: r) with
        | nil =>
          rw [e2] at ha'
          have hpE : p' = E := by have := ha'.pos; simpa using this
          refine ⟨b, ?_, by simp; omega, trivial, Frame.refl _ _ _⟩
          rw [bind_rd (hpE ▸ ha'.nul), if_pos rfl]; rfl
        | cons d s =>
          rw [e2] at ha'
          rw [hs] at e2
          rw [e2, List.length_cons] at hl
          have hd0 : d ≠ 0 := ha'.no d (by simp)
          have hpos' := ha'.pos
          rw [List.length_cons] at hpos'
          rw [bind_rd ha'.seg.1, if_neg hd0, bind_wr (by omega)]
          have hf1 := Frame.one b q 32
          have ha1 := hf1.at (by omega) ha'
          rw [bind_rd ha1.seg.1, bind_wr (by simp; omega)]
          have hf2 := Frame.one (b.set q 32) (q + 1) d
          have ha2 : At ((b.set q 32).set (q + 1) d) E (p' + 1) s := hf2.at (by omega) ⟨by omega, ha1.seg.2, ha1.nul, fun x hx => ha1.no x (by simp [hx])⟩
          obtain ⟨b', e3, h1, h2, h3⟩ := ih (q := q + 2) ha2 (by omega) (by omega)
          refine ⟨b', ?_, by simp; omega, ⟨?_, ?_, h2⟩, ?_⟩
          · rw [e3]; congr 1; simp; omega
          · rw [h3.same q (by omega), List.getElem?_set_ne (by omega)]; exact List.getElem?_set_self (by omega)
          · rw [h3.same (q + 1) (by omega)]; exact List.getElem?_set_self (by rw [List.length_set]; omega)
          · exact ((hf1.mono le_rfl (by omega)).trans (hf2.mono (by omega) (by omega))).trans (h3.mono (by omega) le_rfl)

theorem collapseB_run {b : Str} {E p : Nat} {r : Str} (ha : At b E p r) :
    ∃ p' b', collapseB p b = .ok p' b' ∧ p ≤ p' ∧ p' + (collapse r).length ≤ E ∧ Seg b' p' (collapse r ++ [0]) ∧ Frame b b' p (E + 1) := by
  have hlt := ha.lt
  have hpos := ha.pos
  obtain ⟨p', e, ha', hp'⟩ := skip_run (f := b.length + 1) ha (by omega)
  rw [collapseB, bind_rounds, M.bind_ok e, collapse_mid]
  cases e2 : skipSpace r with
  | nil =>
    rw [e2] at ha'
    have hpE : p' = E := by have := ha'.pos; simpa using this
    refine ⟨p', b, ?_, hp', by simp; omega, ⟨hpE ▸ ha'.nul, trivial⟩, Frame.refl _ _ _⟩
    rw [bind_rd (hpE ▸ ha'.nul), if_pos rfl]; rfl
  | cons d s =>
    rw [e2] at ha'
    have hd0 : d ≠ 0 := ha'.no d (by simp)
    have hd := mid_space.skipSpace_head' e2
    have hpos' := ha'.pos
    rw [List.length_cons] at hpos'
    obtain ⟨b', e3, h1, h2, h3⟩ := collapseLoop_run (b.length + 1) ha' le_rfl (by rw [List.length_cons]; omega)
    rw [bind_rd ha'.seg.1, if_neg hd0, M.bind_ok e3]
    have hlen : b'.length = b.length := h3.len
    rw [bind_wr (by omega)]
    rw [mid_word hd] at h1 h2 ⊢
    have hf := Frame.one b' (p' + (d :: mid s).length) 0
    refine ⟨p', _, rfl, hp', by simpa using h1, ?_, (h3.mono hp' (by omega)).trans (hf.mono (by omega) (by omega))⟩
    rw [seg_append]
    exact ⟨hf.seg (.inl le_rfl) h2, List.getElem?_set_self (by omega), trivial⟩

theorem collapse_no {r : Str} (h : ∀ c ∈ r, c ≠ 0) : ∀ c ∈ collapse r, c ≠ 0 := by
  have hm : ∀ (r : Str), (∀ c ∈ r, c ≠ 0) → ∀ w ∈ r.splitOnP wh, ∀ c ∈ w, c ≠ 0 := by
    intro r
    induction r with
    | nil => intro _ w hw c hc; rw [List.splitOnP_nil] at hw; simp at hw; subst hw; cases hc
    | cons a r ih =>
      intro h w hw c hc
      have ih := ih fun x hx => h x (by simp [hx])
      cases ha : isSpace a with
      | true =>
        rw [split_space ha] at hw
        rcases List.mem_cons.1 hw with rfl | hw
        · cases hc
        · exact ih w hw c hc
      | false =>
        obtain ⟨x, t, e⟩ := split_cons r
        rw [split_word ha r e] at hw
        rw [e] at ih
        rcases List.mem_cons.1 hw with rfl | hw
        · rcases List.mem_cons.1 hc with rfl | hc
          · exact h _ (by simp)
          · exact ih x (by simp) c hc
        · exact ih w (by simp [hw]) c hc
  intro c hc
  unfold collapse at hc
  cases e : words r with
  | nil => rw [e] at hc; simp [List.intercalate] at hc
  | cons x t =>
    have hw : ∀ w ∈ words r, ∀ c ∈ w, c ≠ 0 := fun w hw => hm r h w (List.mem_filter.1 hw).1
    rw [e] at hc hw
    rw [intercalate_flat, List.mem_append, List.mem_flatMap] at hc
    rcases hc with hc | ⟨w, hw', hc⟩
    · exact hw x (by simp) c hc
    · rcases List.mem_cons.1 hc with rfl | hc
      · decide
      · exact hw w (by simp [hw']) c hc

/-- what a pair that may need collapsing gives when it is asked for -/
def answer (c : Bool) (s : StrPair) (v : Str) : Str := if c && s.flush then collapse v else v

theorem askC_run {b : Str} {s : StrPair} {v : Str} (h : Holds b s v) (c : Bool) :
    ∃ s' b', askC c s b = .ok (s', answer c s v) b' ∧ Holds b' s' (answer c s v) ∧ s.start ≤ s'.start ∧ s'.stop = s.stop ∧ s'.flush = false ∧
      Frame b b' s.start (s.stop + 1) := by
  have last : ∀ {b' : Str} {s' : StrPair} {w : Str}, Holds b' s' w → s'.flush = false →
      (do let f ← rounds; let v ← readC f s'.start; pure (s', v) : B (StrPair × Str)) b' = .ok (s', w) b' := by
    intro b' s' w h' e
    obtain ⟨k1, k2, k3⟩ := h'.flushed e
    rw [bind_rounds, M.bind_ok (readC_run k1 k3 (by have := h'.lt; omega))]
    rfl
  cases hs : s.flush with
  | false =>
    have ea : answer c s v = v := by simp [answer, hs]
    refine ⟨s, b, ?_, by rw [ea]; exact h, le_rfl, rfl, hs, Frame.refl _ _ _⟩
    rw [askC, M.bind_ok (show getStrC c s b = .ok s b by rw [getStrC, hs]; rfl), ea]
    exact last h hs
  | true =>
    obtain ⟨s1, b1, e1, h1, h2, h3, h4, h5⟩ := getStr_run h
    cases c with
    | false =>
      have ea : answer false s v = v := by simp [answer]
      refine ⟨s1, b1, ?_, by rw [ea]; exact h1, by omega, h3, h4, h5⟩
      rw [askC, M.bind_ok (show getStrC false s b = .ok s1 b1 by rw [getStrC, if_pos hs, M.bind_ok e1]; rfl), ea]
      exact last h1 h4
    | true =>
      have ea : answer true s v = collapse v := by simp [answer, hs]
      obtain ⟨k1, k2, k3⟩ := h1.flushed h4
      rw [seg_append] at k1
      obtain ⟨p', b2, e2, g1, g2, g3, g4⟩ := collapseB_run (E := s1.start + v.length) ⟨rfl, k1.1, k1.2.1, k3⟩
      have hl := h1.lt
      have hh : Holds b2 { s1 with start := p' } (collapse v) :=
        ⟨by show s1.stop < b2.length; rw [g4.len]; exact hl, .inr ⟨h4, g3, by show p' + _ ≤ s1.stop; omega, collapse_no k3⟩⟩
      refine ⟨{ s1 with start := p' }, b2, ?_, by rw [ea]; exact hh, by show s.start ≤ p'; omega, h3, h4, h5.trans (g4.mono (by omega) (by omega))⟩
      have : getStrC true s b = .ok { s1 with start := p' } b2 := by
        rw [getStrC, if_pos hs, M.bind_ok e1, if_pos rfl, M.bind_ok e2]; rfl
      rw [askC, M.bind_ok this, ea]
      exact last hh h4

end Verif.Xml.InPlace
