import Verif.Model.Xml.InPlace
import Verif.Proof.XmlDoc1
/-! Reading inside the buffer: helper lemmas. -/
namespace Verif.Xml.InPlace
open Tec

/-- the bytes `l` stand at `p` -/
def Seg (b : Str) : Nat → Str → Prop
  | _, [] => True
  | p, c :: l => b[p]? = some c ∧ Seg b (p + 1) l

/-- the text `l` stands at `p`, the NUL behind it at `E` -/
structure At (b : Str) (E p : Nat) (l : Str) : Prop where
  pos : p + l.length = E
  seg : Seg b p l
  nul : b[E]? = some 0
  no : ∀ c ∈ l, c ≠ 0

theorem seg_iff {b : Str} : ∀ {l : Str} {p : Nat}, Seg b p l ↔ ∀ i, i < l.length → b[p + i]? = l[i]? := by
  intro l
  induction l with
  | nil => intro p; simp [Seg]
  | cons c l ih =>
    intro p
    rw [Seg, ih]
    constructor
    · rintro ⟨h, hs⟩ i hi
      cases i with
      | zero => simpa using h
      | succ i =>
        have := hs i (by simpa using hi)
        rw [List.getElem?_cons_succ, ← this]; congr 1; omega
    · intro h
      refine ⟨by simpa using h 0 (by simp), fun i hi => ?_⟩
      have := h (i + 1) (by simpa using hi)
      rw [List.getElem?_cons_succ] at this
      rw [← this]; congr 1; omega

theorem seg_append {b : Str} {l m : Str} {p : Nat} : Seg b p (l ++ m) ↔ Seg b p l ∧ Seg b (p + l.length) m := by
  induction l generalizing p with
  | nil => simp [Seg]
  | cons c l ih =>
    rw [List.cons_append, Seg, Seg, ih]
    have : p + (c :: l).length = p + 1 + l.length := by simp; omega
    rw [this, and_assoc]

/-- the two arrays differ at most inside `[lo, hi)` -/
structure Frame (b b' : Str) (lo hi : Nat) : Prop where
  len : b'.length = b.length
  same : ∀ i, i < lo ∨ hi ≤ i → b'[i]? = b[i]?

theorem Frame.refl (b : Str) (lo hi : Nat) : Frame b b lo hi := ⟨rfl, fun _ _ => rfl⟩

theorem Frame.trans {b b' b'' : Str} {lo hi : Nat} (h : Frame b b' lo hi) (h' : Frame b' b'' lo hi) : Frame b b'' lo hi :=
  ⟨h'.len.trans h.len, fun i hi => (h'.same i hi).trans (h.same i hi)⟩

theorem Frame.mono {b b' : Str} {lo hi lo' hi' : Nat} (h : Frame b b' lo hi) (h1 : lo' ≤ lo) (h2 : hi ≤ hi') : Frame b b' lo' hi' :=
  ⟨h.len, fun i hi => h.same i (by omega)⟩

theorem Frame.seg {b b' : Str} {lo hi : Nat} (h : Frame b b' lo hi) {p : Nat} {l : Str} (hp : p + l.length ≤ lo ∨ hi ≤ p) (hs : Seg b p l) : Seg b' p l := by
  rw [seg_iff] at hs ⊢
  intro i hi
  rw [← hs i hi]
  exact h.same _ (by omega)

theorem Frame.at {b b' : Str} {lo hi : Nat} (h : Frame b b' lo hi) {E p : Nat} {l : Str} (hp : hi ≤ p) (ha : At b E p l) : At b' E p l :=
  ⟨ha.pos, h.seg (.inr hp) ha.seg, (h.same E (.inr (by have := ha.pos; omega))).trans ha.nul, ha.no⟩

/-! ## Steps -/

section
variable {α β : Type} {b : Str}

theorem rd_some {p : Nat} {c : Byte} (h : b[p]? = some c) : rd p b = .ok c b := by simp [rd, h]

theorem bind_rd {p : Nat} {c : Byte} (h : b[p]? = some c) (k : Byte → B β) : (rd p >>= k) b = k c b := M.bind_ok (rd_some h)

theorem bind_rounds (k : Nat → B β) : (rounds >>= k) b = k (b.length + 1) b := rfl

theorem wr_ok {p : Nat} (h : p < b.length) (c : Byte) : wr p c b = .ok () (b.set p c) := by simp [wr, h]

theorem bind_wr {p : Nat} (h : p < b.length) (c : Byte) (k : Unit → B β) : (wr p c >>= k) b = k () (b.set p c) := M.bind_ok (wr_ok h c)

end

theorem lt_of_get {b : Str} {p : Nat} {c : Byte} (h : b[p]? = some c) : p < b.length := (List.getElem?_eq_some_iff.1 h).1

theorem At.lt {b : Str} {E p : Nat} {l : Str} (h : At b E p l) : E < b.length := lt_of_get h.nul

theorem At.fuel {b : Str} {E p : Nat} {l : Str} (h : At b E p l) : l.length < b.length := by have := h.lt; have := h.pos; omega

theorem At.nil {b : Str} {E p : Nat} (h : At b E p []) : b[p]? = some 0 := by
  have := h.pos; have := h.nul; simp at *; subst p; assumption

theorem At.hd {b : Str} {E p : Nat} {c : Byte} {l : Str} (h : At b E p (c :: l)) : b[p]? = some c ∧ c ≠ 0 := ⟨h.seg.1, h.no c (by simp)⟩

theorem At.tl {b : Str} {E p : Nat} {c : Byte} {l : Str} (h : At b E p (c :: l)) : At b E (p + 1) l :=
  ⟨by have := h.pos; simp at this; omega, h.seg.2, h.nul, fun x hx => h.no x (by simp [hx])⟩

theorem At.app {b : Str} {E p : Nat} {v l : Str} (h : At b E p (v ++ l)) : At b E (p + v.length) l :=
  ⟨by have := h.pos; simp at this; omega, (seg_append.1 h.seg).2, h.nul, fun x hx => h.no x (by simp [hx])⟩

/-- the byte that is read at the head of a text -/
theorem At.get {b : Str} {E p : Nat} {l : Str} (h : At b E p l) : b[p]? = some (l.head?.getD 0) := by
  cases l with
  | nil => exact h.nil
  | cons c l => exact h.hd.1

theorem At.zero {b : Str} {E p : Nat} {l : Str} (h : At b E p l) : l.head?.getD 0 = 0 ↔ l = [] := by
  cases l with
  | nil => simp
  | cons c l => simpa using h.hd.2

theorem skip_run {b : Str} {E : Nat} {l : Str} : ∀ {p f : Nat}, At b E p l → l.length < f →
    ∃ p', skip f p b = .ok p' b ∧ At b E p' (skipSpace l) ∧ p ≤ p' := by
  induction l with
  | nil =>
    intro p f h hf
    cases f with
    | zero => omega
    | succ f =>
      refine ⟨p, ?_, h, le_rfl⟩
      rw [skip, bind_rd h.nil, if_neg (by decide)]; rfl
  | cons c l ih =>
    intro p f h hf
    cases f with
    | zero => omega
    | succ f =>
      rw [skip, bind_rd h.hd.1]
      by_cases hc : isSpace c = true
      · rw [if_pos hc]
        obtain ⟨p', h1, h2, h3⟩ := ih h.tl (by simpa using hf)
        refine ⟨p', h1, ?_, by omega⟩
        simpa [skipSpace, List.dropWhile_cons, hc] using h2
      · rw [if_neg hc]
        refine ⟨p, rfl, ?_, le_rfl⟩
        simpa [skipSpace, List.dropWhile_cons, hc] using h

theorem equalAt_run {b : Str} {E : Nat} : ∀ {pat l : Str} {p : Nat}, (∀ c ∈ pat, c ≠ 0) → At b E p l →
    equalAt pat p b = .ok (strip pat l).isSome b := by
  intro pat
  induction pat with
  | nil => intro l p _ h; cases l <;> simp [equalAt, strip]
  | cons a pat ih =>
    intro l p hp h
    cases l with
    | nil =>
      have : a ≠ 0 := hp a (by simp)
      rw [equalAt, bind_rd h.nil]
      simp [strip, this]
    | cons c l =>
      rw [equalAt, bind_rd h.hd.1]
      by_cases hc : a = c
      · rw [if_pos hc, ih (fun x hx => hp x (by simp [hx])) h.tl]
        simp [strip, hc]
      · rw [if_neg hc]; simp [strip, hc]

theorem At.strip {b : Str} {E p : Nat} {pat l r : Str} (h : At b E p l) (hs : strip pat l = some r) : At b E (p + pat.length) r := by
  rw [strip_some hs] at h; exact h.app

theorem textEnd_run {b : Str} {E : Nat} {tag : Str} (ht : ∀ c ∈ tag, c ≠ 0) {l : Str} : ∀ {p f : Nat}, At b E p l → l.length < f →
    textEnd tag f p b = .ok ((parseText tag l).map fun x => p + x.1.length) b := by
  induction l with
  | nil =>
    intro p f h hf
    cases f with
    | zero => omega
    | succ f => rw [textEnd, bind_rd h.nil, if_pos rfl]; simp [parseText]
  | cons c l ih =>
    intro p f h hf
    cases f with
    | zero => omega
    | succ f =>
      rw [textEnd, bind_rd h.hd.1, if_neg h.hd.2, M.bind_ok (equalAt_run ht h)]
      unfold parseText
      cases hs : strip tag (c :: l) with
      | some r => simp
      | none =>
        simp only [Option.isSome_none, Bool.false_eq_true, if_false]
        rw [ih h.tl (by simpa using hf)]
        cases parseText tag l with
        | none => simp
        | some x => obtain ⟨v, r⟩ := x; simp; omega

theorem parseText_split {tag : Str} {l v r : Str} (h : parseText tag l = some (v, r)) : l = v ++ (tag ++ r) := by
  induction l generalizing v with
  | nil => simp [parseText] at h
  | cons c l ih =>
    rw [parseText] at h
    cases hs : strip tag (c :: l) with
    | some r' =>
      simp only [hs, Option.some.injEq, Prod.mk.injEq] at h
      obtain ⟨rfl, rfl⟩ := h
      simpa using strip_some hs
    | none =>
      simp only [hs] at h
      cases hp : parseText tag l with
      | none => simp [hp] at h
      | some x =>
        obtain ⟨v', r'⟩ := x
        simp only [hp, Option.some.injEq, Prod.mk.injEq] at h
        obtain ⟨rfl, rfl⟩ := h
        simp [ih hp]

theorem nameEnd_run {b : Str} {E : Nat} {l : Str} : ∀ {p f : Nat}, At b E p l → l.length < f →
    nameEnd f p b = .ok (p + (l.takeWhile isNameChar).length) b := by
  induction l with
  | nil =>
    intro p f h hf
    cases f with
    | zero => omega
    | succ f => rw [nameEnd, bind_rd h.nil, if_neg (by simp)]; simp
  | cons c l ih =>
    intro p f h hf
    cases f with
    | zero => omega
    | succ f =>
      rw [nameEnd, bind_rd h.hd.1]
      by_cases hc : isNameChar c = true
      · rw [if_pos ⟨h.hd.2, hc⟩, ih h.tl (by simpa using hf)]
        simp only [List.takeWhile_cons, hc, if_true, List.length_cons]
        congr 1; omega
      · rw [if_neg (fun x => hc x.2)]
        simp [hc]

theorem refBack_run {hex : Bool} {b : Str} {t : Nat} {v : Str} (hs : Seg b t ((if hex then 120 else 35) :: v)) : ∀ (k : Nat) {f mult ucs : Nat}, k ≤ v.length → k < f →
    refBack hex f (t + k) mult ucs b = .ok (refNum hex ((v.take k).reverse.takeWhile (· ≠ if hex then 120 else 35)) mult ucs) b := by
  intro k
  induction k with
  | zero =>
    intro f mult ucs hk hf
    cases f with
    | zero => omega
    | succ f => rw [refBack, Nat.add_zero, bind_rd hs.1, if_pos rfl]; simp [refNum]
  | succ k ih =>
    intro f mult ucs hk hf
    cases f with
    | zero => omega
    | succ f =>
      have hv : v[k]? = some v[k] := List.getElem?_eq_getElem (by omega)
      have hb : b[t + (k + 1)]? = some v[k] := by
        have := (seg_iff.1 hs.2) k (by omega)
        rw [← hv, ← this]; congr 1; omega
      have htk : (v.take (k + 1)).reverse = v[k] :: (v.take k).reverse := by
        rw [List.take_add_one, hv]; simp
      rw [refBack, bind_rd hb, htk]
      by_cases hc : v[k] = (if hex then 120 else 35)
      · rw [if_pos hc, List.takeWhile_cons_of_neg (by simp [hc])]; simp [refNum]
      · rw [if_neg hc, List.takeWhile_cons_of_pos (by simpa using hc), refNum]
        cases digitVal hex v[k] with
        | none => rfl
        | some d =>
          simp only []
          rw [if_neg (by omega), show t + (k + 1) - 1 = t + k by omega, ih (f := f) (by omega) (by omega)]

theorem refFrom_run {hex : Bool} {b : Str} {E t : Nat} {l : Str} (h : At b E (t + 1) l) (hb : b[t]? = some (if hex then 120 else 35)) :
    refFrom hex (t + 1) b = .ok (match parseText [59] l with
      | none => none
      | some (v, _) => (refNum hex (v.reverse.takeWhile (· ≠ if hex then 120 else 35)) 1 0).map fun n => (utf8 n, t + 1 + v.length + 1)) b := by
  rw [refFrom, bind_rd h.get]
  by_cases hl : l = []
  · rw [if_pos (h.zero.2 hl)]; subst hl; rfl
  · rw [if_neg (fun x => hl (h.zero.1 x)), bind_rounds, M.bind_ok (textEnd_run (by simp) h (by have := h.fuel; omega))]
    cases hp : parseText [59] l with
    | none => rfl
    | some x =>
      obtain ⟨v, r⟩ := x
      have hl := parseText_split hp
      have hs : Seg b t ((if hex then 120 else 35) :: v) := ⟨hb, (seg_append.1 (hl ▸ h.seg)).1⟩
      have hlen : v.length < b.length + 1 := by have := h.fuel; rw [hl] at this; simp at this; omega
      have hk : t + 1 + v.length - 1 = t + v.length := by omega
      simp only [Option.map_some]
      rw [hk, M.bind_ok (refBack_run hs v.length le_rfl hlen), List.take_length]
      cases refNum hex (v.reverse.takeWhile (· ≠ if hex then 120 else 35)) 1 0 <;> rfl

/-- `At` shifted by a known amount -/
theorem At.to {b : Str} {E p p' : Nat} {l : Str} (h : At b E p l) (e : p = p') : At b E p' l := e ▸ h

/-- the outcome of `GetCharacterRef` at the `&` of `&#l'` -/
theorem charRefB_run {b : Str} {E p : Nat} {l' : Str} (h : At b E p (38 :: 35 :: l')) :
    charRefB p b = .ok (if l' = [] then some ([], p + 1) else (charRef l').map fun x => (x.1, E - x.2.length)) b := by
  have h1 := h.tl
  have h2 := h1.tl
  rw [charRefB, bind_rd h1.hd.1, if_pos rfl]
  cases l' with
  | nil => rw [bind_rd h2.nil, if_pos rfl, if_pos rfl]; rfl
  | cons c l'' =>
    have h3 := h2.tl
    rw [bind_rd h2.hd.1, if_neg h2.hd.2, if_neg (show ¬ (c :: l'' = []) by simp)]
    by_cases hc : c = 120
    · subst hc
      rw [if_pos rfl, show p + 3 = p + 2 + 1 from rfl, refFrom_run (hex := true) (t := p + 2) (l := l'') h3 h2.hd.1]
      rw [charRef, if_pos rfl]
      cases hp : parseText [59] l'' with
      | none => rfl
      | some x =>
        obtain ⟨v, r⟩ := x
        have e := h3.pos
        rw [parseText_split hp] at e
        simp at e
        simp only [if_true]
        cases refNum true (v.reverse.takeWhile (· ≠ 120)) 1 0 with
        | none => rfl
        | some n =>
          simp only [Option.map_some]
          congr 3; omega
    · rw [if_neg hc, show p + 2 = p + 1 + 1 from rfl, refFrom_run (hex := false) (t := p + 1) (l := c :: l'') h2 h1.hd.1]
      rw [charRef, if_neg hc]
      cases hp : parseText [59] (c :: l'') with
      | none => rfl
      | some x =>
        obtain ⟨v, r⟩ := x
        have e := h2.pos
        rw [parseText_split hp] at e
        simp at e
        simp only [Bool.false_eq_true, if_false]
        cases refNum false (v.reverse.takeWhile (· ≠ 35)) 1 0 with
        | none => rfl
        | some n =>
          simp only [Option.map_some]
          congr 3; omega

theorem strip_snoc {pat l : Str} {c : Byte} : strip (pat ++ [c]) l = (strip pat l).bind fun r => strip [c] r := by
  induction pat generalizing l with
  | nil => simp [strip]
  | cons a pat ih =>
    cases l with
    | nil => simp [strip]
    | cons x l =>
      simp only [List.cons_append, strip]
      split
      · exact ih
      · rfl

theorem entityB_cons {b : Str} {E p : Nat} {l pat : Str} {v : Byte} (t : List (Str × Byte)) (hp : ∀ c ∈ pat, c ≠ 0) (h : At b E (p + 1) l) :
    entityB p ((pat, v) :: t) b = match strip (pat ++ [59]) l with
      | some r => .ok (some (v, E - r.length)) b
      | none => entityB p t b := by
  rw [entityB, M.bind_ok (equalAt_run hp h), strip_snoc]
  cases hs : strip pat l with
  | none => simp
  | some r =>
    have hr := h.strip hs
    simp only [Option.isSome_some, if_true, Option.bind_some]
    have hr' := hr.to (show p + 1 + pat.length = p + pat.length + 1 by omega)
    cases r with
    | nil => rw [bind_rd hr'.nil]; simp [strip]
    | cons c r =>
      rw [bind_rd hr'.hd.1, strip]
      by_cases hc : c = 59
      · subst hc
        have := hr.pos
        simp at this
        simp only [if_true, M.pure_run]
        congr 3; omega
      · rw [if_neg hc, if_neg (Ne.symm hc)]

theorem entityB_run {b : Str} {E p : Nat} {l : Str} (h : At b E (p + 1) l) :
    entityB p table b = .ok ((entity l).map fun x => (x.1, E - x.2.length)) b := by
  have e1 : lit "quot;" = lit "quot" ++ [59] := by decide
  have e2 : lit "amp;" = lit "amp" ++ [59] := by decide
  have e3 : lit "apos;" = lit "apos" ++ [59] := by decide
  have e4 : lit "lt;" = lit "lt" ++ [59] := by decide
  have e5 : lit "gt;" = lit "gt" ++ [59] := by decide
  unfold table entity
  rw [entityB_cons _ (by decide) h, entityB_cons _ (by decide) h, entityB_cons _ (by decide) h, entityB_cons _ (by decide) h,
    entityB_cons _ (by decide) h, e1, e2, e3, e4, e5]
  cases strip (lit "quot" ++ [59]) l <;> simp
  cases strip (lit "amp" ++ [59]) l <;> simp
  cases strip (lit "apos" ++ [59]) l <;> simp
  cases strip (lit "lt" ++ [59]) l <;> simp
  cases strip (lit "gt" ++ [59]) l <;> simp [entityB]

end Verif.Xml.InPlace
