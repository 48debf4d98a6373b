import Verif.Proof.XmlPlace2
/-! Names and values of the buffer: helper lemmas. -/
namespace Verif.Xml.InPlace
open Tec

/-- what the pair `s` stands for is `v`: before it is asked for, the bytes between its ends are those that `v` is made of;
afterwards `v` stands at its start -/
structure Holds (b : Str) (s : StrPair) (v : Str) : Prop where
  lt : s.stop < b.length
  val : (s.flush = true ∧ ∃ raw, s.start + raw.length = s.stop ∧ Seg b s.start raw ∧ (∀ c ∈ raw, c ≠ 0) ∧
      (s.nl = true ∧ v = value s.ent raw ∨ s.nl = false ∧ s.ent = false ∧ v = raw)) ∨
    (s.flush = false ∧ Seg b s.start (v ++ [0]) ∧ s.start + v.length ≤ s.stop ∧ ∀ c ∈ v, c ≠ 0)

theorem Holds.le {b : Str} {s : StrPair} {v : Str} (h : Holds b s v) : s.start ≤ s.stop := by
  rcases h.val with ⟨-, raw, e, -⟩ | ⟨-, -, e, -⟩ <;> omega

/-- the first byte behind those that matter for `s` -/
def StrPair.top (s : StrPair) : Nat := if s.flush then s.stop else s.stop + 1

theorem StrPair.top_le (s : StrPair) : s.top ≤ s.stop + 1 := by unfold top; split <;> omega

theorem Holds.frame {b b' : Str} {s : StrPair} {v : Str} (h : Holds b s v) {lo hi : Nat} (hf : Frame b b' lo hi) (hd : s.top ≤ lo ∨ hi ≤ s.start) : Holds b' s v := by
  refine ⟨hf.len ▸ h.lt, ?_⟩
  rcases h.val with ⟨e, raw, h1, h2, h3⟩ | ⟨e, h1, h2, h3⟩
  · refine .inl ⟨e, raw, h1, hf.seg ?_ h2, h3⟩
    simp [StrPair.top, e] at hd; omega
  · refine .inr ⟨e, hf.seg ?_ h1, h2, h3⟩
    simp [StrPair.top, e] at hd
    simp; omega

theorem cstr_get (l : Str) : cstr l <+: l ∧ (∀ c ∈ cstr l, c ≠ 0) := by
  refine ⟨List.takeWhile_prefix _, fun c hc => ?_⟩
  induction l with
  | nil => cases hc
  | cons d l ih =>
    by_cases hd : d = 0
    · simp [cstr, hd] at hc
    · have e : cstr (d :: l) = d :: cstr l := by simp [cstr, hd]
      rw [e] at hc
      rcases List.mem_cons.1 hc with rfl | hc
      · exact hd
      · exact ih hc

/-- behind `out` stands a NUL: the C string there is `cstr out` -/
theorem cstr_seg {b : Str} {p : Nat} {out : Str} (h : Seg b p (out ++ [0])) : Seg b p (cstr out ++ [0]) := by
  induction out generalizing p with
  | nil => exact h
  | cons c out ih =>
    by_cases hc : c = 0
    · subst hc; exact ⟨h.1, trivial⟩
    · have : cstr (c :: out) = c :: cstr out := by simp [cstr, hc]
      rw [this]
      exact ⟨h.1, ih h.2⟩

theorem getStr_run {b : Str} {s : StrPair} {v : Str} (h : Holds b s v) :
    ∃ s' b', getStr s b = .ok s' b' ∧ Holds b' s' v ∧ s'.start = s.start ∧ s'.stop = s.stop ∧ s'.flush = false ∧ Frame b b' s.start (s.stop + 1) := by
  rcases h.val with ⟨e, raw, h1, h2, h3, h4⟩ | ⟨e, -⟩
  · rw [getStr, if_pos e, bind_wr h.lt]
    have hf : Frame b (b.set s.stop 0) s.start (s.stop + 1) :=
      ⟨by simp, fun i hi => List.getElem?_set_ne (by omega)⟩
    have hn : (b.set s.stop 0)[s.stop]? = some 0 := by simp [h.lt]
    have hs : Seg (b.set s.stop 0) s.start raw := by
      rw [seg_iff] at h2 ⊢
      intro i hi
      rw [List.getElem?_set_ne (by omega)]; exact h2 i hi
    rcases h4 with ⟨hnl, rfl⟩ | ⟨hnl, hent, rfl⟩
    · rw [if_pos (by simp [hnl]), bind_rounds]
      have inv : Inv b (b.set s.stop 0) s.start raw [] raw :=
        ⟨h1 ▸ hf, by simp, fun j _ hj => seg_iff.1 hs j hj, h1 ▸ hn, List.suffix_refl _, by simp, h3⟩
      obtain ⟨b', r1, r2⟩ := cook_run s.ent raw.length (g := (b.set s.stop 0).length + 1) inv le_rfl (by have := h.lt; simp; omega)
      simp only [List.length_nil, Nat.add_zero, h1, show s.stop - raw.length = s.start by omega] at r1
      rw [hnl, M.bind_ok r1]
      have hle := r2.le
      simp at hle
      have hlt : s.start + (cook s.ent raw raw.length [] raw).length < b'.length := by
        rw [r2.frame.len]; have := h.lt; omega
      rw [bind_wr hlt]
      have hseg : Seg (b'.set (s.start + (cook s.ent raw raw.length [] raw).length) 0) s.start (cook s.ent raw raw.length [] raw ++ [0]) := by
        rw [seg_append]
        refine ⟨?_, by simp [Seg, hlt]⟩
        rw [seg_iff]
        intro i hi
        rw [List.getElem?_set_ne (by omega)]
        exact r2.done i hi
      have hlen : (value s.ent raw).length ≤ (cook s.ent raw raw.length [] raw).length := (cstr_get _).1.length_le
      refine ⟨_, _, rfl, ⟨?_, .inr ⟨rfl, cstr_seg hseg, ?_, (cstr_get _).2⟩⟩, rfl, rfl, rfl, ?_⟩
      · simp [r2.frame.len, h.lt]
      · change s.start + (value s.ent raw).length ≤ s.stop; omega
      · refine ⟨by simp [r2.frame.len], fun i hi => ?_⟩
        rw [List.getElem?_set_ne (by omega), r2.frame.same i (by omega)]
    · rw [if_neg (by simp [hnl, hent])]
      refine ⟨_, _, rfl, ⟨by simpa using h.lt, .inr ⟨rfl, ?_, le_of_eq h1, h3⟩⟩, rfl, rfl, rfl, hf⟩
      rw [seg_append]
      exact ⟨hs, ⟨h1 ▸ hn, trivial⟩⟩
  · refine ⟨s, b, ?_, h, rfl, rfl, e, .refl ..⟩
    rw [getStr, if_neg (by simp [e])]; rfl

theorem readC_run {b : Str} {v : Str} : ∀ {p f : Nat}, Seg b p (v ++ [0]) → (∀ c ∈ v, c ≠ 0) → v.length < f → readC f p b = .ok v b := by
  induction v with
  | nil =>
    intro p f h _ hf
    cases f with
    | zero => omega
    | succ f => rw [readC, bind_rd h.1, if_pos rfl]; rfl
  | cons c v ih =>
    intro p f h h0 hf
    cases f with
    | zero => omega
    | succ f =>
      rw [readC, bind_rd h.1, if_neg (h0 c (by simp)), M.bind_ok (ih h.2 (fun x hx => h0 x (by simp [hx])) (by simpa using hf))]
      rfl

theorem strEq_run {b : Str} {v : Str} : ∀ {w : Str} {p q f : Nat}, Seg b p (v ++ [0]) → Seg b q (w ++ [0]) → (∀ c ∈ v, c ≠ 0) → (∀ c ∈ w, c ≠ 0) → v.length < f →
    strEq f p q b = .ok (v == w) b := by
  induction v with
  | nil =>
    intro w p q f h hw _ hw0 hf
    cases f with
    | zero => omega
    | succ f =>
      rw [strEq, bind_rd h.1]
      cases w with
      | nil => rw [bind_rd hw.1, if_neg (by simp), if_pos rfl]; rfl
      | cons d w => rw [bind_rd hw.1, if_pos (Ne.symm (hw0 d (by simp)))]; rfl
  | cons c v ih =>
    intro w p q f h hw h0 hw0 hf
    cases f with
    | zero => omega
    | succ f =>
      have hc := h0 c (by simp)
      rw [strEq, bind_rd h.1]
      cases w with
      | nil => rw [bind_rd hw.1, if_pos hc]; rfl
      | cons d w =>
        rw [bind_rd hw.1]
        by_cases e : c = d
        · subst e
          rw [if_neg (by simp), if_neg hc, ih h.2 hw.2 (fun x hx => h0 x (by simp [hx])) (fun x hx => hw0 x (by simp [hx])) (by simpa using hf)]
          simp
        · rw [if_pos e]
          simp [e]

theorem Holds.flushed {b : Str} {s : StrPair} {v : Str} (h : Holds b s v) (e : s.flush = false) :
    Seg b s.start (v ++ [0]) ∧ s.start + v.length ≤ s.stop ∧ ∀ c ∈ v, c ≠ 0 := by
  rcases h.val with ⟨e', -⟩ | ⟨-, h⟩
  · rw [e] at e'; cases e'
  · exact h

theorem ask_run {b : Str} {s : StrPair} {v : Str} (h : Holds b s v) :
    ∃ s' b', ask s b = .ok (s', v) b' ∧ Holds b' s' v ∧ s'.start = s.start ∧ s'.stop = s.stop ∧ s'.flush = false ∧ Frame b b' s.start (s.stop + 1) := by
  obtain ⟨s', b', h1, h2, h3, h4, h5, h6⟩ := getStr_run h
  obtain ⟨k1, k2, k3⟩ := h2.flushed h5
  refine ⟨s', b', ?_, h2, h3, h4, h5, h6⟩
  rw [ask, M.bind_ok h1, bind_rounds, M.bind_ok (readC_run k1 k3 (by have := h2.lt; omega))]
  rfl

theorem failWith_run {α : Type} {b : Str} {s : StrPair} {v : Str} (h : Holds b s v) (e : Code) : ∃ b', failWith (α := α) e s b = .ok (.error e) b' := by
  obtain ⟨s', b', h1, -⟩ := ask_run h
  exact ⟨b', by rw [failWith, M.bind_ok h1]; rfl⟩

theorem eqPair_run {b : Str} {s t : StrPair} {v w : Str} (hs : Holds b s v) (ht : Holds b t w) (es : s.flush = false) (et : t.flush = false) :
    strEq (b.length + 1) s.start t.start b = .ok (v == w) b := by
  obtain ⟨k1, k2, k3⟩ := hs.flushed es
  obtain ⟨l1, l2, l3⟩ := ht.flushed et
  exact strEq_run k1 l1 k3 l3 (by have := hs.lt; omega)

/-! ## Cutting out -/

theorem cut_text {b : Str} {E p : Nat} {l v r tag : Str} (h : At b E p l) (ent : Bool) (hp : parseText tag l = some (v, r)) :
    Holds b ⟨p, p + v.length, true, ent, true⟩ (value ent v) := by
  have e := parseText_split hp
  rw [e] at h
  refine ⟨by have := h.pos; have := h.lt; simp at *; omega, .inl ⟨rfl, v, rfl, (seg_append.1 h.seg).1, fun c hc => h.no c (by simp [hc]), .inl ⟨rfl, rfl⟩⟩⟩

theorem parseTextB_run {b : Str} {E p : Nat} {l tag : Str} (h : At b E p l) (ht : ∀ c ∈ tag, c ≠ 0) (ent : Bool) :
    parseTextB tag ent p b = .ok ((parseText tag l).map fun x => (⟨p, p + x.1.length, true, ent, true⟩, p + x.1.length + tag.length)) b := by
  rw [parseTextB, bind_rounds, M.bind_ok (textEnd_run ht h (by have := h.fuel; omega))]
  cases parseText tag l <;> rfl

theorem At.cut {b : Str} {E p : Nat} {l v r tag : Str} (h : At b E p l) (hp : parseText tag l = some (v, r)) : At b E (p + v.length + tag.length) r := by
  rw [parseText_split hp] at h; exact h.app.app

theorem parseNameB_run {b : Str} {E p : Nat} {l : Str} (h : At b E p l) :
    parseNameB p b = .ok ((parseName l).map fun x => (⟨p, p + x.1.length, true, false, false⟩, p + x.1.length)) b := by
  cases l with
  | nil => rw [parseNameB, bind_rd h.nil, if_pos rfl]; rfl
  | cons c l =>
    rw [parseNameB, bind_rd h.hd.1, if_neg h.hd.2, parseName]
    by_cases hc : isNameStart c = true
    · rw [if_pos hc, if_pos hc, bind_rounds, M.bind_ok (nameEnd_run h.tl (by have := h.tl.fuel; omega))]
      simp only [Option.map_some, M.pure_run, List.length_cons]
      rw [show p + 1 + (l.takeWhile isNameChar).length = p + ((l.takeWhile isNameChar).length + 1) by omega]
    · rw [if_neg hc, if_neg hc]; rfl

theorem parseName_split {l n r : Str} (h : parseName l = some (n, r)) : l = n ++ r ∧ n ≠ [] := by
  cases l with
  | nil => simp [parseName] at h
  | cons c l =>
    rw [parseName] at h
    split at h
    · simp only [Option.some.injEq, Prod.mk.injEq] at h
      obtain ⟨rfl, rfl⟩ := h
      simp
    · cases h

theorem cut_name {b : Str} {E p : Nat} {l n r : Str} (h : At b E p l) (hp : parseName l = some (n, r)) :
    Holds b ⟨p, p + n.length, true, false, false⟩ n ∧ At b E (p + n.length) r := by
  have e := (parseName_split hp).1
  rw [e] at h
  refine ⟨⟨by have := h.pos; have := h.lt; simp at *; omega, .inl ⟨rfl, n, rfl, (seg_append.1 h.seg).1, fun c hc => h.no c (by simp [hc]), .inr ⟨rfl, rfl, rfl⟩⟩⟩, h.app⟩

end Verif.Xml.InPlace
