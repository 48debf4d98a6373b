import Verif.Model.Xml.ErrText
import Verif.Spec.XmlErrText
import Verif.Proof.TecText
import Verif.Proof.Json5
import Verif.Proof.Xml3
/-!
# Error texts: helper lemmas
-/
namespace Verif.Xml.ErrText
open Tec

/-- `a` with the text `t` from `i` on -/
theorem store_ok (t : Str) : ∀ {a : Chars} {i : Nat}, i + t.length ≤ a.length →
    store a i t = .ok (a.take i ++ t.map some ++ a.drop (i + t.length)) := by
  induction t with
  | nil => intro a i _; simp [store]
  | cons b l ih =>
    intro a i h
    simp only [List.length_cons] at h
    have hi : i < a.length := by omega
    rw [store, if_pos hi, ih (by rw [List.length_set]; omega)]
    congr 1
    rw [List.take_set, List.drop_set_of_lt (by omega)]
    have e1 : (a.take (i + 1)).set i (some b) = a.take i ++ [some b] := by
      rw [List.take_add_one, List.getElem?_eq_getElem hi, List.set_append_right _ _ (by simp)]
      simp [Nat.min_eq_left (Nat.le_of_lt hi)]
    rw [e1]
    simp only [List.append_assoc, List.map_cons, List.cons_append, List.nil_append, List.length_cons]
    rw [show i + 1 + l.length = i + (l.length + 1) by omega]

theorem cstr_ok : ∀ {t : Str} (a : Chars), 0 ∉ t → cstrOf (t.map some ++ some 0 :: a) = .ok t := by
  intro t
  induction t with
  | nil => intro a _; rfl
  | cons b l ih =>
    intro a h
    simp only [List.mem_cons, not_or] at h
    simp only [List.map_cons, List.cons_append, cstrOf]
    rw [if_neg (fun e => h.1 e.symm), ih a h.2]
    rfl

/-- both calls of `snprintf` together -/
theorem two_parts {s t : Str} {size : Nat} (hs : 0 ∉ s) (ht : 0 ∉ t) (h : s.length < size) :
    (do
      let a ← snprintfAt (List.replicate size none) 0 size s
      let u ← cstrOf a
      let a ← snprintfAt a u.length (size - u.length) t
      cstrOf a) = .ok ((s ++ t).take (size - 1)) := by
  have e1 : s.take (size - 1) = s := List.take_of_length_le (by omega)
  have h1 : snprintfAt (List.replicate size none) 0 size s = .ok (s.map some ++ some 0 :: List.replicate (size - (s.length + 1)) none) := by
    unfold snprintfAt
    rw [if_neg (by omega), e1, store_ok _ (by simp; omega)]
    simp
  have hm : 0 ∉ t.take (size - s.length - 1) := fun m => ht (List.mem_of_mem_take m)
  have h2 : ∃ a, snprintfAt (s.map some ++ some 0 :: List.replicate (size - (s.length + 1)) none) s.length (size - s.length) t =
      .ok ((s ++ t.take (size - s.length - 1)).map some ++ some 0 :: a) := by
    unfold snprintfAt
    rw [if_neg (by omega), store_ok _ (by simp; omega)]
    refine ⟨List.drop (s.length + (t.take (size - s.length - 1) ++ [0]).length) (s.map some ++ some 0 :: List.replicate (size - (s.length + 1)) none), congrArg _ ?_⟩
    rw [List.take_append_of_le_length (by simp), List.take_of_length_le (by simp)]
    simp only [List.map_append, List.map_cons, List.map_nil, List.append_assoc, List.cons_append, List.nil_append]
  obtain ⟨a, h2⟩ := h2
  have h3 : cstrOf ((s ++ t.take (size - s.length - 1)).map some ++ some 0 :: a) = .ok (s ++ t.take (size - s.length - 1)) :=
    cstr_ok a (by rw [List.mem_append, not_or]; exact ⟨hs, hm⟩)
  rw [h1]
  show (do let u ← cstrOf _; let a ← snprintfAt _ u.length (size - u.length) t; cstrOf a) = _
  rw [cstr_ok _ hs]
  show (do let a ← snprintfAt _ s.length (size - s.length) t; cstrOf a) = _
  rw [h2]
  show cstrOf _ = _
  rw [h3, List.take_append, List.take_of_length_le (by omega : s.length ≤ size - 1)]
  congr 3
  omega

theorem names_eq : errorNames = enumerators.map lit := by decide +kernel

theorem named {e : Nat} {name : Str} (h : Named e name) : errorNames[e]? = some name := by rw [names_eq]; exact h

theorem names_short : ∀ n ∈ errorNames, n.length ≤ 34 ∧ 0 ∉ n ∧ 32 ∉ n := by decide +kernel

theorem names_nodup : errorNames.Nodup := by decide +kernel

theorem sixteen_hex : ∀ e < 20, sixteen[e]? = some (hex e) := by decide +kernel

theorem hex_short : ∀ e < 20, (hex e).length ≤ 2 ∧ 0 ∉ hex e := by decide +kernel

theorem dec_short : ∀ e < 20, (dec (e : Nat)).length ≤ 2 := by decide +kernel

theorem dec_clean (x : Int) : 0 ∉ dec x ∧ 58 ∉ dec x := by
  have h : ∀ b ∈ dec x, (48 ≤ b ∧ b ≤ 57) ∨ b = 45 := by
    intro b hb
    unfold dec at hb
    split at hb
    · rcases List.mem_cons.1 hb with rfl | hb
      · exact .inr rfl
      · exact .inl ((decNat_bytes _).2 b hb)
    · exact .inl ((decNat_bytes _).2 b hb)
  exact ⟨fun m => absurd (h _ m) (by decide), fun m => absurd (h _ m) (by decide)⟩

/-- the head of a text -/
def headOf (name : Str) (e : Nat) (line : Int) : Str :=
  lit "Error=" ++ name ++ lit " ErrorID=" ++ dec e ++ lit " (0x" ++ hex e ++ lit ") Line number=" ++ dec line ++ lit ": "

theorem head_short {e : Nat} {name : Str} (hn : errorNames[e]? = some name) {line : Int} (hl : InI32 line) :
    (headOf name e line).length ≤ 84 ∧ 0 ∉ headOf name e line := by
  have he : e < 20 := (List.getElem?_eq_some_iff.1 hn).1
  obtain ⟨n1, n2, -⟩ := names_short name (List.mem_of_getElem? hn)
  obtain ⟨x1, x2⟩ := hex_short e he
  have d1 := dec_short e he
  have d2 := dec_i32 hl
  unfold headOf
  refine ⟨?_, ?_⟩
  · simp only [List.length_append, show (lit "Error=").length = 6 from rfl, show (lit " ErrorID=").length = 9 from rfl,
      show (lit " (0x").length = 4 from rfl, show (lit ") Line number=").length = 14 from rfl, show (lit ": ").length = 2 from rfl]
    omega
  · simp only [List.mem_append, not_or]
    exact ⟨⟨⟨⟨⟨⟨⟨⟨by decide +kernel, n2⟩, by decide +kernel⟩, (dec_clean _).1⟩, by decide +kernel⟩, x2⟩, by decide +kernel⟩, (dec_clean _).1⟩, by decide +kernel⟩

theorem chain {a : Chars} {size : Nat} {s m r : Str} (h : (do
      let a ← snprintfAt a 0 size s
      let u ← cstrOf a
      let a ← snprintfAt a u.length (size - u.length) m
      cstrOf a) = .ok r) (f : Str → Trouble) : (do
      let a ← snprintfAt a 0 size s
      let t ← cstrOf a
      let a ← snprintfAt a t.length (size - t.length) m
      let t ← cstrOf a
      .ok (f t)) = Out.ok (f r) := by
  cases ha : snprintfAt a 0 size s with
  | err x => rw [ha] at h; cases h
  | ub x => rw [ha] at h; cases h
  | ok a =>
    rw [ha] at h
    cases hu : cstrOf a with
    | err x => simp only [hu, bind, Out.bind] at h; cases h
    | ub x => simp only [hu, bind, Out.bind] at h; cases h
    | ok u =>
      cases hb : snprintfAt a u.length (size - u.length) m with
      | err x => simp only [hu, hb, bind, Out.bind] at h; cases h
      | ub x => simp only [hu, hb, bind, Out.bind] at h; cases h
      | ok b =>
        simp only [hu, hb, bind, Out.bind] at h ⊢
        rw [h]

theorem setError_ok {e : Nat} {name : Str} (hn : errorNames[e]? = some name) {line : Int} (hl : InI32 line) {m : Str} (hm : 0 ∉ m) :
    setError e line (some m) = .ok ⟨e, line, some ((headOf name e line ++ m).take 999)⟩ := by
  obtain ⟨h1, h2⟩ := head_short hn hl
  have h := chain (two_parts (size := bufferSize) h2 hm (by unfold bufferSize; omega)) (fun t => ⟨e, line, some t⟩)
  have hi : errorIDToName e = .ok name := by unfold errorIDToName; rw [hn]
  have he : setError e line (some m) = (do
      let name ← errorIDToName e
      let a ← snprintfAt (List.replicate bufferSize none) 0 bufferSize (headOf name e line)
      let t ← cstrOf a
      let a ← snprintfAt a t.length (bufferSize - t.length) m
      let t ← cstrOf a
      .ok ⟨e, line, some t⟩) := rfl
  rw [he, hi, Verif.Out.ok_bind]
  exact h.trans (by rw [show bufferSize - 1 = 999 from rfl])

/-- texts are parted at the first `c` -/
theorem parted {c : Byte} : ∀ {a b x y : Str}, c ∉ a → c ∉ b → a ++ c :: x = b ++ c :: y → a = b ∧ x = y := by
  intro a
  induction a with
  | nil =>
    intro b x y _ hb e
    cases b with
    | nil => exact ⟨rfl, (List.cons.inj e).2⟩
    | cons d b => exact absurd (by rw [(List.cons.inj e).1]; exact List.mem_cons_self) hb
  | cons d a ih =>
    intro b x y ha hb e
    cases b with
    | nil => exact absurd (by rw [← (List.cons.inj e).1]; exact List.mem_cons_self) ha
    | cons d' b =>
      simp only [List.mem_cons, not_or] at ha hb
      obtain ⟨e1, e2⟩ := ih ha.2 hb.2 (List.cons.inj e).2
      exact ⟨by rw [e1, (List.cons.inj e).1], e2⟩

theorem says_inj {t n n' : Str} {e e' : Nat} {k k' : Int} {r r' : Str} (hn : errorNames[e]? = some n) (hn' : errorNames[e']? = some n')
    (h : Says t n e k r) (h' : Says t n' e' k' r') : e = e' ∧ k = k' ∧ r = r' := by
  obtain ⟨x, hx, rfl⟩ := h
  obtain ⟨y, hy, h⟩ := h'
  have h := List.append_cancel_left h
  obtain ⟨h1, h⟩ := parted (c := 32) (names_short n (List.mem_of_getElem? hn)).2.2 (names_short n' (List.mem_of_getElem? hn')).2.2 h
  have he : e = e' := by
    obtain ⟨i1, e1⟩ := List.getElem?_eq_some_iff.1 hn
    obtain ⟨i2, e2⟩ := List.getElem?_eq_some_iff.1 hn'
    exact (List.Nodup.getElem_inj_iff names_nodup).1 (e1.trans (h1.trans e2.symm))
  subst he
  rw [hx] at hy
  obtain rfl := Option.some.inj hy
  have h : lit "ErrorID=" ++ _ = lit "ErrorID=" ++ _ := h
  have h := List.append_cancel_left (List.append_cancel_left (List.append_cancel_left (List.append_cancel_left (List.append_cancel_left h))))
  obtain ⟨h2, h3⟩ := parted (c := 58) (dec_clean k).2 (dec_clean k').2 h
  exact ⟨rfl, Json.dec_inj h2, (List.cons.inj h3).2⟩

end Verif.Xml.ErrText
