import Verif.Proof.Xml8
import Verif.Spec.XmlDoc
/-!
# A text that shows a document is read as that document
-/
namespace Verif.Xml
open Tec Spec

/-! ## Entities -/

theorem table_cases {e : Str} {b : UInt8} (h : (e, b) ∈ entityTable) :
    ∃ a l, e = 38 :: a :: l ∧ a ≠ 35 ∧ (∀ r, entity (a :: (l ++ r)) = some (b, r)) ∧ (∀ c ∈ e, c ≠ 0 ∧ c ≠ 60 ∧ c ≠ 34) ∧ ¬ White 38 ∧ ¬ White b := by
  simp only [entityTable, List.mem_cons, Prod.mk.injEq, List.not_mem_nil, or_false] at h
  rcases h with ⟨rfl, rfl⟩ | ⟨rfl, rfl⟩ | ⟨rfl, rfl⟩ | ⟨rfl, rfl⟩ | ⟨rfl, rfl⟩
  · exact ⟨113, lit "uot;", rfl, by decide, entity_quot, by decide, by decide, by decide⟩
  · exact ⟨97, lit "mp;", rfl, by decide, entity_amp, by decide, by decide, by decide⟩
  · exact ⟨97, lit "pos;", rfl, by decide, entity_apos, by decide, by decide, by decide⟩
  · exact ⟨108, lit "t;", rfl, by decide, entity_lt, by decide, by decide, by decide⟩
  · exact ⟨103, lit "t;", rfl, by decide, entity_gt, by decide, by decide, by decide⟩

theorem cook_byte (orig : Str) (f : Nat) (out : Str) {b : UInt8} (l : Str) (h0 : b ≠ 10) (h1 : b ≠ 13) (h2 : b ≠ 38) :
    cook true orig (f + 1) out (b :: l) = cook true orig f (out ++ [b]) l := by
  rw [cook.eq_def]
  simp only
  rw [if_neg h1, if_neg h0, if_neg fun h => h2 h.2]

theorem cook_newline (ent : Bool) (orig : Str) (f : Nat) (out : Str) {n l : Str} (h : Newline n l) :
    cook ent orig (f + 1) out (n ++ l) = cook ent orig f (out ++ [10]) l := by
  rw [cook.eq_def]
  rcases h with rfl | rfl | ⟨rfl, h⟩ | ⟨rfl, h⟩
  · rfl
  · rfl
  · simp only [List.cons_append, List.nil_append, if_true]
    split
    · exact absurd rfl h
    · rfl
  · simp only [List.cons_append, List.nil_append]
    rw [if_neg (by decide), if_pos trivial]
    split
    · exact absurd rfl h
    · rfl

theorem newline_mem {n l : Str} (h : Newline n l) : n ≠ [] ∧ ∀ b ∈ n, b = 10 ∨ b = 13 := by
  rcases h with rfl | rfl | ⟨rfl, -⟩ | ⟨rfl, -⟩ <;> exact ⟨by simp, by decide⟩

/-! ## References to characters -/

theorem digitTable_val {c : UInt8} {d : Nat} (h : (c, d) ∈ digitTable) : d < 16 ∧ digitVal true c = some d ∧ (d < 10 → digitVal false c = some d ∧ c ≠ 120) ∧ c ≠ 120 ∧ c ≠ 35 ∧ c ≠ 59 ∧ c ≠ 0 ∧ c ≠ 60 ∧ c ≠ 34 := by
  have : ∀ p ∈ digitTable, p.2 < 16 ∧ digitVal true p.1 = some p.2 ∧ (p.2 < 10 → digitVal false p.1 = some p.2 ∧ p.1 ≠ 120) ∧ p.1 ≠ 120 ∧ p.1 ≠ 35 ∧ p.1 ≠ 59 ∧ p.1 ≠ 0 ∧ p.1 ≠ 60 ∧ p.1 ≠ 34 := by decide +kernel
  exact this _ h

theorem numeral_mem {base : Nat} {s : Str} {n : Nat} (h : Numeral base s n) : ∀ c ∈ s, c ≠ 120 ∧ c ≠ 35 ∧ c ≠ 59 ∧ c ≠ 0 ∧ c ≠ 60 ∧ c ≠ 34 := by
  induction h with
  | nil => simp
  | digit _ hc _ ih =>
    intro c h
    rcases List.mem_append.1 h with h | h
    · exact ih c h
    · cases List.mem_singleton.1 h
      exact (digitTable_val hc).2.2.2

theorem refNum_numeral {hex : Bool} {base : Nat} (hb : base = if hex then 16 else 10) {s : Str} {n : Nat} (h : Numeral base s n) :
    ∀ M ucs, M * n < 4294967296 → refNum hex s.reverse (u32 M) ucs = some (ucs + M * n) := by
  induction h with
  | nil => intro M ucs _; rfl
  | @digit s n c d _ hc hd ih =>
    intro M ucs hM
    have hv : digitVal hex c = some d := by
      obtain ⟨-, h1, h2, -⟩ := digitTable_val hc
      cases hex with
      | true => exact h1
      | false => exact (h2 (by simpa [hb] using hd)).1
    have e : M * (base * n + d) = M * base * n + M * d := by rw [Nat.mul_add, Nat.mul_assoc]
    rw [e] at hM ⊢
    rw [List.reverse_append, List.reverse_singleton, List.singleton_append, refNum, hv]
    simp only
    have h1 : u32 (u32 M * if hex then 16 else 10) = u32 (M * base) := by rw [← hb]; simp [u32, Nat.mod_mul_mod]
    have h2 : u32 (u32 M * d) = M * d := by
      rw [show u32 (u32 M * d) = u32 (M * d) by simp [u32, Nat.mod_mul_mod]]
      exact u32_of_lt (by omega)
    rw [h1, h2, ih _ _ (by omega)]
    congr 1
    omega

theorem utf8_char (c : Char) : utf8 c.toNat = String.utf8EncodeChar c := by
  have hc : c.toNat < 1114112 := by
    have := c.valid
    unfold UInt32.isValidChar Nat.isValidChar at this
    show c.val.toNat < _
    omega
  have or1 : ∀ k, k < 32 → k ||| 0xC0 = k % 32 + 192 := by decide +kernel
  have or2 : ∀ k, k < 16 → k ||| 0xE0 = k % 16 + 224 := by decide +kernel
  have or3 : ∀ k, k < 8 → k ||| 0xF0 = k % 8 + 240 := by decide +kernel
  unfold utf8 String.utf8EncodeChar
  simp only [show c.val.toNat = c.toNat from rfl]
  generalize c.toNat = n at hc
  by_cases h1 : n < 128
  · rw [if_pos h1, if_pos (by omega)]
  by_cases h2 : n < 2048
  · rw [if_neg h1, if_pos h2, if_neg (by omega), if_pos (by omega), or1 _ (by omega), Nat.add_comm 128]
  by_cases h3 : n < 65536
  · rw [if_neg h1, if_neg h2, if_pos h3, if_neg (by omega), if_neg (by omega), if_pos (by omega), or2 _ (by omega), Nat.add_comm 128, Nat.add_comm 128]
  · rw [if_neg h1, if_neg h2, if_neg h3, if_pos (by omega), if_neg (by omega), if_neg (by omega), if_neg (by omega), or3 _ (by omega), Nat.add_comm 128, Nat.add_comm 128, Nat.add_comm 128]

theorem takeWhile_self {p : UInt8 → Bool} {l : Str} (h : ∀ c ∈ l, p c = true) : l.takeWhile p = l := by
  induction l with
  | nil => rfl
  | cons a l ih => rw [List.takeWhile_cons, if_pos (h a (by simp)), ih fun c hc => h c (by simp [hc])]

theorem refText_charRef {e : Str} {n : Nat} (h : RefText e n) (hn : n < 4294967296) :
    ∃ b l, e = 38 :: 35 :: b :: l ∧ (∀ r, charRef (b :: (l ++ r)) = some (utf8 n, r)) ∧ ∀ c ∈ e, c ≠ 0 ∧ c ≠ 60 ∧ c ≠ 34 := by
  obtain ⟨s, hs, ⟨h, rfl⟩ | ⟨h, rfl⟩⟩ := h
  · have hm := numeral_mem h
    have hr := refNum_numeral (hex := false) rfl h 1 0 (by omega)
    obtain ⟨b, l, rfl⟩ : ∃ b l, s = b :: l := by cases s with | nil => exact absurd rfl hs | cons b l => exact ⟨b, l, rfl⟩
    refine ⟨b, l ++ [59], rfl, fun r => ?_, ?_⟩
    · unfold charRef
      simp only
      rw [if_neg (hm b (by simp)).1, show b :: (l ++ [59] ++ r) = (b :: l) ++ 59 :: ([] ++ r) by simp, parseText_one (fun hh => (hm _ hh).2.2.1 rfl)]
      simp only
      rw [takeWhile_self (by intro c hc; simpa using (hm c (List.mem_reverse.1 hc)).2.1)]
      rw [show (1 : Nat) = u32 1 from rfl, hr]
      simp
    · intro c hc
      simp only [lit, List.mem_append] at hc
      rcases hc with (hc | hc) | hc
      · revert c; decide
      · exact (hm c hc).2.2.2
      · revert c; decide
  · have hm := numeral_mem h
    have hr := refNum_numeral (hex := true) rfl h 1 0 (by omega)
    refine ⟨120, s ++ [59], by simp [lit], fun r => ?_, ?_⟩
    · unfold charRef
      simp only
      rw [if_pos trivial, show s ++ [59] ++ r = s ++ 59 :: ([] ++ r) by simp, parseText_one (fun hh => (hm _ hh).2.2.1 rfl)]
      simp only
      rw [takeWhile_self (by intro c hc; simpa using (hm c (by simpa using hc)).1)]
      rw [show (1 : Nat) = u32 1 from rfl, hr]
      simp
    · intro c hc
      simp only [lit, List.mem_append] at hc
      rcases hc with (hc | hc) | hc
      · revert c; decide
      · exact (hm c hc).2.2.2
      · revert c; decide

theorem utf8_big {n : Nat} (h : 0x200000 ≤ n) : utf8 n = [] := by
  unfold utf8
  rw [if_neg (by omega), if_neg (by omega), if_neg (by omega), if_neg (by omega)]

theorem char_small (c : Char) : c.toNat < 4294967296 := c.val.toNat_lt

theorem utf8_pos (c : Char) (h : c.toNat ≠ 0) : ∀ b ∈ String.utf8EncodeChar c, b ≠ 0 := by
  have key : ∀ k, 0 < k → k < 256 → UInt8.ofNat k ≠ 0 := by
    have : ∀ k, k < 256 → 0 < k → UInt8.ofNat k ≠ 0 := by decide +kernel
    exact fun k h h' => this k h' h
  unfold String.utf8EncodeChar
  simp only [show c.val.toNat = c.toNat from rfl]
  generalize c.toNat = n at h
  intro b
  split
  · intro hb; simp only [List.mem_singleton] at hb; subst hb; exact key _ (by omega) (by omega)
  split
  · intro hb; simp only [List.mem_cons, List.not_mem_nil, or_false] at hb
    rcases hb with rfl | rfl <;> exact key _ (by omega) (by omega)
  split
  · intro hb; simp only [List.mem_cons, List.not_mem_nil, or_false] at hb
    rcases hb with rfl | rfl | rfl <;> exact key _ (by omega) (by omega)
  · intro hb; simp only [List.mem_cons, List.not_mem_nil, or_false] at hb
    rcases hb with rfl | rfl | rfl | rfl <;> exact key _ (by omega) (by omega)

theorem cook_ref (orig : Str) (f : Nat) (out : Str) {b : UInt8} {l v r : Str} (h : charRef (b :: l) = some (v, r)) :
    cook true orig (f + 1) out (38 :: 35 :: b :: l) = cook true orig f (out ++ v) r := by
  rw [cook.eq_def]
  simp only
  rw [if_neg (by decide), if_neg (by decide), if_pos ⟨trivial, trivial⟩, if_neg (by simp), h]

theorem digit_table {hex : Bool} {c : UInt8} {d : Nat} (h : digitVal hex c = some d) : (c, d) ∈ digitTable ∧ d < if hex then 16 else 10 := by
  have : ∀ hex : Bool, ∀ c : Fin 256, ∀ d ∈ digitVal hex (UInt8.ofNat c), (UInt8.ofNat c, d) ∈ digitTable ∧ d < if hex then 16 else 10 := by decide +kernel
  have h' := this hex ⟨c.toNat, c.toNat_lt⟩ d
  simp only [UInt8.ofNat_toNat] at h'
  exact h' h

theorem refNum_wrong {hex : Bool} {base : Nat} (hb : base = if hex then 16 else 10) (s : Str) (h : ¬ ∃ n, Numeral base s n) : ∀ M ucs, refNum hex s.reverse M ucs = none := by
  suffices ∀ (t : Str) (M ucs : Nat), refNum hex t M ucs ≠ none → ∃ n, Numeral base t.reverse n by
    intro M ucs
    by_contra hc
    have := this _ _ _ hc
    rw [List.reverse_reverse] at this
    exact h this
  intro t
  induction t with
  | nil => exact fun _ _ _ => ⟨0, .nil⟩
  | cons c t ih =>
    intro M ucs hr
    rw [refNum] at hr
    cases e : digitVal hex c with
    | none => rw [e] at hr; exact absurd rfl hr
    | some d =>
      rw [e] at hr
      obtain ⟨n, hn⟩ := ih _ _ hr
      obtain ⟨h1, h2⟩ := digit_table e
      rw [List.reverse_cons]
      exact ⟨_, hn.digit h1 (by rw [hb]; exact h2)⟩

theorem noNumeral_refNum {hex : Bool} {base : Nat} {mark : UInt8} (hb : base = if hex then 16 else 10) {s : Str} (h : NoNumeral base mark s) :
    refNum hex (s.reverse.takeWhile (· ≠ mark)) 1 0 = none := by
  obtain ⟨p, q, rfl, h1, h2, h3⟩ := h
  have hq : ∀ c ∈ q.reverse, decide (c ≠ mark) = true := by
    intro c hc
    have hc := List.mem_reverse.1 hc
    simp only [decide_eq_true_eq]
    rintro rfl
    exact h1 hc
  have : (p ++ q).reverse.takeWhile (· ≠ mark) = q.reverse := by
    rw [List.reverse_append, List.takeWhile_append_of_pos hq]
    have : p.reverse.takeWhile (· ≠ mark) = [] := by
      rcases h2 with rfl | h2
      · rfl
      · rw [← List.head?_reverse] at h2
        cases e : p.reverse with
        | nil => rfl
        | cons c l => rw [e] at h2; cases h2; rw [List.takeWhile_cons, if_neg (by simp)]
    rw [this, List.append_nil]
  rw [this]
  exact refNum_wrong hb q h3 _ _

theorem wrongRef_charRef {raw : Str} (h : WrongRef raw) : ∃ b l, raw = 35 :: b :: l ∧ charRef (b :: l) = none := by
  obtain ⟨s, r, hs, h59, ⟨rfl, hx, h⟩ | ⟨rfl, h⟩⟩ := h
  · obtain ⟨b, l, rfl⟩ : ∃ b l, s = b :: l := by cases s with | nil => exact absurd rfl hs | cons b l => exact ⟨b, l, rfl⟩
    refine ⟨b, l ++ 59 :: r, by simp [lit], ?_⟩
    unfold charRef
    simp only
    rw [if_neg (by simpa using hx), show b :: (l ++ 59 :: r) = (b :: l) ++ 59 :: ([] ++ r) by simp, parseText_one h59]
    simp only
    rw [noNumeral_refNum (hex := false) rfl h]; rfl
  · refine ⟨120, s ++ 59 :: r, by simp [lit], ?_⟩
    unfold charRef
    simp only
    rw [if_pos trivial, show s ++ 59 :: r = s ++ 59 :: ([] ++ r) by simp, parseText_one h59]
    simp only
    rw [noNumeral_refNum (hex := true) rfl h]; rfl

theorem cook_wrong (orig : Str) (f : Nat) (out : Str) {b : UInt8} {l : Str} (h : charRef (b :: l) = none) :
    cook true orig (f + 1) out (38 :: 35 :: b :: l) = cook true orig f (out ++ [38]) (35 :: b :: l) := by
  rw [cook.eq_def]
  simp only
  rw [if_neg (by decide), if_neg (by decide), if_pos ⟨trivial, trivial⟩, if_neg (by simp), h]

theorem escapes_cook {stop : UInt8} (orig : Str) {raw v : Str} (h : Escapes stop raw v) : ∀ f out, raw.length ≤ f → cook true orig f out raw = out ++ v := by
  induction h with
  | nil => intro f out _; cases f <;> simp [cook]
  | @byte b raw v hb ht ih =>
    intro f out hf
    obtain ⟨f, rfl⟩ : ∃ g, f = g + 1 := ⟨f - 1, by simp at hf; omega⟩
    rw [cook_byte orig f out _ hb.2.1 hb.2.2.1 hb.2.2.2.1, ih f _ (by simpa using hf)]
    simp
  | @newline n raw v hn ht ih =>
    intro f out hf
    have := List.length_pos_iff.2 (newline_mem hn).1
    simp only [List.length_append] at hf
    obtain ⟨f, rfl⟩ : ∃ g, f = g + 1 := ⟨f - 1, by omega⟩
    rw [cook_newline true orig f out hn, ih f _ (by omega)]
    simp
  | @entity e b raw v he ht ih =>
    intro f out hf
    obtain ⟨a, l, rfl, ha, hr, -⟩ := table_cases he
    obtain ⟨f, rfl⟩ : ∃ g, f = g + 1 := ⟨f - 1, by simp at hf; omega⟩
    rw [List.cons_append, List.cons_append, cook_entity orig f out ha (hr raw), ih f _ (by simp at hf; omega)]
    simp
  | @ref e c raw v he h0 ht ih =>
    intro f out hf
    obtain ⟨b, l, rfl, hr, -⟩ := refText_charRef he (char_small c)
    obtain ⟨f, rfl⟩ : ∃ g, f = g + 1 := ⟨f - 1, by simp at hf; omega⟩
    rw [List.cons_append, List.cons_append, List.cons_append, cook_ref orig f out (hr raw), ih f _ (by simp at hf; omega), utf8_char]
    simp
  | @dropped e n raw v he hn ht ih =>
    intro f out hf
    obtain ⟨b, l, rfl, hr, -⟩ := refText_charRef he hn.2
    obtain ⟨f, rfl⟩ : ∃ g, f = g + 1 := ⟨f - 1, by simp at hf; omega⟩
    rw [List.cons_append, List.cons_append, List.cons_append, cook_ref orig f out (hr raw), ih f _ (by simp at hf; omega), utf8_big hn.1]
    simp
  | @wrong raw v he ht ih =>
    intro f out hf
    obtain ⟨f, rfl⟩ : ∃ g, f = g + 1 := ⟨f - 1, by simp at hf; omega⟩
    obtain ⟨b, l, rfl, hr⟩ := wrongRef_charRef he
    rw [cook_wrong orig f out hr, ih f _ (by simp at hf ⊢; omega)]
    simp

theorem escapes_clean {stop : UInt8} {raw v : Str} (hs : stop = 60 ∨ stop = 34) (h : Escapes stop raw v) :
    (∀ b ∈ raw, b ≠ 0 ∧ b ≠ stop) ∧ (∀ b ∈ v, b ≠ 0) := by
  induction h with
  | nil => simp
  | @byte b raw v hb _ ih =>
    constructor
    · intro c hc
      rcases List.mem_cons.1 hc with rfl | hc
      · exact ⟨hb.1, hb.2.2.2.2⟩
      · exact ih.1 c hc
    · intro c hc
      rcases List.mem_cons.1 hc with rfl | hc
      · exact hb.1
      · exact ih.2 c hc
  | @newline n raw v hn _ ih =>
    constructor
    · intro c hc
      rcases List.mem_append.1 hc with hc | hc
      · rcases hs with rfl | rfl <;> rcases (newline_mem hn).2 c hc with rfl | rfl <;> decide
      · exact ih.1 c hc
    · intro c hc
      rcases List.mem_cons.1 hc with rfl | hc
      · decide
      · exact ih.2 c hc
  | @entity e b raw v he _ ih =>
    obtain ⟨a, l, -, -, -, h1, -, -⟩ := table_cases he
    constructor
    · intro c hc
      rcases List.mem_append.1 hc with hc | hc
      · refine ⟨(h1 c hc).1, ?_⟩
        rcases hs with rfl | rfl
        · exact (h1 c hc).2.1
        · exact (h1 c hc).2.2
      · exact ih.1 c hc
    · intro c hc
      rcases List.mem_cons.1 hc with rfl | hc
      · simp only [entityTable, List.mem_cons, Prod.mk.injEq, List.not_mem_nil, or_false] at he
        rcases he with ⟨-, rfl⟩ | ⟨-, rfl⟩ | ⟨-, rfl⟩ | ⟨-, rfl⟩ | ⟨-, rfl⟩ <;> decide
      · exact ih.2 c hc
  | @ref e x raw v he h0 _ ih =>
    obtain ⟨b, l, -, -, h1⟩ := refText_charRef he (char_small x)
    constructor
    · intro c hc
      rcases List.mem_append.1 hc with hc | hc
      · refine ⟨(h1 c hc).1, ?_⟩
        rcases hs with rfl | rfl
        · exact (h1 c hc).2.1
        · exact (h1 c hc).2.2
      · exact ih.1 c hc
    · intro c hc
      rcases List.mem_append.1 hc with hc | hc
      · exact utf8_pos x h0 c hc
      · exact ih.2 c hc
  | @dropped e n raw v he hn _ ih =>
    obtain ⟨b, l, -, -, h1⟩ := refText_charRef he hn.2
    refine ⟨?_, ih.2⟩
    intro c hc
    rcases List.mem_append.1 hc with hc | hc
    · refine ⟨(h1 c hc).1, ?_⟩
      rcases hs with rfl | rfl
      · exact (h1 c hc).2.1
      · exact (h1 c hc).2.2
    · exact ih.1 c hc
  | @wrong raw v he _ ih =>
    constructor
    · intro c hc
      rcases List.mem_cons.1 hc with rfl | hc
      · rcases hs with rfl | rfl <;> decide
      · exact ih.1 c hc
    · intro c hc
      rcases List.mem_cons.1 hc with rfl | hc
      · decide
      · exact ih.2 c hc

theorem escapes_value {stop : UInt8} {raw v : Str} (hs : stop = 60 ∨ stop = 34) (h : Escapes stop raw v) : value true raw = v := by
  unfold value
  rw [escapes_cook raw h _ _ (Nat.le_refl _), List.nil_append, cstr_plain (escapes_clean hs h).2]

theorem escapes_visible {stop : UInt8} {raw v : Str} (h : Escapes stop raw v) (hv : Visible v) : Visible raw := by
  obtain ⟨c, hc, hw⟩ := hv
  induction h with
  | nil => cases hc
  | @byte b raw v hb _ ih =>
    rcases List.mem_cons.1 hc with rfl | hc
    · exact ⟨c, by simp, hw⟩
    · obtain ⟨d, hd, hd'⟩ := ih hc
      exact ⟨d, by simp [hd], hd'⟩
  | @newline n raw v hn _ ih =>
    rcases List.mem_cons.1 hc with rfl | hc
    · exact absurd (by decide) hw
    · obtain ⟨d, hd, hd'⟩ := ih hc
      exact ⟨d, by simp [hd], hd'⟩
  | @entity e b raw v he _ ih =>
    obtain ⟨a, l, rfl, -, -, -, h38, -⟩ := table_cases he
    exact ⟨38, by simp, h38⟩
  | @ref e x raw v he _ _ ih =>
    obtain ⟨b, l, rfl, -⟩ := refText_charRef he (char_small x)
    exact ⟨38, by simp, by decide⟩
  | wrong => exact ⟨38, by simp, by decide⟩
  | @dropped e n raw v he hn _ ih =>
    obtain ⟨b, l, rfl, -⟩ := refText_charRef he hn.2
    exact ⟨38, by simp, by decide⟩

/-! ## Text up to a mark -/

theorem strip_some {pat p r : Str} (h : strip pat p = some r) : p = pat ++ r := by
  induction pat generalizing p with
  | nil => cases p <;> cases h <;> rfl
  | cons a pat ih =>
    cases p with
    | nil => cases h
    | cons b p =>
      rw [strip] at h
      split at h
      · rename_i e; rw [e, ih h]; rfl
      · cases h

/-- a mark that ends with `>` is found behind `v` and not before -/
theorem parseText_mark {m v : Str} (hm : 62 ∉ m) (h : ¬ (m ++ [62]) <:+: v) (r : Str) : parseText (m ++ [62]) (v ++ (m ++ [62] ++ r)) = some (v, r) := by
  induction v with
  | nil =>
    obtain ⟨c, t, e⟩ : ∃ c t, m ++ [62] = c :: t := by cases m with
      | nil => exact ⟨62, [], rfl⟩
      | cons c t => exact ⟨c, t ++ [62], rfl⟩
    rw [List.nil_append, e, List.cons_append, parseText, ← List.cons_append, strip_append]
  | cons c v ih =>
    have hs : strip (m ++ [62]) (c :: (v ++ (m ++ [62] ++ r))) = none := by
      cases e : strip (m ++ [62]) (c :: (v ++ (m ++ [62] ++ r))) with
      | none => rfl
      | some q =>
        exfalso
        have e := strip_some e
        rw [← List.cons_append] at e
        rcases List.append_eq_append_iff.1 e with ⟨s, e1, e2⟩ | ⟨s, e1, e2⟩
        · -- `c :: v` is a part of the mark
          rcases List.eq_nil_or_concat s with rfl | ⟨s, x, rfl⟩
          · exact h ⟨[], [], by rw [List.append_nil] at e1; simpa using e1⟩
          · simp only [List.concat_eq_append] at e1 e2
            rw [← List.append_assoc] at e1
            obtain ⟨e3, e4⟩ := List.append_inj' e1 rfl
            have : x = 62 := by simpa using e4.symm
            subst this
            have hl : s.length + 1 ≤ m.length := by rw [e3]; simp
            rcases List.append_eq_append_iff.1 e2 with ⟨u, e5, e6⟩ | ⟨u, e5, e6⟩
            · have := congrArg List.length e5
              simp at this
              omega
            · rcases List.append_eq_append_iff.1 e5.symm with ⟨u', e7, e8⟩ | ⟨u', e7, e8⟩
              · exact hm (by rw [e7]; simp)
              · have hu := congrArg List.length e7
                simp only [List.length_append, List.length_cons, List.length_nil] at hu
                have : u' = [] := List.eq_nil_of_length_eq_zero (by omega)
                rw [this, List.append_nil] at e7
                exact hm (by rw [← e7]; simp)
        · exact h ⟨[], s, by rw [e1]; simp⟩
    rw [List.cons_append, parseText, hs, ih fun ⟨a, b, e⟩ => h ⟨c :: a, b, by rw [← e]; simp⟩]

theorem value_clean {v : Str} (h : Clean v) : value false v = v := value_plain false fun b hb => ⟨(h b hb).1, (h b hb).2, fun hh => by cases hh⟩

/-! ## Kinds of nodes -/

theorem strip_before {p v : Str} (hp : 62 ∉ p) (h : ¬ p <+: v) (r : Str) : strip p (v ++ 62 :: r) = none := by
  induction p generalizing v with
  | nil => exact (h (List.nil_prefix)).elim
  | cons a p ih =>
    rw [List.mem_cons, not_or] at hp
    cases v with
    | nil => exact strip_ne _ _ fun e => hp.1 e.symm
    | cons c v =>
      by_cases e : a = c
      · subst e
        rw [List.cons_append, strip_eq]
        exact ih hp.2 fun hh => h (List.cons_prefix_cons.2 ⟨rfl, hh⟩)
      · exact strip_ne _ _ e

theorem skip_lt {w : Str} (hw : Blank w) (l : Str) : skipSpace (w ++ 60 :: l) = 60 :: l := by rw [skipSpace_blank hw, skipSpace_cons (by decide)]

theorem identify_cdata {w : Str} (hw : Blank w) (l : Str) : identify (w ++ (lit "<![CDATA[" ++ l)) = some (.cdata, l) := by
  unfold identify
  simp only
  rw [show skipSpace (w ++ (lit "<![CDATA[" ++ l)) = lit "<![CDATA[" ++ l from skip_lt hw _, if_neg (by simp [lit]),
    show strip (lit "<?") (lit "<![CDATA[" ++ l) = none from (strip_eq _ _ _).trans (strip_ne _ _ (by decide))]
  simp only
  rw [show strip (lit "<!--") (lit "<![CDATA[" ++ l) = none from (strip_eq _ _ _).trans ((strip_eq _ _ _).trans (strip_ne _ _ (by decide)))]
  simp only
  rw [strip_append]

theorem identify_unknown {w v : Str} (hw : Blank w) (h1 : ¬ lit "--" <+: v) (h2 : ¬ lit "[CDATA[" <+: v) (l : Str) :
    identify (w ++ (lit "<!" ++ (v ++ 62 :: l))) = some (.unknown, v ++ 62 :: l) := by
  unfold identify
  simp only
  rw [show skipSpace (w ++ (lit "<!" ++ (v ++ 62 :: l))) = lit "<!" ++ (v ++ 62 :: l) from skip_lt hw _, if_neg (by simp [lit]),
    show strip (lit "<?") (lit "<!" ++ (v ++ 62 :: l)) = none from (strip_eq _ _ _).trans (strip_ne _ _ (by decide))]
  simp only
  rw [show strip (lit "<!--") (lit "<!" ++ (v ++ 62 :: l)) = none from (strip_eq _ _ _).trans ((strip_eq _ _ _).trans (strip_before (by decide) h1 l))]
  simp only
  rw [show strip (lit "<![CDATA[") (lit "<!" ++ (v ++ 62 :: l)) = none from (strip_eq _ _ _).trans ((strip_eq _ _ _).trans (strip_before (by decide) h2 l))]
  simp only
  rw [strip_append]

theorem identify_decl' {w : Str} (hw : Blank w) (l : Str) : identify (w ++ (lit "<?" ++ l)) = some (.decl, l) := by
  unfold identify
  simp only
  rw [show skipSpace (w ++ (lit "<?" ++ l)) = lit "<?" ++ l from skip_lt hw _, if_neg (by simp [lit]), strip_append]

/-! ## Tags -/

theorem parseAttr_raw {n raw v : Str} (hn : IsName n) (hv : Escapes 34 raw v) (r : Str) :
    parseAttr (n ++ 61 :: 34 :: (raw ++ 34 :: r)) = some ((n, v), r) := by
  unfold parseAttr
  rw [parseName_ok hn (by decide)]
  simp only
  rw [skipSpace_cons (by decide)]
  simp only
  rw [skipSpace_cons (by decide)]
  simp only
  rw [if_pos (.inl trivial), show raw ++ 34 :: r = raw ++ 34 :: ([] ++ r) from rfl,
    parseText_one (fun hh => ((escapes_clean (.inr rfl) hv).1 34 hh).2 rfl)]
  simp only
  rw [escapes_value (.inr rfl) hv]

theorem parseAttrs_raw {raw as : List (Str × Str)} (h : List.Forall₂ (fun r a => r.1 = a.1 ∧ IsName a.1 ∧ Escapes 34 r.2 a.2) raw as) :
    ∀ (pre : List (Str × Str)) (f : Nat) (r : Str), ((pre ++ as).map (·.1)).Nodup → raw.length + 1 ≤ f →
    (parseAttrs f pre (attrsText raw ++ 62 :: r) = .ok (pre ++ as, false, r)) ∧
    (parseAttrs f pre (attrsText raw ++ 47 :: 62 :: r) = .ok (pre ++ as, true, r)) := by
  induction h with
  | nil =>
    intro pre f r _ hf
    obtain ⟨f, rfl⟩ : ∃ g, f = g + 1 := ⟨f - 1, by simp at hf; omega⟩
    simp only [attrsText, List.flatMap_nil, List.nil_append, List.append_nil]
    constructor
    · rw [parseAttrs, skipSpace_cons (by decide)]
      simp only
      rw [if_neg (by decide), if_pos trivial]
    · rw [parseAttrs, skipSpace_cons (by decide)]
      simp only
      rw [if_neg (by decide), if_neg (by decide), if_pos trivial]
  | @cons a' a raw as ha _ ih =>
    intro pre f r h hf
    obtain ⟨f, rfl⟩ : ∃ g, f = g + 1 := ⟨f - 1, by simp at hf; omega⟩
    obtain ⟨h0, h1, h2⟩ := ha
    have hnew : (pre.any fun x => x.1 == a.1) = false := by
      rw [List.any_eq_false]
      intro x hx hh
      have e : x.1 = a.1 := by simpa using hh
      have := h
      rw [List.map_append, List.map_cons, List.nodup_append] at this
      exact this.2.2 x.1 (List.mem_map.2 ⟨x, hx, rfl⟩) a.1 (by simp) e
    have step : ∀ q, parseAttrs (f + 1) pre (attrsText (a' :: raw) ++ q) = parseAttrs f (pre ++ [a]) (attrsText raw ++ q) := by
      intro q
      rw [attrsText_cons, h0]
      obtain ⟨b, l, hb, hn⟩ := name_start h1
      have hp := parseAttr_raw h1 h2 (attrsText raw ++ q)
      rw [hb, List.cons_append] at hp
      rw [parseAttrs, hb, List.cons_append, show skipSpace (32 :: b :: (l ++ 61 :: 34 :: (a'.2 ++ 34 :: (attrsText raw ++ q)))) =
        b :: (l ++ 61 :: 34 :: (a'.2 ++ 34 :: (attrsText raw ++ q))) from skipSpace_cons (name_notSpace hn) _]
      simp only
      rw [if_pos hn, hp]
      simp only
      rw [← hb, if_neg (by rw [hnew]; decide)]
    have := ih (pre ++ [a]) f r (by rw [List.append_assoc]; exact h) (by simp at hf; omega)
    rw [List.append_assoc] at this
    exact ⟨(step _).trans this.1, (step _).trans this.2⟩

theorem parseTag_raw {n : Str} {raw as : List (Str × Str)} (hn : IsName n) (ha : WritesAttrs raw as) (r : Str) :
    (parseTag (n ++ (attrsText raw ++ 62 :: r)) = .ok (n, as, .opened, r)) ∧
    (parseTag (n ++ (attrsText raw ++ 47 :: 62 :: r)) = .ok (n, as, .closed, r)) := by
  obtain ⟨b, l, e, hb⟩ := name_start hn
  have hs : ∀ q, skipSpace (n ++ q) = n ++ q := fun q => by rw [e, List.cons_append, skipSpace_cons (name_notSpace hb)]
  have hc : ∀ q, strip [47] (n ++ q) = none := fun q => by rw [e, List.cons_append, strip_ne _ _ (nameStart_ne hb).1.symm]
  have hl := attrsText_length raw
  constructor
  · obtain ⟨c, q, e1, e2⟩ := attrs_head raw r (b := 62) (by decide)
    unfold parseTag
    simp only
    rw [hs, hc, Option.getD_none, e1, parseName_ok hn e2]
    simp only
    rw [← e1, (parseAttrs_raw ha.1 [] _ r ha.2 (by simp; omega)).1]
    rfl
  · obtain ⟨c, q, e1, e2⟩ := attrs_head raw (62 :: r) (b := 47) (by decide)
    unfold parseTag
    simp only
    rw [hs, hc, Option.getD_none, e1, parseName_ok hn e2]
    simp only
    rw [← e1, (parseAttrs_raw ha.1 [] _ r ha.2 (by simp; omega)).2]
    rfl

theorem nodes_open_raw {n : Str} {raw as : List (Str × Str)} (hn : IsName n) (ha : WritesAttrs raw as) {w : Str} (hw : Blank w) (f : Nat) (doc : Bool)
    (cs ks : List Node) (r r' : Str) (hr : r ≠ []) (hin : parseNodes f false [] r = .byTag ks n r') :
    parseNodes (f + 1) doc cs (w ++ 60 :: (n ++ (attrsText raw ++ 62 :: r))) = parseNodes f doc (cs ++ [.elem n as ks]) r' := by
  obtain ⟨b, l, e, hb⟩ := name_start hn
  have hi := identify_elem hw (nameStart_ne hb).2.1 (nameStart_ne hb).2.2.1 (l ++ (attrsText raw ++ 62 :: r))
  rw [← List.cons_append, ← e] at hi
  rw [parseNodes, hi]
  simp only
  rw [(parseTag_raw hn ha r).1]
  simp only
  rw [if_neg hr, hin]
  simp only
  rw [if_pos trivial]

theorem nodes_sealed_raw {n : Str} {raw as : List (Str × Str)} (hn : IsName n) (ha : WritesAttrs raw as) {w : Str} (hw : Blank w) (f : Nat) (doc : Bool)
    (cs : List Node) (r : Str) :
    parseNodes (f + 1) doc cs (w ++ 60 :: (n ++ (attrsText raw ++ 47 :: 62 :: r))) = parseNodes f doc (cs ++ [.elem n as []]) r := by
  obtain ⟨b, l, e, hb⟩ := name_start hn
  have hi := identify_elem hw (nameStart_ne hb).2.1 (nameStart_ne hb).2.2.1 (l ++ (attrsText raw ++ 47 :: 62 :: r))
  rw [← List.cons_append, ← e] at hi
  rw [parseNodes, hi]
  simp only
  rw [(parseTag_raw hn ha r).2]

theorem nodes_text_raw {raw v : Str} (he : Escapes 60 raw v) (hv : Visible raw) (f : Nat) (doc : Bool) (cs : List Node) (b : UInt8) (r : Str) :
    parseNodes (f + 1) doc cs (raw ++ 60 :: b :: r) = parseNodes f doc (cs ++ [.text false v]) (60 :: b :: r) := by
  have hc := (escapes_clean (.inl rfl) he).1
  rw [parseNodes, identify_visible (fun x hx => (hc x hx).2) hv]
  simp only
  rw [show parseText (lit "<") (raw ++ 60 :: b :: r) = some (raw, b :: r) from parseText_one (fun hh => (hc 60 hh).2 rfl) [] _]
  simp only
  rw [if_neg (by simp), escapes_value (.inl rfl) he]

/-! ## Nodes -/

theorem writes_start {x : Node} {s : Str} (h : WritesNode x s) : ∃ b q, s = 60 :: b :: q := by
  cases h with
  | comment => exact ⟨_, _, rfl⟩
  | cdata => exact ⟨_, _, rfl⟩
  | unknown => exact ⟨_, _, rfl⟩
  | sealed hn => obtain ⟨b, l, rfl, -⟩ := name_start hn; exact ⟨_, _, rfl⟩
  | node hn => obtain ⟨b, l, rfl, -⟩ := name_start hn; exact ⟨_, _, rfl⟩

theorem after_text {l : List Node} {t : Str} (h : WritesAll true l t) {r : Str} (hr : (∃ b q, r = 60 :: b :: q) ∨ l ≠ []) : ∃ b q, t ++ r = 60 :: b :: q := by
  cases h with
  | nil _ hw => rw [hw rfl]; exact hr.resolve_right fun h => h rfl
  | node _ hw hx _ =>
    rw [hw rfl]
    obtain ⟨b, q, rfl⟩ := writes_start hx
    exact ⟨_, _, rfl⟩

theorem writesAll_length {after : Bool} {l : List Node} {t : Str} (h : WritesAll after l t) : l.length ≤ t.length := by
  induction l generalizing after t with
  | nil => simp
  | cons x l ih =>
    cases h with
    | node _ _ hx hl =>
      have h1 := ih hl
      obtain ⟨b, q, rfl⟩ := writes_start hx
      simp only [List.length_cons, List.length_append]
      omega
    | text he hv hl =>
      have h1 := ih hl
      obtain ⟨b, hb, -⟩ := hv
      have := List.length_pos_of_mem hb
      simp only [List.length_cons, List.length_append]
      omega

/-- what is proved about the text of several nodes -/
def ReadsMixed (l : List Node) (t : Str) : Prop := ∀ (f : Nat) (doc : Bool) (cs : List Node) (r : Str),
  ((∃ b q, r = 60 :: b :: q) ∨ LastNode l) → (t ++ r).length ≤ f →
  ∃ w, Blank w ∧ parseNodes f doc cs (t ++ r) = parseNodes (f - l.length) doc (cs ++ l) (w ++ r)

theorem last_tail {x : Node} {l : List Node} (h : LastNode (x :: l)) : LastNode l := by
  intro y hy
  refine h y ?_
  cases l with
  | nil => cases hy
  | cons z l => simpa using hy

theorem mixed_nil {w : Str} (hw : Blank w) : ReadsMixed [] w := by
  intro f doc cs r _ _
  exact ⟨w, hw, by simp⟩

theorem mixed_node {x : Node} {l : List Node} {w s t : Str} (hw : Blank w) (hx : WritesNode x s) (ih1 : ReadsNode x s) (ih2 : ReadsMixed l t) :
    ReadsMixed (x :: l) (w ++ s ++ t) := by
  intro f doc cs r hr hf
  obtain ⟨b, q, hs⟩ := writes_start hx
  have hs : 1 ≤ s.length := by rw [hs]; simp
  obtain ⟨w', hw', e⟩ := ih2 (f - 1) doc (cs ++ [x]) r (hr.imp_right last_tail) (by simp at hf ⊢; omega)
  refine ⟨w', hw', ?_⟩
  simp only [List.append_assoc] at hf ⊢
  rw [ih1 f doc cs w (t ++ r) hw hf, e]
  simp only [List.append_assoc, List.singleton_append, List.length_cons]
  rw [show f - 1 - l.length = f - (l.length + 1) by omega]

theorem mixed_text {raw v : Str} {l : List Node} {t : Str} (he : Escapes 60 raw v) (hv : Visible raw) (hl : WritesAll true l t) (ih : ReadsMixed l t) :
    ReadsMixed (.text false v :: l) (raw ++ t) := by
  intro f doc cs r hr hf
  obtain ⟨c, hc, -⟩ := id hv
  have hpos := List.length_pos_of_mem hc
  have hr' : (∃ b q, r = 60 :: b :: q) ∨ l ≠ [] := by
    refine hr.imp_right fun h => ?_
    rintro rfl
    exact absurd (h _ rfl) (by simp [isText])
  obtain ⟨b, q, e1⟩ := after_text hl hr'
  obtain ⟨f, rfl⟩ : ∃ g, f = g + 1 := ⟨f - 1, by simp at hf; omega⟩
  obtain ⟨w, hw, e2⟩ := ih f doc (cs ++ [.text false v]) r (hr.imp_right last_tail) (by simp at hf ⊢; omega)
  refine ⟨w, hw, ?_⟩
  rw [List.append_assoc, e1, nodes_text_raw he hv, ← e1, e2]
  simp

theorem mixed_elem {n : Str} {raw as : List (Str × Str)} {ks : List Node} {t : Str} (hn : IsName n) (ha : WritesAttrs raw as) (hk : WritesAll false ks t)
    (ih : ReadsMixed ks t) : ReadsNode (.elem n as ks) (lit "<" ++ n ++ attrsText raw ++ lit ">" ++ t ++ lit "</" ++ n ++ lit ">") := by
  intro f doc cs w r hw hf
  obtain ⟨f, rfl⟩ : ∃ g, f = g + 1 := ⟨f - 1, by simp [lit] at hf; omega⟩
  simp only [List.append_assoc]
  refine nodes_open_raw hn ha hw f doc cs ks (t ++ (lit "</" ++ (n ++ (lit ">" ++ r)))) r (by simp [lit]) ?_
  have hl := writesAll_length hk
  simp only [List.append_assoc] at hf
  have hlen : (t ++ (lit "</" ++ (n ++ (lit ">" ++ r)))).length ≤ f := by
    simp only [List.length_append] at hf ⊢
    simp [lit] at hf ⊢; omega
  obtain ⟨w', hw', e⟩ := ih f false [] (lit "</" ++ (n ++ (lit ">" ++ r))) (.inl ⟨_, _, rfl⟩) hlen
  rw [e]
  obtain ⟨g, hg⟩ : ∃ g, f - ks.length = g + 1 := ⟨f - ks.length - 1, by simp [lit] at hlen; omega⟩
  rw [hg]
  exact nodes_end hn hw' g false ks r

theorem mixed_sealed {n : Str} {raw as : List (Str × Str)} (hn : IsName n) (ha : WritesAttrs raw as) :
    ReadsNode (.elem n as []) (lit "<" ++ n ++ attrsText raw ++ lit "/>") := by
  intro f doc cs w r hw hf
  obtain ⟨f, rfl⟩ : ∃ g, f = g + 1 := ⟨f - 1, by simp [lit] at hf; omega⟩
  simp only [List.append_assoc]
  exact nodes_sealed_raw hn ha hw f doc cs r

theorem mixed_comment {v : Str} (hc : Clean v) (he : ¬ lit "-->" <:+: v) : ReadsNode (.comment v) (lit "<!--" ++ v ++ lit "-->") := by
  intro f doc cs w r hw hf
  obtain ⟨f, rfl⟩ : ∃ g, f = g + 1 := ⟨f - 1, by simp [lit] at hf; omega⟩
  simp only [List.append_assoc]
  rw [parseNodes, identify_comment hw]
  simp only
  rw [show parseText (lit "-->") (v ++ (lit "-->" ++ r)) = some (v, r) from parseText_mark (m := [45, 45]) (by decide) he r]
  simp only
  rw [value_clean hc]
  rfl

theorem mixed_cdata {v : Str} (hc : Clean v) (he : ¬ lit "]]>" <:+: v) : ReadsNode (.text true v) (lit "<![CDATA[" ++ v ++ lit "]]>") := by
  intro f doc cs w r hw hf
  obtain ⟨f, rfl⟩ : ∃ g, f = g + 1 := ⟨f - 1, by simp [lit] at hf; omega⟩
  simp only [List.append_assoc]
  rw [parseNodes, identify_cdata hw]
  simp only
  rw [show parseText (lit "]]>") (v ++ (lit "]]>" ++ r)) = some (v, r) from parseText_mark (m := [93, 93]) (by decide) he r]
  simp only
  rw [value_clean hc]
  rfl

theorem mixed_unknown {v : Str} (hc : Clean v) (he : ¬ lit ">" <:+: v) (ho : ¬ lit "--" <+: v ∧ ¬ lit "[CDATA[" <+: v) :
    ReadsNode (.unknown v) (lit "<!" ++ v ++ lit ">") := by
  intro f doc cs w r hw hf
  obtain ⟨f, rfl⟩ : ∃ g, f = g + 1 := ⟨f - 1, by simp [lit] at hf; omega⟩
  simp only [List.append_assoc]
  rw [parseNodes, show identify (w ++ (lit "<!" ++ (v ++ (lit ">" ++ r)))) = _ from identify_unknown hw ho.1 ho.2 r]
  simp only
  rw [show parseText (lit ">") (v ++ 62 :: r) = some (v, r) from parseText_mark (m := []) (by decide) he r]
  simp only
  rw [value_clean hc]
  rfl

theorem reads_writesAll {after : Bool} {l : List Node} {t : Str} (h : WritesAll after l t) : ReadsMixed l t :=
  WritesAll.rec (motive_1 := fun x s _ => ReadsNode x s) (motive_2 := fun _ l t _ => ReadsMixed l t)
    (fun h1 h2 => mixed_comment h1 h2) (fun h1 h2 => mixed_cdata h1 h2) (fun h1 h2 h3 => mixed_unknown h1 h2 h3)
    (fun hn ha => mixed_sealed hn ha) (fun hn ha hk ih => mixed_elem hn ha hk ih) (fun hw _ => mixed_nil hw)
    (fun hw _ hx _ ih1 ih2 => mixed_node hw hx ih1 ih2) (fun he hv hl ih => mixed_text he hv hl ih) h

theorem reads_doc {l : List Node} {t : Str} (h : WritesDoc l t) : ∀ (f : Nat) (cs : List Node), cs.all Node.isDecl = true → t.length ≤ f →
    parseNodes f true cs t = .atEnd (cs ++ l) := by
  induction h with
  | @nodes l t hn hl =>
    intro f cs _ hf
    obtain ⟨w, hw, e⟩ := reads_writesAll hl f true cs [] (.inr hn) (by simpa using hf)
    rw [List.append_nil, List.append_nil] at e
    rw [e, nodes_blank hw]
  | @decl v l w t hw hc he _ ih =>
    intro f cs hcs hf
    obtain ⟨f, rfl⟩ : ∃ g, f = g + 1 := ⟨f - 1, by simp [lit] at hf; omega⟩
    simp only [List.append_assoc] at hf ⊢
    rw [parseNodes, identify_decl' hw]
    simp only
    rw [show parseText (lit "?>") (v ++ (lit "?>" ++ t)) = some (v, t) from parseText_mark (m := [63]) (by decide) he t]
    simp only
    rw [if_pos (by rw [hcs]; rfl), value_clean hc, ih f (cs ++ [Node.decl v]) (by rw [List.all_append, hcs]; rfl) (by simp [lit] at hf; omega)]
    simp

/-! ## No NUL -/

theorem rawAttrs_noNul {raw as : List (Str × Str)} (h : WritesAttrs raw as) : NoNul (attrsText raw) := by
  intro b hb'
  obtain ⟨a, ha, hb⟩ := List.mem_flatMap.1 hb'
  clear hb'
  obtain ⟨a', -, h0, h1, h2⟩ : ∃ a' ∈ as, a.1 = a'.1 ∧ IsName a'.1 ∧ Escapes 34 a.2 a'.2 := by
    have h' := h.1
    clear h hb
    induction h' with
    | nil => cases ha
    | @cons x y _ _ hxy _ ih =>
      rcases List.mem_cons.1 ha with rfl | ha
      · exact ⟨y, by simp, hxy⟩
      · obtain ⟨a', h1, h2⟩ := ih ha
        exact ⟨a', by simp [h1], h2⟩
  refine noNul_append (noNul_append (noNul_append (noNul_append ?_ (h0 ▸ name_noNul h1)) ?_) fun x hx => ((escapes_clean (.inr rfl) h2).1 x hx).1) ?_ b hb <;>
  · unfold NoNul; decide

theorem writesAll_noNul {after : Bool} {l : List Node} {t : Str} (h : WritesAll after l t) : NoNul t := by
  refine WritesAll.rec (motive_1 := fun _ s _ => NoNul s) (motive_2 := fun _ _ t _ => NoNul t) ?_ ?_ ?_ ?_ ?_ ?_ ?_ ?_ h
  · intro v hv _
    exact noNul_append (noNul_append (by unfold NoNul; decide) fun b hb => (hv b hb).1) (by unfold NoNul; decide)
  · intro v hv _
    exact noNul_append (noNul_append (by unfold NoNul; decide) fun b hb => (hv b hb).1) (by unfold NoNul; decide)
  · intro v hv _ _
    exact noNul_append (noNul_append (by unfold NoNul; decide) fun b hb => (hv b hb).1) (by unfold NoNul; decide)
  · intro n raw as hn ha
    exact noNul_append (noNul_append (noNul_append (by unfold NoNul; decide) (name_noNul hn)) (rawAttrs_noNul ha)) (by unfold NoNul; decide)
  · intro n raw as cs t hn ha _ ih
    exact noNul_append (noNul_append (noNul_append (noNul_append (noNul_append (noNul_append (noNul_append (by unfold NoNul; decide) (name_noNul hn)) (rawAttrs_noNul ha))
      (by unfold NoNul; decide)) ih) (by unfold NoNul; decide)) (name_noNul hn)) (by unfold NoNul; decide)
  · intro after w hw _
    exact blank_noNul hw
  · intro after x l w s t hw _ _ _ h1 h2
    exact noNul_append (noNul_append (blank_noNul hw) h1) h2
  · intro raw v l t he _ _ ih
    exact noNul_append (fun b hb => ((escapes_clean (.inl rfl) he).1 b hb).1) ih

theorem writesDoc_noNul {l : List Node} {t : Str} (h : WritesDoc l t) : NoNul t := by
  induction h with
  | decl hw hc _ _ ih =>
    exact noNul_append (noNul_append (noNul_append (noNul_append (blank_noNul hw) (by unfold NoNul; decide)) fun b hb => (hc b hb).1) (by unfold NoNul; decide)) ih
  | nodes _ hl => exact writesAll_noNul hl

/-- the white space before the first node can be left out -/
theorem writesDoc_start {l : List Node} {t : Str} (h : WritesDoc l t) (hl : ∃ x ∈ l.head?, isText x = false) : ∃ w q, Blank w ∧ t = w ++ 60 :: q ∧ WritesDoc l (60 :: q) := by
  cases h with
  | @decl v l w t hw hc he ht =>
    have := WritesDoc.decl (w := []) (by intro b hb; cases hb) hc he ht
    exact ⟨w, 63 :: (v ++ (lit "?>" ++ t)), hw, by simp only [List.append_assoc]; rfl, by simp only [List.append_assoc] at this; exact this⟩
  | nodes hn ha =>
    cases ha with
    | nil => obtain ⟨x, hx, -⟩ := hl; cases hx
    | @node _ x l w s t hw _ hx ht =>
      obtain ⟨b, q, rfl⟩ := writes_start hx
      have := WritesDoc.nodes hn (WritesAll.node (after := false) (w := []) (by intro b hb; cases hb) (fun h => nomatch h) hx ht)
      exact ⟨w, b :: (q ++ t), hw, by simp only [List.append_assoc, List.cons_append], by simp only [List.append_assoc] at this; exact this⟩
    | text => obtain ⟨x, hx, h⟩ := hl; cases hx; simp [isText] at h

theorem writesDoc_text {l : List Node} {t : Str} (h : WritesDoc l t) (hl : ∃ x ∈ l.head?, isText x = true) : t ≠ [] := by
  obtain ⟨x, hx, h1⟩ := hl
  cases h with
  | decl => cases hx; simp [isText] at h1
  | nodes hn ha =>
    have := writesAll_length ha
    rintro rfl
    cases l with
    | nil => cases hx
    | cons y l => simp at this

theorem parse_doc {l : List Node} {t : Str} (h : WritesDoc l t) (hl : l ≠ []) (bom : Bool) (hs : Starts bom l t) : parse (bomText bom ++ t) = .ok l := by
  obtain ⟨x, hx⟩ : ∃ x, x ∈ l.head? := by cases l with
    | nil => exact (hl rfl).elim
    | cons x l => exact ⟨x, rfl⟩
  cases hxt : isText x with
  | false =>
    obtain ⟨w, q, hw, rfl, h'⟩ := writesDoc_start h ⟨x, hx, hxt⟩
    unfold parse
    simp only
    cases bom with
    | false =>
      rw [show bomText false = [] from rfl, List.nil_append, cstr_plain (writesDoc_noNul h), skip_lt hw,
        show strip [239, 187, 191] (60 :: q) = none from strip_ne _ _ (by decide), Option.getD_none, if_neg (by simp),
        reads_doc h' _ [] rfl (Nat.le_refl _)]
      rfl
    | true =>
      rw [cstr_plain (noNul_append (by unfold NoNul bomText; decide) (writesDoc_noNul h)),
        show skipSpace (bomText true ++ (w ++ 60 :: q)) = [239, 187, 191] ++ (w ++ 60 :: q) from skipSpace_cons (by decide) _, strip_append, Option.getD_some,
        if_neg (by simp), reads_doc h _ [] rfl (Nat.le_refl _)]
      rfl
  | true =>
    have hne := writesDoc_text h ⟨x, hx, hxt⟩
    unfold parse
    simp only
    cases bom with
    | false =>
      obtain ⟨h1, h2⟩ := hs rfl ⟨x, hx, hxt⟩
      have hsk : skipSpace t = t := by
        cases t with
        | nil => rfl
        | cons b t =>
          refine skipSpace_cons ?_ t
          rw [← Bool.not_eq_true, isSpace_iff]
          exact h1 b rfl
      have hst : strip [239, 187, 191] t = none := by
        cases e : strip [239, 187, 191] t with
        | none => rfl
        | some r => exact (h2 ⟨r, (strip_some e).symm⟩).elim
      rw [show bomText false = [] from rfl, List.nil_append, cstr_plain (writesDoc_noNul h), hsk, hst, Option.getD_none, if_neg hne, reads_doc h _ [] rfl (Nat.le_refl _)]
      rfl
    | true =>
      rw [cstr_plain (noNul_append (by unfold NoNul bomText; decide) (writesDoc_noNul h)),
        show skipSpace (bomText true ++ t) = [239, 187, 191] ++ t from skipSpace_cons (by decide) _, strip_append, Option.getD_some,
        if_neg hne, reads_doc h _ [] rfl (Nat.le_refl _)]
      rfl

end Verif.Xml
