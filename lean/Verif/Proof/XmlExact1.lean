import Verif.Proof.Xml3
import Verif.Spec.XmlExact
/-!
# Values that are their own text
-/
namespace Verif.Xml
open Tec Spec

/-! ## Patterns -/

theorem strip_inv {pat p r : Str} (h : strip pat p = some r) : p = pat ++ r := by
  induction pat generalizing p with
  | nil => simp only [strip] at h; cases h; rfl
  | cons a pat ih =>
    cases p with
    | nil => simp [strip] at h
    | cons b p =>
      simp only [strip] at h
      split at h
      · rename_i e; subst e; rw [ih h]; rfl
      · cases h

theorem parseText_inv {tag p v r : Str} (h : parseText tag p = some (v, r)) : p = v ++ (tag ++ r) := by
  induction p generalizing v with
  | nil => simp [parseText] at h
  | cons b l ih =>
    rw [parseText] at h
    split at h
    · rename_i r' e
      cases h
      rw [strip_inv e]; rfl
    · split at h
      · rename_i v' r' e
        cases h
        rw [ih e]; rfl
      · cases h

/-- with a single byte as the pattern the text before it is free of that byte -/
theorem parseText_byte {c : UInt8} {p v r : Str} (h : parseText [c] p = some (v, r)) : c ∉ v := by
  induction p generalizing v with
  | nil => simp [parseText] at h
  | cons b l ih =>
    rw [parseText] at h
    split at h
    · cases h; simp
    · rename_i e0
      split at h
      · rename_i v' r' e
        cases h
        rw [List.mem_cons, not_or]
        refine ⟨?_, ih e⟩
        rintro rfl
        rw [strip_eq] at e0
        simp [strip] at e0
      · cases h

theorem parseText_none {c : UInt8} {p : Str} (h : parseText [c] p = none) : c ∉ p := by
  induction p with
  | nil => simp
  | cons b l ih =>
    rw [parseText] at h
    split at h
    · cases h
    · rename_i e0
      split at h
      · cases h
      · rename_i e
        rw [List.mem_cons, not_or]
        refine ⟨?_, ih e⟩
        rintro rfl
        rw [strip_eq] at e0
        simp [strip] at e0

/-! ## References -/

theorem entity_named {l : Str} : (∃ x, entity l = some x) ↔ ∃ n ∈ [lit "quot", lit "amp", lit "apos", lit "lt", lit "gt"], ∃ r, l = n ++ (lit ";" ++ r) := by
  constructor
  · rintro ⟨x, h⟩
    unfold entity at h
    split at h
    · rename_i r e; exact ⟨lit "quot", by decide, r, (strip_inv e).trans (List.append_assoc (lit "quot") (lit ";") r)⟩
    split at h
    · rename_i r e; exact ⟨lit "amp", by decide, r, (strip_inv e).trans (List.append_assoc (lit "amp") (lit ";") r)⟩
    split at h
    · rename_i r e; exact ⟨lit "apos", by decide, r, (strip_inv e).trans (List.append_assoc (lit "apos") (lit ";") r)⟩
    split at h
    · rename_i r e; exact ⟨lit "lt", by decide, r, (strip_inv e).trans (List.append_assoc (lit "lt") (lit ";") r)⟩
    split at h
    · rename_i r e; exact ⟨lit "gt", by decide, r, (strip_inv e).trans (List.append_assoc (lit "gt") (lit ";") r)⟩
    · cases h
  · rintro ⟨n, hn, r, rfl⟩
    simp only [List.mem_cons, List.not_mem_nil, or_false] at hn
    unfold entity
    rcases hn with rfl | rfl | rfl | rfl | rfl
    · exact ⟨_, rfl⟩
    · exact ⟨_, rfl⟩
    · exact ⟨_, rfl⟩
    · exact ⟨_, rfl⟩
    · exact ⟨_, rfl⟩

theorem entity_shrinks {l r : Str} {c : UInt8} (h : entity l = some (c, r)) : r.length + 1 < l.length + 1 := by
  unfold entity at h
  split at h
  · rename_i q e; cases h; rw [strip_inv e]; simp [lit]
  split at h
  · rename_i q e; cases h; rw [strip_inv e]; simp [lit]
  split at h
  · rename_i q e; cases h; rw [strip_inv e]; simp [lit]
  split at h
  · rename_i q e; cases h; rw [strip_inv e]; simp [lit]
  split at h
  · rename_i q e; cases h; rw [strip_inv e]; simp [lit]
  · cases h

theorem digitVal_some {hex : Bool} {b : UInt8} {n : Nat} (h : digitVal hex b = some n) : n < 16 := by
  unfold digitVal isDigit at h
  simp only [Bool.and_eq_true, decide_eq_true_eq] at h
  split at h
  · cases h; omega
  · split at h
    · cases h; omega
    · split at h
      · cases h; omega
      · cases h

theorem digit_hex {b : UInt8} : (∃ n, digitVal true b = some n) ↔ HexDigit b := by
  unfold digitVal isDigit HexDigit DecDigit
  simp only [Bool.and_eq_true, decide_eq_true_eq, UInt8.le_iff_toNat_le, Bool.true_and]
  have e : (48 : UInt8).toNat = 48 ∧ (57 : UInt8).toNat = 57 ∧ (97 : UInt8).toNat = 97 ∧ (102 : UInt8).toNat = 102 ∧ (65 : UInt8).toNat = 65 ∧ (70 : UInt8).toNat = 70 := by decide
  rw [e.1, e.2.1, e.2.2.1, e.2.2.2.1, e.2.2.2.2.1, e.2.2.2.2.2]
  constructor
  · rintro ⟨n, h⟩
    split at h
    · rename_i hh; exact .inl hh
    · split at h
      · rename_i hh; exact .inr (.inl hh)
      · split at h
        · rename_i hh; exact .inr (.inr hh)
        · cases h
  · intro h
    split
    · exact ⟨_, rfl⟩
    · split
      · exact ⟨_, rfl⟩
      · split
        · exact ⟨_, rfl⟩
        · rename_i h1 h2 h3
          exact absurd h (by rintro (h | h | h) <;> contradiction)

theorem digit_dec {b : UInt8} : (∃ n, digitVal false b = some n) ↔ DecDigit b := by
  unfold digitVal isDigit DecDigit
  simp only [Bool.and_eq_true, decide_eq_true_eq, UInt8.le_iff_toNat_le, Bool.false_and]
  have e : (48 : UInt8).toNat = 48 ∧ (57 : UInt8).toNat = 57 := by decide
  rw [e.1, e.2]
  constructor
  · rintro ⟨n, h⟩
    split at h
    · rename_i hh; exact hh
    · simp at h
  · intro h
    rw [if_pos h]; exact ⟨_, rfl⟩

theorem refNum_digits {hex : Bool} {v : Str} : ∀ (m u : Nat), (∃ n, refNum hex v m u = some n) ↔ ∀ c ∈ v, ∃ n, digitVal hex c = some n := by
  induction v with
  | nil => intro m u; simp [refNum]
  | cons b v ih =>
    intro m u
    rw [refNum]
    cases e : digitVal hex b with
    | none => simp [e]
    | some d => simp only [List.mem_cons, forall_eq_or_imp, e, ih]; simp

theorem utf8_short (n : Nat) : (utf8 n).length ≤ 4 ∧ (n < 128 → (utf8 n).length = 1) := by
  unfold utf8
  constructor
  · simp only
    split
    · simp
    split
    · simp
    split
    · simp
    split
    · simp
    · simp
  · intro h
    simp only
    rw [if_pos h]; rfl

theorem refNum_short {hex : Bool} {v : Str} {n : Nat} (h : refNum hex v 1 0 = some n) (hv : v.length ≤ 1) : n < 128 := by
  cases v with
  | nil => simp only [refNum] at h; cases h; omega
  | cons b v =>
    obtain rfl : v = [] := by simpa using hv
    rw [refNum] at h
    cases e : digitVal hex b with
    | none => rw [e] at h; cases h
    | some d =>
      rw [e] at h
      simp only [refNum] at h
      cases h
      have := digitVal_some e
      unfold u32
      omega

theorem takeWhile_length_le (p : UInt8 → Bool) (l : Str) : (l.takeWhile p).length ≤ l.length := by
  induction l with
  | nil => simp
  | cons a l ih =>
    rw [List.takeWhile_cons]
    split
    · simp; omega
    · simp

theorem refUtf_length {hex : Bool} {v : Str} {n : Nat} {p : UInt8 → Bool} (h : refNum hex (v.reverse.takeWhile p) 1 0 = some n) :
    (utf8 n).length ≤ v.length + 2 := by
  have h1 := utf8_short n
  have h2 := takeWhile_length_le p v.reverse
  rw [List.length_reverse] at h2
  by_cases hv : v.length ≤ 1
  · have := h1.2 (refNum_short h (Nat.le_trans h2 hv))
    omega
  · omega

/-- a character reference `&#…;` gets shorter -/
theorem charRef_shrinks {l v r : Str} (h : charRef l = some (v, r)) : v.length + r.length < l.length + 2 := by
  unfold charRef at h
  cases l with
  | nil => cases h
  | cons b l' =>
    simp only at h
    split at h
    · split at h
      · cases h
      · rename_i v' r' e
        obtain ⟨n, e1, e2⟩ := Option.map_eq_some_iff.1 h
        cases e2
        have := refUtf_length e1
        rw [parseText_inv e]
        simp
        omega
    · split at h
      · cases h
      · rename_i v' r' e
        obtain ⟨n, e1, e2⟩ := Option.map_eq_some_iff.1 h
        cases e2
        have := refUtf_length e1
        rw [parseText_inv e]
        simp
        omega

/-- the part of a text behind the last `c` -/
theorem lastPart (c : UInt8) (v : Str) : ∃ a, v = a ++ (v.reverse.takeWhile (· ≠ c)).reverse ∧ (a = [] ∨ ∃ a', a = a' ++ [c]) := by
  refine ⟨(v.reverse.dropWhile (· ≠ c)).reverse, ?_, ?_⟩
  · rw [← List.reverse_append, List.takeWhile_append_dropWhile, List.reverse_reverse]
  · cases e : v.reverse.dropWhile (· ≠ c) with
    | nil => exact .inl rfl
    | cons x q =>
      right
      have : ∀ l : Str, ∀ x q, l.dropWhile (· ≠ c) = x :: q → x = c := by
        intro l
        induction l with
        | nil => intro x q h; cases h
        | cons y l ih =>
          intro x q h
          rw [List.dropWhile_cons] at h
          split at h
          · exact ih x q h
          · rename_i hy
            cases h
            simpa using hy
      obtain rfl := this _ _ _ e
      exact ⟨q.reverse, by simp⟩

theorem lastPart_of {c : UInt8} {a d : Str} (ha : a = [] ∨ ∃ a', a = a' ++ [c]) (hd : ∀ x ∈ d, x ≠ c) : (a ++ d).reverse.takeWhile (· ≠ c) = d.reverse := by
  rw [List.reverse_append, takeWhile_all (by intro x hx; simpa using hd x (by simpa using hx))]
  rcases ha with rfl | ⟨a', rfl⟩
  · simp
  · simp

theorem hex_ne {c : UInt8} (h : HexDigit c) : c ≠ 120 ∧ c ≠ 59 := by
  constructor <;> rintro rfl <;> revert h <;> unfold HexDigit DecDigit <;> decide

theorem dec_ne {c : UInt8} (h : DecDigit c) : c ≠ 120 ∧ c ≠ 59 ∧ c ≠ 35 := by
  refine ⟨?_, ?_, ?_⟩ <;> rintro rfl <;> revert h <;> unfold DecDigit <;> decide

/-- what `GetStr` replaces behind `&` -/
def isRef (l : Str) : Bool :=
  match l with
  | 35 :: l' => l' = [] || (charRef l').isSome
  | _ => (entity l).isSome

theorem charRef_reference {l : Str} {x : Str × Str} (h : charRef l = some x) : Reference (35 :: l) := by
  unfold charRef at h
  cases l with
  | nil => cases h
  | cons b l' =>
    simp only at h
    split at h
    · rename_i hb
      subst hb
      split at h
      · cases h
      · rename_i v r e
        obtain ⟨n, e1, -⟩ := Option.map_eq_some_iff.1 h
        have hd := (refNum_digits 1 0).1 ⟨n, e1⟩
        obtain ⟨a, ea, ha⟩ := lastPart 120 v
        have h59 := parseText_byte e
        rw [parseText_inv e, ea, List.append_assoc]
        refine Reference.hex (a := a) (d := (v.reverse.takeWhile (· ≠ 120)).reverse) ?_ ha ?_ r
        · intro hh; apply h59; rw [ea]; exact List.mem_append_left _ hh
        · intro c hc; exact digit_hex.1 (hd c (List.mem_reverse.1 hc))
    · rename_i hb
      split at h
      · cases h
      · rename_i v r e
        obtain ⟨n, e1, -⟩ := Option.map_eq_some_iff.1 h
        have hd := (refNum_digits 1 0).1 ⟨n, e1⟩
        obtain ⟨a, ea, ha⟩ := lastPart 35 v
        have h59 := parseText_byte e
        have hl := parseText_inv e
        have := Reference.dec (a := a) (d := (v.reverse.takeWhile (· ≠ 35)).reverse) (r := r) (by intro hh; apply h59; rw [ea]; exact List.mem_append_left _ hh) ha
          (by
            intro hh
            cases a with
            | nil => cases hh
            | cons y a =>
              cases hh
              rw [ea] at hl
              exact hb (List.cons.inj hl).1)
          (by intro c hc; exact digit_dec.1 (hd c (List.mem_reverse.1 hc)))
        rw [← List.append_assoc a, ← ea] at this
        rw [hl]
        exact this

theorem isRef_iff (l : Str) : isRef l = true ↔ Reference l := by
  constructor
  · intro h
    unfold isRef at h
    split at h
    · rename_i l'
      rw [Bool.or_eq_true, decide_eq_true_eq] at h
      rcases h with rfl | h
      · exact .hash
      · obtain ⟨x, e⟩ := Option.isSome_iff_exists.1 h
        exact charRef_reference e
    · obtain ⟨n, hn, r, rfl⟩ := entity_named.1 (Option.isSome_iff_exists.1 h)
      exact .named hn r
  · intro h
    cases h with
    | named hn r =>
      have h1 := Option.isSome_iff_exists.2 (entity_named.2 ⟨_, hn, r, rfl⟩)
      simp only [List.mem_cons, List.not_mem_nil, or_false] at hn
      rcases hn with rfl | rfl | rfl | rfl | rfl <;> rfl
    | hash => rfl
    | @hex a d one mark digits r =>
      have er : ∀ l' : Str, isRef (35 :: l') = (decide (l' = []) || (charRef l').isSome) := fun _ => rfl
      show isRef (35 :: (120 :: (a ++ (d ++ (lit ";" ++ r))))) = true
      rw [er, Bool.or_eq_true]
      right
      show (charRef (120 :: (a ++ (d ++ (lit ";" ++ r))))).isSome = true
      unfold charRef
      simp only [if_true]
      have : parseText [59] (a ++ (d ++ (lit ";" ++ r))) = some (a ++ d, r) := by
        have := parseText_one (c := 59) (v := a ++ d) (by
          intro hh
          rcases List.mem_append.1 hh with hh | hh
          · exact one hh
          · exact (hex_ne (digits _ hh)).2 rfl) [] r
        rw [List.append_assoc] at this
        exact this
      rw [this]
      simp only
      rw [lastPart_of mark fun x hx => (hex_ne (digits x hx)).1]
      obtain ⟨n, e⟩ := (refNum_digits (hex := true) (v := d.reverse) 1 0).2 fun c hc => digit_hex.2 (digits c (List.mem_reverse.1 hc))
      rw [e]; rfl
    | @dec a d one mark other digits r =>
      have er : ∀ l' : Str, isRef (35 :: l') = (decide (l' = []) || (charRef l').isSome) := fun _ => rfl
      show isRef (35 :: (a ++ (d ++ (lit ";" ++ r)))) = true
      rw [er, Bool.or_eq_true]
      right
      show (charRef (a ++ (d ++ (lit ";" ++ r)))).isSome = true
      have hp : parseText [59] (a ++ (d ++ (lit ";" ++ r))) = some (a ++ d, r) := by
        have := parseText_one (c := 59) (v := a ++ d) (by
          intro hh
          rcases List.mem_append.1 hh with hh | hh
          · exact one hh
          · exact (dec_ne (digits _ hh)).2.1 rfl) [] r
        rw [List.append_assoc] at this
        exact this
      obtain ⟨n, e⟩ := (refNum_digits (hex := false) (v := d.reverse) 1 0).2 fun c hc => digit_dec.2 (digits c (List.mem_reverse.1 hc))
      have hl := lastPart_of mark fun x hx => (dec_ne (digits x hx)).2.2
      unfold charRef
      cases el : a ++ (d ++ (lit ";" ++ r)) with
      | nil => simp [lit] at el
      | cons b l' =>
        simp only
        have hb : b ≠ 120 := by
          rintro rfl
          cases a with
          | cons y a => cases el; exact other rfl
          | nil =>
            cases d with
            | cons y d => cases el; exact (dec_ne (digits _ (by simp))).1 rfl
            | nil => revert el; simp [lit]
        rw [if_neg hb, ← el, hp]
        simp only
        rw [hl, e]; rfl

/-! ## Values -/

theorem cook_shorter (ent : Bool) (orig : Str) : ∀ (f : Nat) (out l : Str), (cook ent orig f out l).length ≤ out.length + l.length := by
  intro f
  induction f with
  | zero => intro out l; cases l <;> simp [cook]
  | succ f ih =>
    intro out l
    cases l with
    | nil => simp [cook]
    | cons b l =>
      rw [cook.eq_def]
      simp only
      split
      · split
        · refine Nat.le_trans (ih _ _) ?_; simp; omega
        · refine Nat.le_trans (ih _ _) ?_; simp; omega
      split
      · split
        · refine Nat.le_trans (ih _ _) ?_; simp; omega
        · refine Nat.le_trans (ih _ _) ?_; simp; omega
      split
      · split
        · split
          · refine Nat.le_trans (ih _ _) ?_; simp
          · split
            · refine Nat.le_trans (ih _ _) ?_; simp; omega
            · rename_i v r e
              have := charRef_shrinks e
              refine Nat.le_trans (ih _ _) ?_; simp; omega
        · split
          · rename_i c r e
            have := entity_shrinks e
            refine Nat.le_trans (ih _ _) ?_; simp; omega
          · refine Nat.le_trans (ih _ _) ?_; simp; omega
      · refine Nat.le_trans (ih _ _) ?_; simp; omega

theorem cook_prefix (ent : Bool) (orig : Str) : ∀ (f : Nat) (out l : Str), out <+: cook ent orig f out l := by
  intro f
  induction f with
  | zero => intro out l; cases l <;> simp [cook]
  | succ f ih =>
    intro out l
    have ih' : ∀ x l, out <+: cook ent orig f (out ++ x) l := fun x l => (List.prefix_append out x).trans (ih _ _)
    cases l with
    | nil => simp [cook]
    | cons b l =>
      rw [cook.eq_def]
      simp only
      split
      · split <;> exact ih' _ _
      split
      · split <;> exact ih' _ _
      split
      · split
        · split
          · exact ih _ _
          · split <;> exact ih' _ _
        · split <;> exact ih' _ _
      · exact ih' _ _

/-- nothing in need of replacement -/
def Fixed (l : Str) : Prop := (∀ b ∈ l, b ≠ 13) ∧ ∀ a b, l = a ++ 38 :: b → isRef b = false

theorem fixed_cons {b : UInt8} {l : Str} : Fixed (b :: l) ↔ b ≠ 13 ∧ (b = 38 → isRef l = false) ∧ Fixed l := by
  constructor
  · intro h
    refine ⟨h.1 b (by simp), ?_, fun c hc => h.1 c (by simp [hc]), ?_⟩
    · rintro rfl; exact h.2 [] l rfl
    · intro a c e; exact h.2 (b :: a) c (by rw [e]; rfl)
  · rintro ⟨h1, h2, h3⟩
    refine ⟨?_, ?_⟩
    · intro c hc
      rcases List.mem_cons.1 hc with rfl | hc
      · exact h1
      · exact h3.1 c hc
    · intro a c e
      cases a with
      | nil => cases e; exact h2 rfl
      | cons y a => cases e; exact h3.2 a c rfl

theorem prefix_byte {out r l : Str} {x b : UInt8} (h : out ++ [x] <+: r) (e : r = out ++ b :: l) : x = b := by
  obtain ⟨t, ht⟩ := h
  rw [e, List.append_assoc] at ht
  exact (List.cons.inj (List.append_cancel_left ht)).1

/-- `GetStr` leaves a text as it is if and only if there is nothing to replace -/
theorem cook_fixed : ∀ (l out : Str) (f : Nat), l.length ≤ f → (cook true (out ++ l) f out l = out ++ l ↔ Fixed l) := by
  intro l
  induction l with
  | nil =>
    intro out f _
    constructor
    · intro _; exact ⟨by simp, by intro a b e; simp at e⟩
    · intro _; cases f <;> simp [cook]
  | cons b l ih =>
    intro out f hf
    obtain ⟨f, rfl⟩ : ∃ g, f = g + 1 := ⟨f - 1, by simp at hf; omega⟩
    have hl : l.length ≤ f := by simpa using hf
    have step : cook true (out ++ b :: l) f (out ++ [b]) l = out ++ b :: l ↔ Fixed l := by
      have := ih (out ++ [b]) f hl
      rw [List.append_assoc] at this
      exact this
    have short : ∀ x q : Str, x.length + q.length < (b :: l).length → cook true (out ++ b :: l) f (out ++ x) q ≠ out ++ b :: l := by
      intro x q h e
      have := cook_shorter true (out ++ b :: l) f (out ++ x) q
      rw [e, List.length_append, List.length_append] at this
      omega
    rw [fixed_cons, cook.eq_def]
    simp only
    split
    · rename_i hb
      subst hb
      refine iff_of_false ?_ (fun h => h.1 rfl)
      split
      · intro e; exact absurd (prefix_byte (cook_prefix _ _ _ _ _) e) (by decide)
      · intro e; exact absurd (prefix_byte (cook_prefix _ _ _ _ _) e) (by decide)
    rename_i h13
    split
    · rename_i hb
      subst hb
      split
      · rename_i l'
        refine iff_of_false (short [10] l' (by simp only [List.length_cons, List.length_nil]; omega)) ?_
        intro h; exact h.2.2.1 13 (by simp) rfl
      · rw [step]
        exact ⟨fun h => ⟨by decide, fun h => absurd h (by decide), h⟩, fun h => h.2.2⟩
    rename_i h10
    split
    · rename_i hb
      obtain rfl := hb.2
      split
      · rename_i l'
        have er : isRef (35 :: l') = (decide (l' = []) || (charRef l').isSome) := rfl
        split
        · rename_i hl'
          refine iff_of_false ?_ ?_
          · have := short [] (35 :: l') (by simp)
            rwa [List.append_nil] at this
          · intro h
            have := h.2.1 rfl
            rw [er, hl'] at this
            exact absurd this (by simp)
        · rename_i hl'
          split
          · rename_i e
            rw [step]
            refine ⟨fun h => ⟨by decide, fun _ => ?_, h⟩, fun h => h.2.2⟩
            rw [er, e, decide_eq_false hl']; rfl
          · rename_i v r e
            refine iff_of_false (short v r ?_) ?_
            · have := charRef_shrinks e
              simp only [List.length_cons]; omega
            · intro h
              have := h.2.1 rfl
              rw [er, e] at this
              simp at this
      · rename_i hn
        have er : isRef l = (entity l).isSome := by
          unfold isRef
          split
          · rename_i l'; exact absurd rfl (hn l')
          · rfl
        split
        · rename_i c r e
          refine iff_of_false (short [c] r ?_) ?_
          · have := entity_shrinks e
            simp only [List.length_cons, List.length_nil]; omega
          · intro h
            have := h.2.1 rfl
            rw [er, e] at this
            cases this
        · rename_i e
          have : (out ++ 38 :: l).getD out.length 0 = 38 := by simp
          rw [this, step]
          refine ⟨fun h => ⟨by decide, fun _ => ?_, h⟩, fun h => h.2.2⟩
          rw [er, e]; rfl
    · rename_i hb
      have hb : b ≠ 38 := fun e => hb ⟨trivial, e⟩
      rw [step]
      exact ⟨fun h => ⟨h13, fun h => absurd h hb, h⟩, fun h => h.2.2⟩

theorem cstr_shorter (s : Str) : (cstr s).length ≤ s.length := takeWhile_length_le _ _

theorem cstr_noNul (s : Str) : NoNul (cstr s) := by
  intro b hb
  have : ∀ l : Str, ∀ b ∈ l.takeWhile (fun x => decide (x ≠ 0)), b ≠ 0 := by
    intro l
    induction l with
    | nil => intro b hb; cases hb
    | cons a l ih =>
      intro b hb
      rw [List.takeWhile_cons] at hb
      split at hb
      · rename_i h
        rcases List.mem_cons.1 hb with rfl | hb
        · simpa using h
        · exact ih b hb
      · cases hb
  exact this s b hb

theorem cstr_full {s : Str} (h : s.length ≤ (cstr s).length) : cstr s = s :=
  (List.takeWhile_prefix _).eq_of_length (Nat.le_antisymm (cstr_shorter s) h)

theorem value_shorter (ent : Bool) (v : Str) : (value ent v).length ≤ v.length := by
  refine Nat.le_trans (cstr_shorter _) ?_
  simpa using cook_shorter ent v v.length [] v

/-- a value is its own text if and only if the text is literal -/
theorem value_literal (v : Str) : value true v = v ↔ Literal v := by
  have key := cook_fixed v [] v.length (Nat.le_refl _)
  rw [List.nil_append] at key
  constructor
  · intro h
    have hn : NoNul v := by rw [← h]; exact cstr_noNul _
    have hl : cook true v v.length [] v = v := by
      have h1 : (cook true v v.length [] v).length ≤ v.length := by simpa using cook_shorter true v v.length [] v
      have h2 : cstr (cook true v v.length [] v) = v := h
      have := cstr_full (s := cook true v v.length [] v) (by rw [h2]; exact h1)
      rw [← this]; exact h
    have hf := key.1 hl
    refine ⟨fun b hb => ⟨hn b hb, hf.1 b hb⟩, fun a b e hr => ?_⟩
    have := hf.2 a b e
    rw [(isRef_iff b).2 hr] at this
    cases this
  · intro h
    have hf : Fixed v := by
      refine ⟨fun b hb => (h.clean b hb).2, fun a b e => ?_⟩
      cases er : isRef b with
      | false => rfl
      | true => exact absurd ((isRef_iff b).1 er) (h.amp a b e)
    unfold value
    rw [key.2 hf, cstr_plain fun b hb => (h.clean b hb).1]

/-- a value that is as long as the text it is made of -/
theorem value_full {u v : Str} (h : value true u = v) (hu : u.length ≤ v.length) (hp : u <+: v) : u = v ∧ Literal v := by
  have := value_shorter true u
  rw [h] at this
  obtain rfl := hp.eq_of_length (Nat.le_antisymm hu this)
  exact ⟨rfl, (value_literal _).1 h⟩

end Verif.Xml
