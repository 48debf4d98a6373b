import Verif.Proof.XmlExact1
/-!
# Which texts are read as given nodes
-/
namespace Verif.Xml
open Tec Spec

/-- the children read -/
def Ended.kids : Ended → Option (List Node)
  | .atEnd cs => some cs
  | .byTag cs _ _ => some cs
  | .failed _ => none

theorem nodes_grow : ∀ (f : Nat) (doc : Bool) (cs : List Node) (p : Str) (L : List Node), (parseNodes f doc cs p).kids = some L → cs <+: L := by
  intro f
  induction f with
  | zero =>
    intro doc cs p L h
    rw [parseNodes] at h
    cases h
    exact List.prefix_refl _
  | succ f ih =>
    intro doc cs p L h
    have ih' : ∀ (x : Node) (r : Str), (parseNodes f doc (cs ++ [x]) r).kids = some L → cs <+: L := fun x r h =>
      (List.prefix_append cs [x]).trans (ih _ _ _ _ h)
    rw [parseNodes] at h
    split at h
    · cases h; exact List.prefix_refl _
    · split at h
      · cases h
      · exact ih' _ _ h
    · split at h
      · cases h
      · split at h
        · exact ih' _ _ h
        · cases h
    · split at h
      · cases h
      · exact ih' _ _ h
    · split at h
      · cases h
      · exact ih' _ _ h
    · split at h
      · cases h
      · split at h
        · cases h
        · exact ih' _ _ h
    · split at h
      · cases h
      · cases h; exact List.prefix_refl _
      · exact ih' _ _ h
      · split at h
        · cases h
        · split at h
          · cases h
          · cases h
          · split at h
            · exact ih' _ _ h
            · cases h

/-- where the first node comes from -/
inductive FirstNode (f : Nat) (p : Str) : Node → Prop
  | comment {q : Str} (v : Str) (i : identify p = some (.comment, q)) : FirstNode f p (.comment v)
  | decl {q : Str} (v : Str) (i : identify p = some (.decl, q)) : FirstNode f p (.decl v)
  | cdata {q : Str} (v : Str) (i : identify p = some (.cdata, q)) : FirstNode f p (.text true v)
  | unknown {q : Str} (v : Str) (i : identify p = some (.unknown, q)) : FirstNode f p (.unknown v)
  | text {q v r : Str} (i : identify p = some (.text, q)) (t : parseText (lit "<") q = some (v, r)) : FirstNode f p (.text false (value true v))
  | closed {q n r : Str} {as : List (Str × Str)} (i : identify p = some (.elem, q)) (t : parseTag q = .ok (n, as, .closed, r)) :
      FirstNode f p (.elem n as [])
  | opened {q n r r' : Str} {as : List (Str × Str)} {ks : List Node} (i : identify p = some (.elem, q)) (t : parseTag q = .ok (n, as, .opened, r))
      (k : parseNodes f false [] r = .byTag ks n r') : FirstNode f p (.elem n as ks)

theorem prefix_last {cs L : List Node} {x y : Node} (h1 : cs ++ [x] <+: L) (h2 : cs ++ [y] <+: L) : x = y := by
  have := List.prefix_of_prefix_length_le h1 h2 (by simp)
  have := List.append_cancel_left (this.eq_of_length (by simp))
  simpa using this

theorem no_next {cs : List Node} {x : Node} (h : cs ++ [x] <+: cs) : False := by
  have := h.length_le
  simp at this

theorem first_node {f : Nat} {doc : Bool} {cs L : List Node} {p : Str} {x : Node} (h : (parseNodes f doc cs p).kids = some L) (hx : cs ++ [x] <+: L) :
    ∃ g, f = g + 1 ∧ FirstNode g p x := by
  cases f with
  | zero => rw [parseNodes] at h; cases h; exact (no_next hx).elim
  | succ f =>
    refine ⟨f, rfl, ?_⟩
    have key : ∀ (y : Node) (r : Str), (parseNodes f doc (cs ++ [y]) r).kids = some L → x = y := fun y r h =>
      prefix_last hx (nodes_grow _ _ _ _ _ h)
    rw [parseNodes] at h
    split at h
    · cases h; exact (no_next hx).elim
    · rename_i i
      split at h
      · cases h
      · rw [key _ _ h]; exact .comment _ i
    · rename_i i
      split at h
      · cases h
      · split at h
        · rw [key _ _ h]; exact .decl _ i
        · cases h
    · rename_i i
      split at h
      · cases h
      · rw [key _ _ h]; exact .cdata _ i
    · rename_i i
      split at h
      · cases h
      · rw [key _ _ h]; exact .unknown _ i
    · rename_i i
      split at h
      · cases h
      · rename_i t
        split at h
        · cases h
        · rw [key _ _ h]; exact .text i t
    · rename_i i
      split at h
      · cases h
      · cases h; exact (no_next hx).elim
      · rename_i t
        rw [key _ _ h]; exact .closed i t
      · rename_i t
        split at h
        · cases h
        · split at h
          · cases h
          · cases h
          · rename_i k
            split at h
            · rename_i e
              subst e
              rw [key _ _ h]; exact .opened i t k
            · cases h

theorem identify_elem_inv {p q : Str} (h : identify p = some (.elem, q)) : skipSpace p = 60 :: q := by
  unfold identify at h
  simp only at h
  split at h
  · cases h
  split at h
  · cases h
  split at h
  · cases h
  split at h
  · cases h
  split at h
  · cases h
  split at h
  · rename_i e
    cases h
    exact strip_inv e
  · cases h

theorem identify_text_inv {p q : Str} (h : identify p = some (.text, q)) : q = p ∧ ∀ l, skipSpace p ≠ 60 :: l := by
  unfold identify at h
  simp only at h
  split at h
  · cases h
  split at h
  · cases h
  split at h
  · cases h
  split at h
  · cases h
  split at h
  · cases h
  split at h
  · cases h
  · rename_i e
    cases h
    refine ⟨rfl, fun l hl => ?_⟩
    rw [hl] at e
    simp [lit, strip] at e

theorem skip_tag {w : Str} (hw : Blank w) (s : Str) : skipSpace (w ++ 60 :: s) = 60 :: s := by
  rw [skipSpace_blank hw, skipSpace_cons (by decide)]

/-! ## Names and tags -/

theorem isStart_name {b : UInt8} (h : isNameStart b = true) : NameStart b := by
  unfold isNameStart at h
  unfold NameStart
  simp only [Bool.or_eq_true, Bool.and_eq_true, decide_eq_true_eq, beq_iff_eq] at h
  simp only [UInt8.le_iff_toNat_le]
  rcases h with (((h | h) | h) | h) | h
  · exact .inr (.inr (.inr (.inr h)))
  · exact .inl h
  · exact .inr (.inl h)
  · exact .inr (.inr (.inl h))
  · exact .inr (.inr (.inr (.inl h)))

theorem isChar_name {b : UInt8} (h : isNameChar b = true) : NameByte b := by
  unfold isNameChar isDigit at h
  unfold NameByte
  simp only [Bool.or_eq_true, Bool.and_eq_true, decide_eq_true_eq, beq_iff_eq] at h
  simp only [UInt8.le_iff_toNat_le (a := 48), UInt8.le_iff_toNat_le (b := 57)]
  rcases h with ((h | h) | h) | h
  · exact .inl (isStart_name h)
  · exact .inr (.inl h)
  · exact .inr (.inr (.inl h))
  · exact .inr (.inr (.inr h))

theorem takeWhile_mem {p : UInt8 → Bool} {l : Str} {b : UInt8} (h : b ∈ l.takeWhile p) : p b = true := by
  induction l with
  | nil => cases h
  | cons a l ih =>
    rw [List.takeWhile_cons] at h
    split at h
    · rename_i ha
      rcases List.mem_cons.1 h with rfl | h
      · exact ha
      · exact ih h
    · cases h

theorem parseName_name {p n r : Str} (h : parseName p = some (n, r)) : IsName n := by
  cases p with
  | nil => cases h
  | cons b l =>
    rw [parseName] at h
    split at h
    · rename_i hb
      cases h
      exact ⟨isStart_name hb, fun c hc => isChar_name (takeWhile_mem hc)⟩
    · cases h

theorem parseTag_name {q n r : Str} {as : List (Str × Str)} {c : Closing} (h : parseTag q = .ok (n, as, c, r)) : IsName n := by
  unfold parseTag at h
  simp only at h
  split at h
  · cases h
  · rename_i e
    split at h
    · cases h
    · cases h
      exact parseName_name e

theorem attrs_grow : ∀ (f : Nat) (as : List (Str × Str)) (p : Str) (as' : List (Str × Str)) (s : Bool) (r : Str),
    parseAttrs f as p = .ok (as', s, r) → as <+: as' := by
  intro f
  induction f with
  | zero => intro as p as' s r h; rw [parseAttrs] at h; cases h
  | succ f ih =>
    intro as p as' s r h
    rw [parseAttrs] at h
    split at h
    · cases h
    · split at h
      · split at h
        · cases h
        · split at h
          · cases h
          · exact (List.prefix_append as _).trans (ih _ _ _ _ _ h)
      · split at h
        · cases h; exact List.prefix_refl _
        · split at h
          · split at h
            · cases h; exact List.prefix_refl _
            · cases h
          · cases h

theorem parseText_upto {c : UInt8} {u t v r : Str} (h : parseText [c] (u ++ c :: t) = some (v, r)) : v <+: u := by
  have h1 := parseText_inv h
  have h2 := parseText_byte h
  have h3 : v ++ ([c] ++ r) = u ++ c :: t := h1.symm
  rcases List.append_eq_append_iff.1 h3 with ⟨a, e1, e2⟩ | ⟨a, e1, e2⟩
  · exact ⟨a, e1.symm⟩
  · cases a with
    | nil => rw [List.append_nil] at e1; rw [e1]; exact List.prefix_refl _
    | cons y a =>
      cases e2
      rw [e1] at h2
      simp at h2

/-- a tag with one attribute whose value is a text of the log -/
theorem tag_attr {n k v : Str} (hn : IsName n) (hk : IsName k) (r : Str) :
    (AttrLoads v → parseTag (n ++ (32 :: (k ++ 61 :: 34 :: (cstr v ++ 34 :: 62 :: r)))) = .ok (n, [(k, v)], .opened, r)) ∧
    ∀ n' as c r', parseTag (n ++ (32 :: (k ++ 61 :: 34 :: (cstr v ++ 34 :: 62 :: r)))) = .ok (n', as, c, r') →
      n' = n ∧ c ≠ .closing ∧ (as = [(k, v)] → AttrLoads v) := by
  obtain ⟨b, l, e, hb⟩ := name_start hn
  obtain ⟨b', l', e', hb'⟩ := name_start hk
  have hs : ∀ q, skipSpace (n ++ q) = n ++ q := fun q => by rw [e, List.cons_append, skipSpace_cons (name_notSpace hb)]
  have hc : ∀ q, strip [47] (n ++ q) = none := fun q => by rw [e, List.cons_append, strip_ne _ _ (nameStart_ne hb).1.symm]
  have hpn : ∀ q, parseName (n ++ 32 :: q) = some (n, 32 :: q) := parseName_ok hn (by decide)
  have hsk : ∀ q, skipSpace (32 :: (k ++ q)) = k ++ q := by
    intro q
    rw [e', show skipSpace (32 :: (b' :: l' ++ q)) = skipSpace ([32] ++ (b' :: l' ++ q)) from rfl, skipSpace_blank (by decide), List.cons_append, skipSpace_cons (name_notSpace hb')]
  have attr : ∀ q, parseAttr (k ++ 61 :: 34 :: q) = match parseText [34] q with | some (v, r) => some ((k, value true v), r) | none => none := by
    intro q
    unfold parseAttr
    rw [parseName_ok hk (by decide)]
    simp only
    rw [skipSpace_cons (by decide)]
    simp only
    rw [skipSpace_cons (by decide)]
    simp only
    rw [if_pos (.inl trivial)]
    rfl
  have attrs : ∀ f q, parseAttrs (f + 1) [] (32 :: (k ++ 61 :: 34 :: q)) = match parseText [34] q with
      | some (v, r) => parseAttrs f [(k, value true v)] r | none => .error .parsingAttribute := by
    intro f q
    rw [parseAttrs, hsk, e', List.cons_append]
    simp only
    rw [if_pos hb', ← List.cons_append, ← e', attr]
    cases parseText [34] q with
    | none => rfl
    | some x => rfl
  unfold parseTag
  simp only [hs, hc, Option.getD_none, hpn]
  constructor
  · intro h
    have hcs : cstr v = v := cstr_plain fun x hx => (h.2.clean x hx).1
    rw [attrs, hcs, show parseText [34] (v ++ 34 :: 62 :: r) = some (v, 62 :: r) from parseText_one h.1 [] _]
    simp only [(value_literal v).2 h.2]
    obtain ⟨f, hf⟩ : ∃ f, (32 :: (k ++ 61 :: 34 :: (v ++ 34 :: 62 :: r))).length = f + 1 := ⟨_, rfl⟩
    rw [hf, parseAttrs, skipSpace_cons (by decide)]
    simp only
    rw [if_neg (by decide), if_pos trivial]
    rfl
  · intro n' as c r' h
    split at h
    · cases h
    · rename_i as0 s r0 e0
      cases h
      refine ⟨rfl, ?_, ?_⟩
      · cases s <;> simp
      · intro ea
        rw [attrs] at e0
        split at e0
        · rename_i v0 r0 et
          have hp := attrs_grow _ _ _ _ _ _ e0
          rw [ea] at hp
          have hv : value true v0 = v := by
            have := hp.eq_of_length (by simp)
            simpa using this
          have hpre := parseText_upto et
          have hpre' : v0 <+: v := hpre.trans (List.takeWhile_prefix _)
          obtain ⟨rfl, hlit⟩ := value_full hv hpre'.length_le hpre'
          exact ⟨parseText_byte et, hlit⟩
        · cases e0

end Verif.Xml
