import Verif.Proof.XmlPlace5
/-!
# C99 — Reading an XML file inside its buffer

The code reads the buffer that holds the file, remembers names and values as pairs of pointers into it and decodes each of them at its
place when it is asked for.  Whatever the file contains:
* reading stays inside the buffer and ends;
* it ends with the error or the tree of `Verif.Xml.parse`, which works on lists of bytes and knows nothing of buffers;
* the names and values of the tree, asked for in any order and any number of times, are those of that tree.
-/
namespace Verif.Props
open Tec Xml Xml.InPlace

/-- Whatever the file contains, reading it never leaves the buffer and ends. -/
theorem C99_safe (content : Str) : ∃ r b', loadB content = .ok r b' := by
  have := load_run content
  cases h : parse content with
  | error e => rw [h] at this; obtain ⟨b', t⟩ := this; exact ⟨_, b', t⟩
  | ok ns => rw [h] at this; obtain ⟨b', T, m, t, -⟩ := this; exact ⟨_, b', t⟩

/-- It ends with the error that reading the list of bytes ends with, and only then. -/
theorem C99_error (content : Str) (e : Code) : (∃ b', loadB content = .ok (.error e) b') ↔ parse content = .error e := by
  have := load_run content
  cases h : parse content with
  | error e' =>
    rw [h] at this
    obtain ⟨b', t⟩ := this
    rw [t]
    constructor
    · rintro ⟨b'', t'⟩; injection t' with t' _; injection t' with t'; rw [t']
    · intro t'; injection t' with t'; subst t'; exact ⟨b', rfl⟩
  | ok ns =>
    rw [h] at this
    obtain ⟨b', T, m, t, -⟩ := this
    rw [t]
    constructor
    · rintro ⟨b'', t'⟩; injection t' with t' _; cases t'
    · intro t'; cases t'

/-- Otherwise there is a tree of the same shape, whose names and values — asked for in any order, any number of times — are those of
the tree that reading the list of bytes gives. -/
theorem C99_tree (content : Str) (ns : List Node) (h : parse content = .ok ns) :
    ∃ b' t u, loadB content = .ok (.ok t) b' ∧ nodeAll u = ns ∧ mapAll (fun _ => ()) t = mapAll (fun _ => ()) u ∧
      (flatAll t).length = (flatAll u).length ∧
      ∀ ks, (∀ k ∈ ks, k < (flatAll t).length) → ∃ ps b'', asks (flatAll t) ks b' = .ok (ps, ks.map fun k => (flatAll u).getD k []) b'' := by
  have := load_run content
  rw [h] at this
  obtain ⟨b', T, m, t, rfl, hc⟩ := this
  refine ⟨b', ptrs T, mapAll Prod.snd T, t, rfl, ?_, ?_, fun ks hk => ?_⟩
  · rw [ptrs, map_map, map_map]; rfl
  · rw [ptrs, (flat_map _).2, (flat_map _).2]; simp
  · rw [ptrs, (flat_map _).2] at hk ⊢
    rw [(flat_map _).2]
    obtain ⟨xs', b'', h1, -⟩ := asks_run ks hc (by simpa using hk)
    exact ⟨_, b'', h1⟩

/-- The places of the names and values lie inside the buffer, one behind the other in the order of the text, with the place of the NUL of
each of them before the next. -/
theorem C99_places (content : Str) {t : List (Xml.InPlace.Tree StrPair)} {b' : Str} (h : loadB content = .ok (.ok t) b') :
    (flatAll t).Pairwise (fun s s' => s.stop < s'.start) ∧ ∀ s ∈ flatAll t, s.start ≤ s.stop ∧ s.stop < b'.length := by
  have := load_run content
  cases hp : parse content with
  | error e => rw [hp] at this; obtain ⟨b'', t'⟩ := this; rw [h] at t'; injection t' with t' _; cases t'
  | ok ns =>
    rw [hp] at this
    obtain ⟨b'', T, m, t', -, hc⟩ := this
    rw [h] at t'
    injection t' with t' e
    injection t' with t'
    subst t' e
    rw [ptrs, (flat_map _).2]
    have pw : ∀ (xs : List Pair) (lo hi : Nat), Chain b' lo xs hi → (xs.map Prod.fst).Pairwise (fun s s' => s.stop < s'.start) := by
      intro xs
      induction xs with
      | nil => intro lo hi _; exact .nil
      | cons x xs ih =>
        intro lo hi hc
        refine .cons (fun s hs => ?_) (ih _ _ hc.2.2)
        obtain ⟨y, hy, rfl⟩ := List.mem_map.1 hs
        have := (hc.2.2.mem hy).1
        omega
    refine ⟨pw _ _ _ hc, fun s hs => ?_⟩
    obtain ⟨x, hx, rfl⟩ := List.mem_map.1 hs
    have := (hc.mem hx).2.2
    exact ⟨this.le, this.lt⟩

/-- Decoding a value in place: only its own bytes and the one behind them change, and then the decoded value stands there as a C string. -/
theorem C99_decode (pre raw post : Str) (c : Byte) (ent : Bool) (h : ∀ x ∈ raw, x ≠ 0) :
    ∃ s' mid, getStr ⟨pre.length, pre.length + raw.length, true, ent, true⟩ (pre ++ raw ++ c :: post) = .ok s' (pre ++ mid ++ post) ∧
      mid.length = raw.length + 1 ∧ value ent raw ++ [0] <+: mid ∧ s'.start = pre.length ∧ s'.flush = false := by
  have hh : Holds (pre ++ raw ++ c :: post) ⟨pre.length, pre.length + raw.length, true, ent, true⟩ (value ent raw) := by
    refine ⟨by simp, .inl ⟨rfl, raw, rfl, ?_, h, .inl ⟨rfl, rfl⟩⟩⟩
    rw [seg_iff]
    intro i hi
    simp only []
    rw [List.append_assoc, List.getElem?_append_right (by omega), List.getElem?_append_left (by omega)]
    congr 1; omega
  obtain ⟨s', b', h1, h2, h3, h4, h5, h6⟩ := getStr_run hh
  obtain ⟨k1, k2, k3⟩ := h2.flushed h5
  simp only [] at h3 h4 h6
  have hlen := h6.len
  simp at hlen
  have hb : b' = pre ++ (b'.drop pre.length).take (raw.length + 1) ++ post := by
    apply List.ext_getElem?
    intro i
    by_cases i1 : i < pre.length
    · rw [h6.same i (.inl i1)]
      simp [List.getElem?_append, i1]
    · by_cases i2 : i < pre.length + raw.length + 1
      · rw [List.append_assoc, List.getElem?_append_right (by omega), List.getElem?_append_left (by simp; omega), List.getElem?_take, if_pos (by omega), List.getElem?_drop]
        congr 1; omega
      · rw [h6.same i (.inr (by omega)), List.append_assoc, List.append_assoc, List.getElem?_append_right (by omega), List.getElem?_append_right (by omega),
          List.getElem?_append_right (by omega), List.getElem?_append_right (by simp; omega)]
        obtain ⟨j, hj⟩ : ∃ j, i - pre.length - raw.length = j + 1 := ⟨i - pre.length - raw.length - 1, by omega⟩
        rw [hj, List.getElem?_cons_succ]
        congr 1
        simp; omega
  refine ⟨s', _, hb ▸ h1, by simp; omega, ?_, h3, h5⟩
  rw [List.prefix_iff_eq_take]
  apply List.ext_getElem?
  intro i
  rw [List.getElem?_take]
  by_cases hi : i < (value ent raw ++ [0]).length
  · rw [if_pos hi, ← seg_iff.1 k1 i hi, List.getElem?_take, if_pos (by simp at hi; omega), List.getElem?_drop, h3]
  · rw [if_neg hi, List.getElem?_eq_none (by omega)]

/-! ## Examples -/

/-- what asking for the names and values with these numbers answers -/
def answers (content : Str) (ks : List Nat) : Option (List Str) :=
  match loadB content with
  | .ok (.ok t) b =>
    match asks (flatAll t) ks b with
    | .ok (_, vs) _ => some vs
    | _ => none
  | _ => none

-- the text before the name, the name twice, the value of the attribute after the text behind it; behind `&#x41;` the unknown entity
-- `&am;` keeps the byte that stands at the place of the write pointer
example : answers (lit "<a x='&lt;1' y=\"&#x41;&am;\">b &amp; c<!--d--></a>") [5, 0, 6, 2, 1, 4, 0, 5, 3] =
    some [lit "b & c", lit "a", lit "d", lit "<1", lit "x", lit "A#am;", lit "a", lit "b & c", lit "y"] := by decide +kernel

-- an end tag that does not fit: its name and the name of the element have become C strings
example : (match loadB (lit "<a>x</b>") with
    | .ok (.error e) b => some (e, b)
    | _ => none) = some (.mismatchedElement, lit "<a" ++ 0 :: lit "x</b" ++ [0, 0]) := by decide +kernel
example : (match parse (lit "<a>x</b>") with
    | .error e => some e
    | _ => none) = some .mismatchedElement := by decide +kernel

-- a value between two others
example : ∀ x ∈ lit "&lt;&#65;", x ≠ 0 := by decide
example : (match getStr ⟨2, 11, true, true, true⟩ (lit "='&lt;&#65;' y") with
    | .ok s b => some (s, b)
    | _ => none) = some (⟨2, 11, false, false, false⟩, lit "='<A" ++ 0 :: (lit ";&#65;" ++ 0 :: lit " y")) := by decide +kernel

end Verif.Props
