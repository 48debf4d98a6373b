import Verif.Props.XmlDoc
/-!
# C98: references to characters
-/
namespace Verif.Props
open Spec Tec Xml

/-- an element with a text, one with an attribute -/
theorem load_raw {raw v : Str} (h60 : Escapes 60 raw v) (hv : Visible raw) : loadFile (some (lit "<a>" ++ raw ++ lit "</a>")) = .ok [.elem (lit "a") [] [.text false v]] := by
  have hw : WritesDoc [.elem (lit "a") [] [.text false v]] (lit "<a>" ++ raw ++ lit "</a>") := by
    have h1 := WritesAll.text h60 hv (.nil (w := []) (by decide +kernel) (fun _ => rfl))
    have h2 := WritesAll.node (after := false) (w := []) (by decide +kernel) (fun _ => rfl) (.node (n := lit "a") (raw := []) (by decide +kernel) ⟨.nil, by decide +kernel⟩ h1)
      (.nil (after := false) (w := []) (by decide +kernel) (fun _ => rfl))
    have := WritesDoc.nodes (fun x hx => by cases hx; rfl) h2
    simpa [lit, attrsText] using this
  simpa [bomText] using C80 hw (by simp) false (fun _ h => by obtain ⟨x, hx, hh⟩ := h; cases hx; cases hh)

theorem load_attr {raw v : Str} (h34 : Escapes 34 raw v) : loadFile (some (lit "<a b=\"" ++ raw ++ lit "\"/>")) = .ok [.elem (lit "a") [(lit "b", v)] []] := by
  have hw : WritesDoc [.elem (lit "a") [(lit "b", v)] []] (lit "<a b=\"" ++ raw ++ lit "\"/>") := by
    have ha : WritesAttrs [(lit "b", raw)] [(lit "b", v)] := ⟨.cons ⟨rfl, (by decide +kernel : IsName (lit "b")), h34⟩ .nil, (by decide +kernel : [lit "b"].Nodup)⟩
    have h2 := WritesAll.node (after := false) (w := []) (by decide +kernel) (fun _ => rfl) (.sealed (n := lit "a") (by decide +kernel) ha)
      (.nil (after := false) (w := []) (by decide +kernel) (fun _ => rfl))
    have := WritesDoc.nodes (fun x hx => by cases hx; rfl) h2
    simpa [lit, attrsText] using this
  simpa [bomText] using C80 hw (by simp) false (fun _ h => by obtain ⟨x, hx, hh⟩ := h; cases hx; cases hh)

/-- C98: a reference to a character other than NUL, decimal or hexadecimal, with any number of zeros before it, is read as the UTF-8 bytes of this character, in
texts and in values of attributes (C80: also among other text) -/
theorem C98_partial {e : Str} {c : Char} (h : RefText e c.toNat) (h0 : c.toNat ≠ 0) :
    loadFile (some (lit "<a>" ++ e ++ lit "</a>")) = .ok [.elem (lit "a") [] [.text false (String.utf8EncodeChar c)]] ∧
    loadFile (some (lit "<a b=\"" ++ e ++ lit "\"/>")) = .ok [.elem (lit "a") [(lit "b", String.utf8EncodeChar c)] []] := by
  obtain ⟨b, l, he, -⟩ := refText_charRef h (char_small c)
  have hv : Visible e := ⟨38, by simp [he], by decide⟩
  constructor
  · have := load_raw (.ref h h0 .nil) (by simpa using hv)
    simpa using this
  · have := load_attr (.ref h h0 .nil)
    simpa using this

theorem ref_20013 : RefText (lit "&#20013;") ('中' : Char).toNat ∧ RefText (lit "&#x04e2D;") ('中' : Char).toNat := by
  constructor
  · exact ⟨lit "20013", by decide +kernel, .inl ⟨((((Numeral.nil.digit (c := 50) (d := 2) (by decide +kernel) (by decide)).digit (c := 48) (d := 0) (by decide +kernel) (by decide)).digit
      (c := 48) (d := 0) (by decide +kernel) (by decide)).digit (c := 49) (d := 1) (by decide +kernel) (by decide)).digit (c := 51) (d := 3) (by decide +kernel) (by decide), by decide +kernel⟩⟩
  · exact ⟨lit "04e2D", by decide +kernel, .inr ⟨((((Numeral.nil.digit (c := 48) (d := 0) (by decide +kernel) (by decide)).digit (c := 52) (d := 4) (by decide +kernel) (by decide)).digit
      (c := 101) (d := 14) (by decide +kernel) (by decide)).digit (c := 50) (d := 2) (by decide +kernel) (by decide)).digit (c := 68) (d := 13) (by decide +kernel) (by decide), by decide +kernel⟩⟩

example : RefText (lit "&#20013;") ('中' : Char).toNat ∧ ('中' : Char).toNat ≠ 0 ∧ String.utf8EncodeChar '中' = [0xE4, 0xB8, 0xAD] := ⟨ref_20013.1, by decide +kernel, by decide +kernel⟩

theorem plain_escapes {stop : UInt8} {s : Str} (h : ∀ b ∈ s, b ≠ 0 ∧ b ≠ 10 ∧ b ≠ 13 ∧ b ≠ 38 ∧ b ≠ stop) : Escapes stop s s := by
  induction s with
  | nil => exact .nil
  | cons b s ih => exact .byte (h b (by simp)) (ih fun c hc => h c (by simp [hc]))

/-- C98: what looks like a reference, but has no numeral, stays as it is -/
theorem C98_wrong {s : Str} (hs : ∀ b ∈ s, b ≠ 0 ∧ b ≠ 10 ∧ b ≠ 13 ∧ b ≠ 38 ∧ b ≠ 60) (h : WrongRef s) :
    loadFile (some (lit "<a>" ++ 38 :: s ++ lit "</a>")) = .ok [.elem (lit "a") [] [.text false (38 :: s)]] :=
  load_raw (.wrong h (plain_escapes hs)) ⟨38, by simp, by decide⟩

theorem noNumeral_of {base : Nat} {mark c : UInt8} {s : Str} (h1 : mark ∉ s) (h2 : c ∈ s) (h3 : ∀ d < base, (c, d) ∉ digitTable) : NoNumeral base mark s := by
  refine ⟨[], s, rfl, h1, .inl rfl, ?_⟩
  rintro ⟨n, hn⟩
  induction hn with
  | nil => cases h2
  | @digit s n c' d _ hc hd ih =>
    rcases List.mem_append.1 h2 with h | h
    · exact ih (fun hh => h1 (List.mem_append_left _ hh)) h
    · cases List.mem_singleton.1 h
      exact h3 d hd hc

example : WrongRef (lit "#12a;b") ∧ WrongRef (lit "#x12g;") :=
  ⟨⟨lit "12a", lit "b", by decide +kernel, by decide +kernel, .inl ⟨by decide +kernel, by decide +kernel, noNumeral_of (c := 97) (by decide +kernel) (by decide +kernel) (by decide +kernel)⟩⟩,
    ⟨lit "12g", [], by decide +kernel, by decide +kernel, .inr ⟨by decide +kernel, noNumeral_of (c := 103) (by decide +kernel) (by decide +kernel) (by decide +kernel)⟩⟩⟩

/-- C98: a reference to a number with more than 21 bits is dropped -/
theorem C98_dropped {e : Str} {n : Nat} (h : RefText e n) (h1 : 0x200000 ≤ n) (h2 : n < 0x100000000) : loadFile (some (lit "<a b=\"" ++ e ++ lit "\"/>")) = .ok [.elem (lit "a") [(lit "b", [])] []] := by
  simpa using load_attr (.dropped h ⟨h1, h2⟩ .nil)

example : RefText (lit "&#9999999;") 9999999 := by
  have h9 : ∀ {s n}, Numeral 10 s n → Numeral 10 (s ++ [57]) (10 * n + 9) := fun h => h.digit (by decide +kernel) (by decide)
  exact ⟨lit "9999999", by decide +kernel, .inl ⟨h9 (h9 (h9 (h9 (h9 (h9 (h9 .nil)))))), by decide +kernel⟩⟩

/-- C98 is false of references to something that is no character; none of these documents is rejected, and the reference is neither kept nor dropped: a number of more than 32 bits is read as a
character (here `A`); so is a reference with other text before a second `#` or `x`; half of a surrogate pair gets bytes that are no UTF-8, and so does a number beyond the last character; a reference to
NUL or without digits ends the text -/
theorem C98_false :
    loadFile (some (lit "<a>&#x100000041;</a>")) = .ok [.elem (lit "a") [] [.text false (lit "A")]] ∧
    loadFile (some (lit "<a>&#no#65;</a>")) = .ok [.elem (lit "a") [] [.text false (lit "A")]] ∧
    loadFile (some (lit "<a>&#xnox41;</a>")) = .ok [.elem (lit "a") [] [.text false (lit "A")]] ∧
    loadFile (some (lit "<a>&#xD800;</a>")) = .ok [.elem (lit "a") [] [.text false [0xED, 0xA0, 0x80]]] ∧
    loadFile (some (lit "<a>&#x1FFFFF;</a>")) = .ok [.elem (lit "a") [] [.text false [0xF7, 0xBF, 0xBF, 0xBF]]] ∧
    loadFile (some (lit "<a>x&#0;y</a>")) = .ok [.elem (lit "a") [] [.text false (lit "x")]] ∧
    loadFile (some (lit "<a>x&#;y</a>")) = .ok [.elem (lit "a") [] [.text false (lit "x")]] := by
  refine ⟨by rfl, by rfl, by rfl, by rfl, by rfl, by rfl, by rfl⟩

end Verif.Props
