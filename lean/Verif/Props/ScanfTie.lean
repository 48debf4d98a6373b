import Verif.Proof.ScanfTie
/-!
# C119: what the texts of numbers are read as
-/
namespace Verif.Props
open Spec Tec Xml

/-- C119: a decimal number, with white space behind it, is read as the nearest `double`, with the sign of the text; it is read as infinite exactly if it is not
nearer to zero than the number halfway between the largest `double` and 2^1024 -/
theorem C119_nearest {s t : Str} {neg : Bool} {v : ℚ} (h : ShowsNum s neg v) (ht : BlankC t) : ∃ r : F64, Ty.double.conv (s ++ t) = .ok (some (.double r)) ∧
    (2 ^ 63 ≤ r.toNat ↔ neg = true) ∧ (IsFinite r ↔ |v| < (2 ^ 54 - 1) * 2 ^ 970) ∧ (¬ IsFinite r → r.toNat % 2 ^ 63 = 0x7FF0000000000000) ∧
    (IsFinite r → ∀ y, IsFinite y → |realVal r - v| ≤ |realVal y - v|) := by
  obtain ⟨n, q, hq, hv, hr⟩ := shows_ratio h ht
  obtain ⟨h1, h2⟩ := ratio_finite64 neg n hq hv
  refine ⟨withSign neg (nearest n q), ?_, withSign_ge neg (nearest_le n q), h1, h2, (read_ratio neg n hq hv).1⟩
  show Out.ok ((scanLf (s ++ t)).map Scalar.double) = _
  rw [hr]
  rfl

/-- C119: of two nearest numbers it is the one with an even pattern -/
theorem C119_tie {s t : Str} {neg : Bool} {v : ℚ} (h : ShowsNum s neg v) (ht : BlankC t) {r y : F64} (hr : Ty.double.conv (s ++ t) = .ok (some (.double r))) (hf : IsFinite r)
    (hne : realVal y ≠ realVal r) (he : |realVal y - v| = |realVal r - v|) : r.toNat % 2 = 0 := by
  obtain ⟨n, q, hq, hv, hr'⟩ := shows_ratio h ht
  have e : Out.ok ((scanLf (s ++ t)).map Scalar.double) = .ok (some (.double r)) := hr
  rw [hr'] at e
  obtain rfl : withSign neg (nearest n q) = r := by
    generalize withSign neg (nearest n q) = z at e
    cases e
    rfl
  exact ratio_tie64 neg n hq hv hf hne he

/-- 2^53 + 1 and 2^53 + 3 are halfway between two numbers -/
example : ShowsNum (lit "9007199254740993") false 9007199254740993 ∧ Ty.double.conv (lit "9007199254740993") = .ok (some (.double 0x4340000000000000#64)) ∧
    Ty.double.conv (lit "9007199254740995 ") = .ok (some (.double 0x4340000000000002#64)) := by
  refine ⟨⟨lit "9007199254740993", [], [], [], 0, rfl, ⟨by decide, by decide⟩, by simp, .inl ⟨rfl, rfl⟩, .inl ⟨rfl, rfl⟩, ?_⟩, ?_, ?_⟩
  · rw [show Spec.digitsVal (lit "9007199254740993" ++ []) = 9007199254740993 by decide +kernel]
    simp
  · show Out.ok ((scanLf (lit "9007199254740993")).map Scalar.double) = _
    rw [show scanLf (lit "9007199254740993") = some 0x4340000000000000#64 by decide +kernel]
    rfl
  · show Out.ok ((scanLf (lit "9007199254740995 ")).map Scalar.double) = _
    rw [show scanLf (lit "9007199254740995 ") = some 0x4340000000000002#64 by decide +kernel]
    rfl

/-- the two numbers around 2^53 + 1 are as far from it -/
example : IsFinite 0x4340000000000000#64 ∧ realVal 0x4340000000000001#64 ≠ realVal 0x4340000000000000#64 ∧
    |realVal 0x4340000000000001#64 - 9007199254740993| = |realVal 0x4340000000000000#64 - 9007199254740993| := by
  have hU : (unit64 : ℚ) ≠ 0 := by exact_mod_cast unit64_pos.ne'
  have h1 : realVal 0x4340000000000000#64 = 9007199254740992 := by
    rw [F64.real_eq, show F64.abs 0x4340000000000000#64 = 9007199254740992 * unit64 by decide +kernel, show F64.sgn 0x4340000000000000#64 = 1 by decide +kernel, Nat.cast_mul,
      mul_div_assoc, div_self hU]
    norm_num
  have h2 : realVal 0x4340000000000001#64 = 9007199254740994 := by
    rw [F64.real_eq, show F64.abs 0x4340000000000001#64 = 9007199254740994 * unit64 by decide +kernel, show F64.sgn 0x4340000000000001#64 = 1 by decide +kernel, Nat.cast_mul,
      mul_div_assoc, div_self hU]
    norm_num
  refine ⟨(F64.finite_iff _).mpr (by decide), ?_, ?_⟩ <;> rw [h1, h2] <;> norm_num

/-- C119: a text is read as `int` exactly if it shows an integer, whatever follows; an integer that is no `int` is undefined -/
theorem C119_int (t : Str) : (∀ v, ShowsInt t v → Ty.int.conv t = if -2 ^ 31 ≤ v ∧ v < 2 ^ 31 then .ok (some (.int v)) else .ub .overflow) ∧
    ((∀ v, ¬ ShowsInt t v) → Ty.int.conv t = .ok none) := conv_int t

/-- C119: the same for `int64_t` -/
theorem C119_int64 (t : Str) : (∀ v, ShowsInt t v → Ty.int64.conv t = if -2 ^ 63 ≤ v ∧ v < 2 ^ 63 then .ok (some (.int64 v)) else .ub .overflow) ∧
    ((∀ v, ¬ ShowsInt t v) → Ty.int64.conv t = .ok none) := conv_int64 t

/-- C119: for `unsigned` a negative number is taken modulo 2^32 -/
theorem C119_unsigned (t : Str) : (∀ v, ShowsInt t v → Ty.unsigned.conv t = if -2 ^ 32 < v ∧ v < 2 ^ 32 then .ok (some (.unsigned (v % 2 ^ 32).toNat)) else .ub .overflow) ∧
    ((∀ v, ¬ ShowsInt t v) → Ty.unsigned.conv t = .ok none) := conv_unsigned t

/-- C119: a `bool` is a number, or one of the two words -/
theorem C119_bool (t : Str) : (∀ v, ShowsInt t v → Ty.bool.conv t = if -2 ^ 31 ≤ v ∧ v < 2 ^ 31 then .ok (some (.bool (v ≠ 0))) else .ub .overflow) ∧
    ((∀ v, ¬ ShowsInt t v) → (t = lit "true" → Ty.bool.conv t = .ok (some (.bool true))) ∧ (t = lit "false" → Ty.bool.conv t = .ok (some (.bool false))) ∧
      (t ≠ lit "true" → t ≠ lit "false" → Ty.bool.conv t = .ok none)) := conv_bool t

example : ShowsInt (lit " -12z") (-12) ∧ ShowsInt (lit "+2147483648") 2147483648 ∧ Ty.int.conv (lit "+2147483648") = .ub .overflow ∧
    Ty.int64.conv (lit "+2147483648") = .ok (some (.int64 2147483648)) ∧ Ty.unsigned.conv (lit " -12z") = .ok (some (.unsigned 4294967284)) ∧
    Ty.bool.conv (lit " -12z") = .ok (some (.bool true)) ∧ Ty.int.conv (lit "- 1") = .ok none ∧ Ty.bool.conv (lit "false") = .ok (some (.bool false)) := by
  refine ⟨⟨lit " ", lit "-", lit "12", lit "z", by decide, by decide +kernel, by decide, by decide +kernel, .inr ⟨rfl, by decide +kernel⟩⟩,
    ⟨[], lit "+", lit "2147483648", [], by decide, by decide +kernel, by decide, by decide +kernel, .inl ⟨.inr rfl, by decide +kernel⟩⟩, by rfl, by rfl, by rfl, by rfl, by rfl, by rfl⟩

/-- what does not show an integer -/
example : ∀ v, ¬ ShowsInt (lit "- 1") v := noInt_iff.mpr (by decide +kernel)

end Verif.Props
