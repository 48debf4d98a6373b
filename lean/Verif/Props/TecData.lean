import Verif.Model.Tec.Data
import Verif.Spec.Tec
import Verif.Proof.Tec1
/-!
# Describing variables and zones: C61, C62
-/
namespace Verif.Props
open Spec Tec

/-! ## C61: `TEC_DATA(T *)` -/

/-- the types of Tecplot and the types of C++ that represent them -/
def tecTypes : List (CType × TecType) := [(.float, .float), (.double, .double), (.int, .longint), (.short, .shortint), (.schar, .byte)]

/-- C61: a pointer to one of the five types, `const` or not, is accepted; type and size are those of the elements
it points to -/
theorem C61 {T : Pointee} {t : TecType} (p : Ptr) (h : (T.type, t) ∈ tecTypes) (hv : T.volatile = false) :
    TecData.ofPtr T p = .ok { type := t, size := T.type.size, DataP := p, buf := .null } ∧ t ≠ .null ∧ T.type.size = t.bytes := by
  obtain ⟨T, c, v⟩ := T
  simp only [tecTypes, List.mem_cons, List.not_mem_nil, or_false, Prod.mk.injEq] at h
  simp only at hv
  subst hv
  rcases h with ⟨rfl, rfl⟩ | ⟨rfl, rfl⟩ | ⟨rfl, rfl⟩ | ⟨rfl, rfl⟩ | ⟨rfl, rfl⟩ <;> cases c <;> exact ⟨rfl, by decide, rfl⟩

theorem Pointee.is_iff (T : Pointee) (t : CType) : T.is t = true ↔ T.type = t ∧ T.volatile = false := by
  obtain ⟨T, c, v⟩ := T
  unfold Pointee.is
  cases c <;> cases v <;> simp

/-- the five types and nothing else -/
def Supported (T : Pointee) : Prop := T.volatile = false ∧ ∃ t, (T.type, t) ∈ tecTypes

theorem ofPtr_other {T : Pointee} (p : Ptr) (h : ¬Supported T) : TecData.ofPtr T p =
    if (unsupportedText T.type).length < 300 then .err (.text (unsupportedText T.type)) else .ub .oob := by
  have key : ∀ c ∈ [CType.float, .double, .int, .short, .schar], T.is c = false := by
    intro c hc
    by_contra hn
    rw [Bool.not_eq_false, Pointee.is_iff] at hn
    refine h ⟨hn.2, ?_⟩
    rw [hn.1]
    simp only [List.mem_cons, List.not_mem_nil, or_false] at hc
    rcases hc with rfl | rfl | rfl | rfl | rfl
    · exact ⟨.float, by decide⟩
    · exact ⟨.double, by decide⟩
    · exact ⟨.longint, by decide⟩
    · exact ⟨.shortint, by decide⟩
    · exact ⟨.byte, by decide⟩
  unfold TecData.ofPtr
  rw [key _ (by decide), key _ (by decide), key _ (by decide), key _ (by decide), key _ (by decide)]
  unfold sprintf
  by_cases hl : (unsupportedText T.type).length < 300
  · rw [if_pos hl, if_pos (show _ + 1 ≤ 300 from hl)]; rfl
  · rw [if_neg hl, if_neg (show ¬(_ + 1 ≤ 300) from hl)]; rfl

/-- C61 (refusal): a pointer to any other type is refused with a text that names the type, if that text with its
NUL has at most 300 bytes -/
theorem C61_partial {T : Pointee} (p : Ptr) (h : ¬Supported T) (hn : (unsupportedText T.type).length < 300) :
    TecData.ofPtr T p = .err (.text (unsupportedText T.type)) := by
  rw [ofPtr_other p h, if_pos hn]

/-- C61 (any length): a text that does not fit the 300 bytes is written beyond them, which is undefined -/
theorem C61_exact {T : Pointee} (p : Ptr) (h : ¬Supported T) :
    TecData.ofPtr T p = if (unsupportedText T.type).length < 300 then .err (.text (unsupportedText T.type)) else .ub .oob :=
  ofPtr_other p h

/-- C61 (exactly when): the constructor returns if and only if the type is one of the five -/
theorem C61_iff {T : Pointee} (p : Ptr) : (∃ d, TecData.ofPtr T p = .ok d) ↔ Supported T := by
  refine ⟨fun ⟨d, hd⟩ => ?_, fun ⟨hv, t, ht⟩ => ⟨_, (C61 p ht hv).1⟩⟩
  by_contra h
  rw [ofPtr_other p h] at hd
  split at hd <;> cases hd

/-- every type of C++ that is not a class and not among the five is refused: `char`, `unsigned char`, `unsigned`,
`long`, … -/
theorem C61_builtin {T : Pointee} (p : Ptr) (h : ¬Supported T) (hc : ∀ s n, T.type ≠ .other s n) :
    ∃ m, TecData.ofPtr T p = .err (.text m) := by
  refine ⟨_, C61_partial p h ?_⟩
  generalize T.type = t at hc
  cases t with
  | other s n => exact absurd rfl (hc s n)
  | _ => decide +kernel

/-- the element type of the library is called "same as char" in ordered_tec.h:34, but `char` is another type and
refused; so is a pointer to volatile data -/
example : TecData.ofPtr ⟨.char, false, false⟩ .null = .err (.text (lit "type [c]*1 is unsupported in Tecplot")) ∧
    TecData.ofPtr ⟨.schar, true, false⟩ (.at 3 0) = .ok { type := .byte, size := 1, DataP := .at 3 0, buf := .null } ∧
    TecData.ofPtr ⟨.float, false, true⟩ .null = .err (.text (lit "type [f]*4 is unsupported in Tecplot")) ∧
    TecData.ofPtr ⟨.long, true, false⟩ .null = .err (.text (lit "type [l]*8 is unsupported in Tecplot")) ∧
    ¬Supported ⟨.char, false, false⟩ ∧ Supported ⟨.schar, true, false⟩ := by
  refine ⟨by rfl, by rfl, by rfl, by rfl, ?_, by decide, .byte, by decide⟩
  rintro ⟨-, t, ht⟩
  cases t <;> revert ht <;> decide

/-- C61 is false of classes with long names: the text is printed into `char buf[300]` -/
theorem C61_false : ¬Supported ⟨.other (List.replicate 300 65) 8, false, false⟩ ∧
    ∀ p, TecData.ofPtr ⟨.other (List.replicate 300 65) 8, false, false⟩ p = .ub .oob := by
  have h : ¬Supported ⟨.other (List.replicate 300 65) 8, false, false⟩ := by
    rintro ⟨-, t, ht⟩
    simp only [tecTypes, List.mem_cons, List.not_mem_nil, or_false, Prod.mk.injEq, reduceCtorEq, false_and] at ht
  refine ⟨h, fun p => ?_⟩
  rw [ofPtr_other p h, if_neg (by decide +kernel)]

/-! ## C62: the row-major accessors -/

theorem rowIndex_ok {DIM d : Nat} (hD : DIM ≤ 3) (hd : d < DIM) : rowIndex DIM d = .ok (DIM - 1 - d) := by
  have e : toU32 ((DIM : Int) - 1 - d) = DIM - 1 - d := by unfold toU32; omega
  unfold rowIndex
  simp only [e]
  rw [if_pos (by omega)]

/-- the components of a triple by their number -/
def comp (a : I3) : Nat → Int
  | 0 => a.x
  | 1 => a.y
  | _ => a.z

theorem comp_get (a : I3) {i : Nat} (h : i < 3) : a.get i = .ok (comp a i) := by
  match i, h with
  | 0, _ => rfl
  | 1, _ => rfl
  | 2, _ => rfl

theorem comp_set (a : I3) {i j : Nat} (hi : i < 3) (hj : j < 3) (v : Int) : comp (a.set i v) j = if j = i then v else comp a j := by
  match i, hi, j, hj with
  | 0, _, 0, _ => rfl
  | 0, _, 1, _ => rfl
  | 0, _, 2, _ => rfl
  | 1, _, 0, _ => rfl
  | 1, _, 1, _ => rfl
  | 1, _, 2, _ => rfl
  | 2, _, 0, _ => rfl
  | 2, _, 1, _ => rfl
  | 2, _, 2, _ => rfl

/-- C62 (reading): for a zone of `DIM` ≤ 3 dimensions the accessors answer with the settings of dimension `d`
counted from the last -/
theorem C62_get (z : Zone) {DIM d : Nat} (hD : DIM ≤ 3) (hd : d < DIM) :
    Zone.Max_C DIM d z = .ok (z.sel (DIM - 1 - d)).max ∧ Zone.Skip_C DIM d z = .ok (z.sel (DIM - 1 - d)).skip ∧
    Zone.Begin_C DIM d z = .ok (z.sel (DIM - 1 - d)).head ∧ Zone.End_C DIM d z = .ok (z.sel (DIM - 1 - d)).tail := by
  unfold Zone.Max_C Zone.Skip_C Zone.Begin_C Zone.End_C
  rw [rowIndex_ok hD hd]
  generalize hi : DIM - 1 - d = i
  have hi : i < 3 := by omega
  match i, hi with
  | 0, _ => exact ⟨rfl, rfl, rfl, rfl⟩
  | 1, _ => exact ⟨rfl, rfl, rfl, rfl⟩
  | 2, _ => exact ⟨rfl, rfl, rfl, rfl⟩

/-- C62 (setting): assignments through the accessors set dimension `d` counted from the last, nothing else -/
theorem C62_set (z : Zone) {DIM d : Nat} (hD : DIM ≤ 3) (hd : d < DIM) (v : Int) :
    (∃ m, Zone.setMax_C DIM d v z = .ok () { z with Max := m } ∧ ∀ i < 3, comp m i = if i = DIM - 1 - d then v else comp z.Max i) ∧
    (∃ m, Zone.setSkip_C DIM d v z = .ok () { z with Skip := m } ∧ ∀ i < 3, comp m i = if i = DIM - 1 - d then v else comp z.Skip i) ∧
    (∃ m, Zone.setBegin_C DIM d v z = .ok () { z with Begin := m } ∧ ∀ i < 3, comp m i = if i = DIM - 1 - d then v else comp z.Begin i) ∧
    (∃ m, Zone.setEnd_C DIM d v z = .ok () { z with End := m } ∧ ∀ i < 3, comp m i = if i = DIM - 1 - d then v else comp z.End i) := by
  unfold Zone.setMax_C Zone.setSkip_C Zone.setBegin_C Zone.setEnd_C
  rw [rowIndex_ok hD hd]
  refine ⟨⟨_, rfl, fun i hi => ?_⟩, ⟨_, rfl, fun i hi => ?_⟩, ⟨_, rfl, fun i hi => ?_⟩, ⟨_, rfl, fun i hi => ?_⟩⟩ <;>
    exact comp_set _ (by omega) hi v

/-- C62 (exactly when): the accessors are defined if and only if `DIM - 1 - d`, computed in `unsigned`, is below 3 -/
theorem C62_iff (DIM d : Nat) : (∃ i, rowIndex DIM d = .ok i) ↔ ((DIM : Int) - 1 - d) % 4294967296 < 3 := by
  unfold rowIndex toU32
  simp only
  by_cases h : ((DIM : Int) - 1 - d) % 4294967296 < 3
  · rw [if_pos (by omega)]; exact ⟨fun _ => h, fun _ => ⟨_, rfl⟩⟩
  · rw [if_neg (by omega)]; exact ⟨(fun ⟨_, e⟩ => nomatch e), fun e => absurd e h⟩

/-- with the sizes of an array `a[n₀][n₁][n₂]` set through `Max_C(3, ·)`, the element `a[i][j][k]` is the point
`(k, j, i)` of the zone: its position is that of C, last index fastest -/
theorem C62_place (z : Zone) (n₀ n₁ n₂ : Int) : ∃ z', (do Zone.setMax_C 3 0 n₀; Zone.setMax_C 3 1 n₁; Zone.setMax_C 3 2 n₂ : M Zone Unit) z = .ok () z' ∧
    ∀ i j k : Int, place (z'.sel 0) (z'.sel 1) (k, j, i) = (i * n₁ + j) * n₂ + k := by
  refine ⟨{ z with Max := ⟨n₂, n₁, n₀⟩ }, rfl, fun i j k => ?_⟩
  show k + n₂ * (j + n₁ * i) = _
  ring

/-- the same for `a[n₀][n₁]` and `Max_C(2, ·)` -/
theorem C62_place2 (z : Zone) (n₀ n₁ : Int) : ∃ z', (do Zone.setMax_C 2 0 n₀; Zone.setMax_C 2 1 n₁ : M Zone Unit) z = .ok () z' ∧
    ∀ i j : Int, place (z'.sel 0) (z'.sel 1) (j, i, 0) = i * n₁ + j := by
  refine ⟨{ z with Max := ⟨n₁, n₀, z.Max.z⟩ }, rfl, fun i j => ?_⟩
  show j + n₁ * (i + n₀ * 0) = _
  ring

/-- a dimension that does not exist: element -1 of the array is 4294967295 in `unsigned` -/
example : rowIndex 2 2 = .ub .oob ∧ rowIndex 4 0 = .ub .oob ∧ rowIndex 3 0 = .ok 2 ∧
    Zone.Max_C 2 1 (Zone.new (lit "z") 0) = .ok 1 := by decide +kernel

end Verif.Props
