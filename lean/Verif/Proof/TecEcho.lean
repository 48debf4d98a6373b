import Verif.Spec.TecEcho
import Verif.Model.Tec.File
/-!
# `std::bitset` from texts, echo modes
-/
namespace Verif.Tec

theorem allBits (s : Str) : s.all (fun c => c == 48 || c == 49) = true ↔ IsBits s := by
  unfold IsBits
  simp [List.all_eq_true]

theorem bitset_ok {strict : Bool} {n : Nat} {s : Str} (h : IsBits (if strict then s else s.take n)) :
    bitset strict n s = some ((List.range n).map (bitOf n s)) := by
  unfold bitset
  simp only []
  rw [if_pos ((allBits _).mpr h)]
  congr 1
  apply List.ext_getElem
  · simp
  · intro k h1 h2
    simp only [List.length_map, List.length_range] at h2
    rw [List.getElem_append]
    simp only [List.getElem_map, List.getElem_range, bitOf, List.length_map, List.length_reverse]
    split
    · rename_i hk
      rw [List.getElem?_eq_getElem (by simpa using hk)]
      simp
    · rename_i hk
      rw [List.getElem_replicate, List.getElem?_eq_none (by simpa using Nat.le_of_not_lt hk)]
      rfl

theorem bitset_bad {strict : Bool} {n : Nat} {s : Str} (h : ¬ IsBits (if strict then s else s.take n)) :
    bitset strict n s = none := by
  unfold bitset
  simp only []
  rw [if_neg fun hh => h ((allBits _).mp hh)]

theorem file_unnamed {e : Str} (h : e ∉ fileNamed.map (·.1)) : fileEchoCode e = e ∧ fileNamed.find? (fun m => m.1 == e) = none := by
  constructor
  · unfold fileEchoCode
    simp only [fileNamed, List.map_cons, List.map_nil, List.mem_cons, not_or] at h
    rw [if_neg h.1, if_neg h.2.1, if_neg h.2.2.1, if_neg h.2.2.2.1]
  · rw [List.find?_eq_none]
    intro m hm hh
    exact h (List.mem_map.mpr ⟨m, hm, by simpa using hh⟩)

theorem zone_unnamed {e : Str} (h : e ∉ zoneNamed.map (·.1)) : zoneEchoCode e = e ∧ zoneNamed.find? (fun m => m.1 == e) = none := by
  constructor
  · unfold zoneEchoCode
    simp only [zoneNamed, List.map_cons, List.map_nil, List.mem_cons, not_or] at h
    rw [if_neg h.1, if_neg h.2.1, if_neg h.2.2.1, if_neg h.2.2.2.1]
  · rw [List.find?_eq_none]
    intro m hm hh
    exact h (List.mem_map.mpr ⟨m, hm, by simpa using hh⟩)

theorem file_bits {strict : Bool} {e : Str} (h : Accepted strict fileNamed 7 e) :
    bitset strict 7 (fileEchoCode e) = some (maskOf fileNamed 7 e) := by
  by_cases hn : e ∈ fileNamed.map (·.1)
  · simp only [fileNamed, List.map_cons, List.map_nil, List.mem_cons, List.not_mem_nil, or_false] at hn
    rcases hn with rfl | rfl | rfl | rfl <;> cases strict <;> decide
  · obtain ⟨h1, h2⟩ := file_unnamed hn
    rw [h1, bitset_ok (h.resolve_left hn)]
    unfold maskOf
    rw [h2]

theorem file_bad {strict : Bool} {e : Str} (h : ¬ Accepted strict fileNamed 7 e) : bitset strict 7 (fileEchoCode e) = none := by
  obtain ⟨h1, h2⟩ := file_unnamed fun hn => h (.inl hn)
  rw [h1]
  exact bitset_bad fun hh => h (.inr hh)

theorem zone_bits {strict : Bool} {e : Str} (h : Accepted strict zoneNamed 9 e) :
    bitset strict 9 (zoneEchoCode e) = some (maskOf zoneNamed 9 e) := by
  by_cases hn : e ∈ zoneNamed.map (·.1)
  · simp only [zoneNamed, List.map_cons, List.map_nil, List.mem_cons, List.not_mem_nil, or_false] at hn
    rcases hn with rfl | rfl | rfl | rfl <;> cases strict <;> decide
  · obtain ⟨h1, h2⟩ := zone_unnamed hn
    rw [h1, bitset_ok (h.resolve_left hn)]
    unfold maskOf
    rw [h2]

theorem zone_bad {strict : Bool} {e : Str} (h : ¬ Accepted strict zoneNamed 9 e) : bitset strict 9 (zoneEchoCode e) = none := by
  obtain ⟨h1, h2⟩ := zone_unnamed fun hn => h (.inl hn)
  rw [h1]
  exact bitset_bad fun hh => h (.inr hh)

/-- the loop over the zones -/
theorem zones_loop (strict : Bool) {e : Str} (h : Accepted strict zoneNamed 9 e) (f : TecFile) (pre post : List Zone)
    (hz : f.Zones = pre ++ post) :
    eachIdx (fun i _ => TecFile.onZone i (Zone.echo_mode strict e)) pre.length post f =
      .ok () { f with Zones := pre ++ post.map fun z => { z with Echo_Mode := maskOf zoneNamed 9 e } } := by
  induction post generalizing f pre with
  | nil =>
    show Res.ok () f = _
    rw [List.map_nil, ← hz]
  | cons z post ih =>
    have h1 : TecFile.onZone pre.length (Zone.echo_mode strict e) f =
        .ok () { f with Zones := (pre ++ [{ z with Echo_Mode := maskOf zoneNamed 9 e }]) ++ post } := by
      unfold TecFile.onZone Zone.echo_mode
      rw [hz, zone_bits h]
      simp
    rw [eachIdx, M.bind_ok h1]
    have := ih { f with Zones := (pre ++ [{ z with Echo_Mode := maskOf zoneNamed 9 e }]) ++ post }
      (pre ++ [{ z with Echo_Mode := maskOf zoneNamed 9 e }]) rfl
    rw [List.length_append] at this
    rw [show pre.length + 1 = pre.length + [({ z with Echo_Mode := maskOf zoneNamed 9 e } : Zone)].length from rfl, this]
    simp

end Verif.Tec
