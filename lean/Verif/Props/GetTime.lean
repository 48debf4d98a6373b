import Verif.Proof.GetTime
/-!
# C97: time stamps
-/
namespace Verif.Props
open Spec Tec Sp

/-- the moment that a `struct tm` is -/
def momentOf (t : Tm) : Moment := ⟨(t.tm_year + 1900).toNat, t.tm_mon + 1, t.tm_mday, t.tm_hour, t.tm_min, t.tm_sec⟩

/-- C97: for a local time in the years 1000 to 9999, `get_time()` returns the stamp of the moment: fifteen characters -/
theorem C97 (other : UInt8 → Tm → Option Str) {t : Tm} (h : (momentOf t).Proper) :
    get_time other defaultFormat t = .ok (momentOf t).stamp ∧ (momentOf t).stamp.length = 15 := by
  refine ⟨?_, rfl⟩
  obtain ⟨h1, h2, h3, h4, h5, h6⟩ := h
  simp only [momentOf] at h1 h2 h3 h4 h5 h6
  have hy : dec (t.tm_year + 1900) = [digitAt (t.tm_year + 1900).toNat 1000, digitAt (t.tm_year + 1900).toNat 100,
      digitAt (t.tm_year + 1900).toNat 10, digitAt (t.tm_year + 1900).toNat 1] := by
    unfold dec
    rw [if_neg (by omega), show (t.tm_year + 1900).natAbs = (t.tm_year + 1900).toNat by omega, year_eq h1.1 h1.2]
  have hx : expand other t (cstr defaultFormat) = some (momentOf t).stamp := by
    rw [show cstr defaultFormat = [37, 89, 37, 109, 37, 100, 84, 37, 72, 37, 77, 37, 83] from by decide]
    have c1 : conv other 89 t = some (dec (t.tm_year + 1900)) := rfl
    have c2 : conv other 109 t = some (two (t.tm_mon + 1)) := rfl
    have c3 : conv other 100 t = some (two t.tm_mday) := rfl
    have c4 : conv other 72 t = some (two t.tm_hour) := rfl
    have c5 : conv other 77 t = some (two t.tm_min) := rfl
    have c6 : conv other 83 t = some (two t.tm_sec) := rfl
    rw [hy] at c1
    rw [two_eq (by omega)] at c2 c3 c4 c5 c6
    have c7 : expand other t [84, 37, 72, 37, 77, 37, 83] = (do let b ← expand other t [37, 72, 37, 77, 37, 83]; pure (84 :: b)) :=
      expand_char other t _ (by decide)
    simp only [expand, c1, c2, c3, c7, c4, c5, c6]
    rfl
  have hc : cstr (momentOf t).stamp = (momentOf t).stamp := by
    unfold cstr
    have hd : ∀ n w, digitAt n w ≠ 0 := fun n w h => by
      have := digitAt_toNat n w
      rw [h] at this
      have : (0 : UInt8).toNat = 0 := rfl
      omega
    simp [Moment.stamp, hd]
  unfold get_time
  rw [hx]
  simp only
  rw [if_pos (by show 15 + 1 ≤ 100; decide), hc]

/-- a moment -/
example : (momentOf ⟨9, 5, 13, 7, 0, 119, 0⟩).Proper ∧ (momentOf ⟨9, 5, 13, 7, 0, 119, 0⟩).stamp = lit "20190107T130509" := by
  refine ⟨⟨by decide, by decide, by decide, by decide, by decide, by decide⟩, by decide⟩

/-- C97: the stamp tells the moment, and stamps are ordered (as `std::string`s: by the first byte that differs) as the moments are -/
theorem C97_order {a b : Tm} (ha : (momentOf a).Proper) (hb : (momentOf b).Proper) (other : UInt8 → Tm → Option Str) {s t : Str}
    (hs : get_time other defaultFormat a = .ok s) (ht : get_time other defaultFormat b = .ok t) :
    (s < t ↔ (momentOf a).before (momentOf b)) ∧ (s = t ↔ momentOf a = momentOf b) := by
  rw [(C97 other ha).1] at hs
  rw [(C97 other hb).1] at ht
  cases hs; cases ht
  exact ⟨stamp_lt ha hb, fun h => stamp_inj ha hb h, fun h => by rw [h]⟩

example : (momentOf ⟨59, 59, 23, 31, 11, 119, 0⟩).before (momentOf ⟨0, 0, 0, 1, 0, 120, 0⟩) ∧
    lit "20191231T235959" < lit "20200101T000000" := by
  unfold Moment.before
  decide

/-- C97, other formats: if the text of the time has at most 99 characters, it is returned (up to a NUL); otherwise, and if the
format has something that is no conversion, the call is undefined: `strftime` says so, but nobody asks. -/
theorem C97_format (other : UInt8 → Tm → Option Str) (f : Str) (t : Tm) :
    (∀ s, expand other t (cstr f) = some s → s.length ≤ 99 → get_time other f t = .ok (cstr s)) ∧
    (∀ s, expand other t (cstr f) = some s → 99 < s.length → ∃ u, get_time other f t = .ub u) ∧
    (expand other t (cstr f) = none → ∃ u, get_time other f t = .ub u) := by
  unfold get_time
  refine ⟨fun s h hl => ?_, fun s h hl => ?_, fun h => ?_⟩
  · rw [h]; exact if_pos (by omega)
  · rw [h]; exact ⟨.uninit, if_neg (by omega)⟩
  · rw [h]; exact ⟨_, rfl⟩

/-- a text without `%`, which is copied -/
theorem expand_plain (other : UInt8 → Tm → Option Str) (t : Tm) {f : Str} (h : (37 : UInt8) ∉ f) : expand other t f = some f := by
  induction f with
  | nil => rfl
  | cons c f ih =>
    have hc : c ≠ 37 := fun e => h (by simp [e])
    rw [expand_char other t f hc, ih (fun hm => h (by simp [hm]))]; rfl

/-- an ordinary format and two that are undefined: 100 characters, a single percent sign -/
theorem C97_limits (t : Tm) :
    get_time (fun _ _ => none) (lit "at 100%%") t = .ok (lit "at 100%") ∧
    (∃ u, get_time (fun _ _ => none) (List.replicate 100 120) t = .ub u) ∧ (∃ u, get_time (fun _ _ => none) (lit "100%") t = .ub u) := by
  refine ⟨?_, ?_, ?_⟩
  · rfl
  · refine (C97_format _ _ t).2.1 (List.replicate 100 120) ?_ (by decide)
    rw [show cstr (List.replicate 100 120) = List.replicate 100 120 from by decide +kernel]
    exact expand_plain _ _ (by decide)
  · exact (C97_format _ _ t).2.2 rfl

end Verif.Props
