import Verif.Proof.TecAux
/-!
# C43: auxiliary data
-/
namespace Verif.Props
open Tec

/-- C43 for files: after any history of additions every name has the value it had before or, if it was not
present, that of its first addition; each addition answered whether its name was new; nothing else changed. -/
theorem C43 (f : TecFile) (hf : f.Auxiliary.Ordered) (l : List (Str × Str)) :
    ∃ m : AuxMap, m.Ordered ∧
      addAll TecFile.add_auxiliary_data l f =
        .ok (newNames (fun n => (f.Auxiliary.find n).isSome) l) { f with Auxiliary := m } ∧
      ∀ n, m.find n = (f.Auxiliary.find n).or (firstValue l n) := by
  obtain ⟨h1, h2, h3⟩ := AuxMap.inserts_spec hf l
  exact ⟨_, h1, by rw [addAll_file, h3], h2⟩

/-- C43 for zones -/
theorem C43_zone (z : Zone) (hz : z.Auxiliary.Ordered) (l : List (Str × Str)) :
    ∃ m : AuxMap, m.Ordered ∧
      addAll Zone.add_auxiliary_data l z =
        .ok (newNames (fun n => (z.Auxiliary.find n).isSome) l) { z with Auxiliary := m } ∧
      ∀ n, m.find n = (z.Auxiliary.find n).or (firstValue l n) := by
  obtain ⟨h1, h2, h3⟩ := AuxMap.inserts_spec hz l
  exact ⟨_, h1, by rw [addAll_zone, h3], h2⟩

/-- new objects have an ordered map without elements, so C43 applies to every history of an object -/
theorem C43_new (name path title : Str) (junk : Int) :
    (TecFile.new name path title).Auxiliary = [] ∧ (Zone.new name junk).Auxiliary = [] ∧ AuxMap.Ordered [] :=
  ⟨rfl, rfl, List.Pairwise.nil⟩

/-- a single addition, as the property says it -/
theorem C43_single (f : TecFile) (hf : f.Auxiliary.Ordered) (n v : Str) :
    ∃ m : AuxMap, TecFile.add_auxiliary_data n v f = .ok (f.Auxiliary.find n).isNone { f with Auxiliary := m } ∧
      (f.Auxiliary.find n = none → m.find n = some v) ∧
      (∀ w, f.Auxiliary.find n = some w → m.find n = some w) ∧
      ∀ k, k ≠ n → m.find k = f.Auxiliary.find k := by
  refine ⟨(f.Auxiliary.insert n v).1, ?_, ?_, ?_, ?_⟩
  · rw [← AuxMap.insert_answer hf n v]; rfl
  · intro h; rw [AuxMap.insert_find hf, if_pos rfl, h]; rfl
  · intro w h; rw [AuxMap.insert_find hf, if_pos rfl, h]; rfl
  · intro k hk; rw [AuxMap.insert_find hf, if_neg hk]

/-- what is stored is what `get_auxiliary_data` converts; an absent name is an error -/
theorem C43_get {T : Type} (parse : Str → T → T) (f : TecFile) (z : Zone) (n : Str) (data : T) :
    (f.get_auxiliary_data parse n data = match f.Auxiliary.find n with
      | some v => .ok (parse v data)
      | none => .err (.text (lit "can not find data [" ++ n ++ lit "] in auxiliary data of file [" ++ f.FileName ++ lit "]"))) ∧
    (z.get_auxiliary_data parse n data = match z.Auxiliary.find n with
      | some v => .ok (parse v data)
      | none => .err (.text (lit "can not find data [" ++ n ++ lit "] in auxiliary data of zone [" ++ z.ZoneName ++ lit "]"))) := by
  unfold TecFile.get_auxiliary_data Zone.get_auxiliary_data
  constructor
  · cases f.Auxiliary.find n <;> rfl
  · cases z.Auxiliary.find n <;> rfl

/-- The variants for `double` values do the same with the text of the number if it has less than 200
characters, and overrun their buffer otherwise. -/
theorem C43_double (F : Fmt) (f : TecFile) (z : Zone) (n : Str) (x : F64) :
    (TecFile.add_auxiliary_double F n x f = if (F.lf x).length < 200 then TecFile.add_auxiliary_data n (F.lf x) f else .ub .oob) ∧
    (Zone.add_auxiliary_double F n x z = if (F.lf x).length < 200 then Zone.add_auxiliary_data n (F.lf x) z else .ub .oob) := by
  unfold TecFile.add_auxiliary_double Zone.add_auxiliary_double sprintf
  by_cases h : (F.lf x).length < 200
  · rw [if_pos h, if_pos h, if_pos (by omega)]
    exact ⟨rfl, rfl⟩
  · rw [if_neg h, if_neg h, if_neg (by omega)]
    exact ⟨rfl, rfl⟩

/-- three additions of which the last repeats the first name -/
example : addAll Zone.add_auxiliary_data [(lit "b", lit "1"), (lit "a", lit "2"), (lit "b", lit "3")]
      (Zone.new (lit "z") 0) =
    .ok [true, true, false] { Zone.new (lit "z") 0 with Auxiliary := [(lit "a", lit "2"), (lit "b", lit "1")] } := by
  rfl

end Verif.Props
