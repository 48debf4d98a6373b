import Verif.Spec.TecAux
import Verif.Model.Tec.File
/-!
# `std::map::insert` and `find`
-/
namespace Verif.Tec

theorem strLt_irrefl (a : Str) : strLt a a = false := by
  induction a with
  | nil => rfl
  | cons x a ih => simp [strLt, ih]

theorem strLt_trans {a b c : Str} (h1 : strLt a b = true) (h2 : strLt b c = true) : strLt a c = true := by
  induction a generalizing b c with
  | nil =>
    cases b with
    | nil => exact h2
    | cons y b => cases c with
      | nil => simp [strLt] at h2
      | cons z c => rfl
  | cons x a ih =>
    cases b with
    | nil => simp [strLt] at h1
    | cons y b =>
      cases c with
      | nil => simp [strLt] at h2
      | cons z c =>
        simp only [strLt] at h1 h2 ⊢
        split at h1
        · split at h2
          · rw [if_pos (by omega)]
          · split at h2
            · simp at h2
            · rw [if_pos (by omega)]
        · split at h1
          · simp at h1
          · split at h2
            · rw [if_pos (by omega)]
            · split at h2
              · simp at h2
              · rw [if_neg (by omega), if_neg (by omega)]; exact ih h1 h2

theorem strLt_eq {a b : Str} (h1 : strLt a b = false) (h2 : strLt b a = false) : a = b := by
  induction a generalizing b with
  | nil => cases b with
    | nil => rfl
    | cons y b => simp [strLt] at h1
  | cons x a ih =>
    cases b with
    | nil => simp [strLt] at h2
    | cons y b =>
      by_cases c1 : x.toNat < y.toNat
      · simp [strLt, c1] at h1
      · by_cases c2 : y.toNat < x.toNat
        · simp [strLt, c2] at h2
        · simp only [strLt, if_neg c1, if_neg c2] at h1 h2
          rw [ih h1 h2, UInt8.toNat_inj.mp (by omega : x.toNat = y.toNat)]

theorem strLt_ne {a b : Str} (h : strLt a b = true) : a ≠ b := by
  rintro rfl; rw [strLt_irrefl] at h; simp at h

namespace AuxMap

theorem find_nil (n : Str) : AuxMap.find [] n = none := rfl
theorem find_cons (e : Str × Str) (m : AuxMap) (n : Str) :
    AuxMap.find (e :: m) n = if e.1 = n then some e.2 else AuxMap.find m n := by
  unfold AuxMap.find
  rw [List.find?_cons]
  by_cases h : e.1 = n
  · simp [h]
  · rw [if_neg h, beq_false_of_ne h]

theorem find_none_of_lt {m : AuxMap} {k : Str} (h : ∀ e ∈ m, strLt k e.1 = true) : m.find k = none := by
  induction m with
  | nil => rfl
  | cons e m ih =>
    rw [find_cons, if_neg (fun he => strLt_ne (h e (by simp)) he.symm)]
    exact ih fun e' he' => h e' (by simp [he'])

theorem mem_insert {m : AuxMap} {k v : Str} {e : Str × Str} (h : e ∈ (m.insert k v).1) : e = (k, v) ∨ e ∈ m := by
  induction m with
  | nil => simpa [AuxMap.insert] using h
  | cons e' m ih =>
    simp only [AuxMap.insert] at h
    split at h
    · simpa using h
    · split at h
      · simp only [List.mem_cons] at h ⊢
        rcases h with h | h
        · exact .inr (.inl h)
        · rcases ih h with h | h
          · exact .inl h
          · exact .inr (.inr h)
      · exact .inr h

theorem insert_ordered {m : AuxMap} (h : m.Ordered) (k v : Str) : (m.insert k v).1.Ordered := by
  unfold Ordered at *
  induction m with
  | nil => simp [AuxMap.insert]
  | cons e m ih =>
    obtain ⟨h1, h2⟩ := List.pairwise_cons.mp h
    simp only [AuxMap.insert]
    split
    · rename_i hk
      refine List.pairwise_cons.mpr ⟨?_, h⟩
      intro e' he'
      rcases List.mem_cons.mp he' with rfl | he'
      · exact hk
      · exact strLt_trans hk (h1 e' he')
    · split
      · rename_i hk
        refine List.pairwise_cons.mpr ⟨?_, ih h2⟩
        intro e' he'
        rcases mem_insert he' with rfl | he'
        · exact hk
        · exact h1 e' he'
      · exact h

theorem insert_find {m : AuxMap} (h : m.Ordered) (k v n : Str) :
    (m.insert k v).1.find n = if n = k then some ((m.find k).getD v) else m.find n := by
  unfold Ordered at h
  induction m with
  | nil => simp [AuxMap.insert, find_cons, find_nil, eq_comm]
  | cons e m ih =>
    obtain ⟨h1, h2⟩ := List.pairwise_cons.mp h
    simp only [AuxMap.insert]
    split
    · rename_i hk
      rw [find_cons]
      have : AuxMap.find (e :: m) k = none := by
        refine find_none_of_lt fun e' he' => ?_
        rcases List.mem_cons.mp he' with rfl | he'
        · exact hk
        · exact strLt_trans hk (h1 e' he')
      by_cases hn : n = k
      · subst hn; simp [this]
      · rw [if_neg (fun hh => hn hh.symm), if_neg hn]
    · split
      · rename_i hk
        show AuxMap.find (e :: (AuxMap.insert m k v).1) n = _
        rw [find_cons, ih h2, find_cons, find_cons, if_neg (strLt_ne hk)]
        by_cases hn : n = k
        · subst hn; rw [if_neg (strLt_ne hk), if_pos rfl, if_pos rfl]
        · rw [if_neg hn, if_neg hn]
      · rename_i hk1 hk2
        have he : e.1 = k := strLt_eq (by simpa using hk2) (by simpa using hk1)
        by_cases hn : n = k
        · subst hn
          rw [if_pos rfl, find_cons, if_pos he]; rfl
        · rw [if_neg hn]

theorem insert_answer {m : AuxMap} (h : m.Ordered) (k v : Str) : (m.insert k v).2 = (m.find k).isNone := by
  unfold Ordered at h
  induction m with
  | nil => rfl
  | cons e m ih =>
    obtain ⟨h1, h2⟩ := List.pairwise_cons.mp h
    simp only [AuxMap.insert]
    split
    · rename_i hk
      rw [find_none_of_lt fun e' he' => ?_]
      · rfl
      · rcases List.mem_cons.mp he' with rfl | he'
        · exact hk
        · exact strLt_trans hk (h1 e' he')
    · split
      · rename_i hk
        rw [find_cons, if_neg (strLt_ne hk)]
        exact ih h2
      · rename_i hk1 hk2
        have he : e.1 = k := strLt_eq (by simpa using hk2) (by simpa using hk1)
        rw [find_cons, if_pos he]; rfl

/-- a history of insertions -/
def inserts (m : AuxMap) : List (Str × Str) → AuxMap × List Bool
  | [] => (m, [])
  | e :: l =>
    let r := m.insert e.1 e.2
    let t := inserts r.1 l
    (t.1, r.2 :: t.2)

theorem newNames_congr {p q : Str → Prop} [DecidablePred p] [DecidablePred q] (h : ∀ n, p n ↔ q n) (l : List (Str × Str)) :
    newNames p l = newNames q l := by
  induction l generalizing p q with
  | nil => rfl
  | cons e l ih =>
    rw [newNames, newNames, ih fun n => or_congr (h n) Iff.rfl]
    simp [h e.1]

theorem inserts_spec {m : AuxMap} (h : m.Ordered) (l : List (Str × Str)) :
    (m.inserts l).1.Ordered ∧ (∀ n, (m.inserts l).1.find n = (m.find n).or (firstValue l n)) ∧
      (m.inserts l).2 = newNames (fun n => (m.find n).isSome) l := by
  induction l generalizing m with
  | nil => exact ⟨h, fun n => by simp [inserts, firstValue], rfl⟩
  | cons e l ih =>
    obtain ⟨h1, h2, h3⟩ := ih (insert_ordered h e.1 e.2)
    refine ⟨h1, fun n => ?_, ?_⟩
    · show ((m.insert e.1 e.2).1.inserts l).1.find n = _
      rw [h2 n, insert_find h, firstValue]
      by_cases hn : n = e.1
      · subst hn
        rw [if_pos rfl, if_pos rfl]
        cases m.find e.1 <;> rfl
      · rw [if_neg hn, if_neg (fun hh => hn hh.symm)]
    · show (m.insert e.1 e.2).2 :: ((m.insert e.1 e.2).1.inserts l).2 = _
      rw [h3, newNames, insert_answer h]
      congr 1
      · cases m.find e.1 <;> rfl
      · apply newNames_congr
        intro n
        rw [insert_find h]
        by_cases hn : n = e.1
        · subst hn; simp
        · rw [if_neg hn]; simp [hn]

end AuxMap

theorem addAll_file (f : TecFile) (l : List (Str × Str)) :
    addAll TecFile.add_auxiliary_data l f = .ok (f.Auxiliary.inserts l).2 { f with Auxiliary := (f.Auxiliary.inserts l).1 } := by
  induction l generalizing f with
  | nil => rfl
  | cons e l ih =>
    rw [addAll, M.bind_ok (show TecFile.add_auxiliary_data e.1 e.2 f = .ok (f.Auxiliary.insert e.1 e.2).2
      { f with Auxiliary := (f.Auxiliary.insert e.1 e.2).1 } from rfl), M.bind_ok (ih _)]
    rfl

theorem addAll_zone (z : Zone) (l : List (Str × Str)) :
    addAll Zone.add_auxiliary_data l z = .ok (z.Auxiliary.inserts l).2 { z with Auxiliary := (z.Auxiliary.inserts l).1 } := by
  induction l generalizing z with
  | nil => rfl
  | cons e l ih =>
    rw [addAll, M.bind_ok (show Zone.add_auxiliary_data e.1 e.2 z = .ok (z.Auxiliary.insert e.1 e.2).2
      { z with Auxiliary := (z.Auxiliary.insert e.1 e.2).1 } from rfl), M.bind_ok (ih _)]
    rfl

end Verif.Tec
