import Verif.Spec.XmlBack
import Verif.Proof.Xml4
import Verif.Proof.TecAux
import Mathlib.Data.Nat.Digits.Defs
/-!
# Reading the tree of a log
-/
namespace Verif.Xml
open Tec Spec

/-! ## Numbers -/

theorem digit_isDigit {b : UInt8} (h : 48 ≤ b ∧ b ≤ 57) : isDigit b = true := by
  unfold isDigit
  simp only [Bool.and_eq_true, decide_eq_true_eq]
  simp only [UInt8.le_iff_toNat_le] at h
  exact h

theorem digitsVal_dec (n : Nat) : digitsVal (decNat n) = n := by
  unfold digitsVal decNat
  split
  · rename_i h; subst h; rfl
  · rw [List.foldl_map, List.foldl_reverse]
    have key : ∀ l : List Nat, (∀ d ∈ l, d < 10) → l.foldr (fun x y => 10 * y + ((UInt8.ofNat (48 + x)).toNat - 48)) 0 = Nat.ofDigits 10 l := by
      intro l
      induction l with
      | nil => intro _; rfl
      | cons a l ih =>
        intro h
        have ha : a < 10 := h a (by simp)
        rw [List.foldr_cons, ih fun d hd => h d (by simp [hd]), Nat.ofDigits_cons, UInt8.toNat_ofNat']
        omega
    rw [key _ fun d hd => Nat.digits_lt_base (by decide) hd, Nat.ofDigits_digits]

theorem signed_dec (x : Int) : ∃ b, signedDigits (dec x) = some (b, x.natAbs) ∧ sgn (b, x.natAbs) = x ∧ (0 ≤ x → b = false) := by
  obtain ⟨h1, h2⟩ := decNat_bytes x.natAbs
  have ht : (decNat x.natAbs).takeWhile isDigit = decNat x.natAbs := by
    have := takeWhile_all (p := isDigit) (w := decNat x.natAbs) (fun b hb => digit_isDigit (h2 b hb)) []
    rw [List.append_nil, List.takeWhile_nil, List.append_nil] at this
    exact this
  by_cases hx : x < 0
  · refine ⟨true, ?_, by show -(x.natAbs : Int) = x; omega, fun h => absurd hx (by omega)⟩
    unfold signedDigits dec
    rw [if_pos hx]
    rw [skipSpace_cons (by decide)]
    show (if (decNat x.natAbs).takeWhile isDigit = [] then none else some (true, digitsVal ((decNat x.natAbs).takeWhile isDigit))) = _
    rw [ht, if_neg h1, digitsVal_dec]
  · refine ⟨false, ?_, by show (x.natAbs : Int) = x; omega, fun _ => rfl⟩
    unfold signedDigits dec
    rw [if_neg hx]
    obtain ⟨c, q, e⟩ := List.exists_cons_of_ne_nil h1
    have hc : 48 ≤ c ∧ c ≤ 57 := h2 c (by rw [e]; simp)
    have hs : isSpace c = false := by
      rw [← Bool.not_eq_true, isSpace_iff]
      rintro (rfl | hh)
      · exact absurd hc.1 (by decide)
      · have h1 := hc.1
        have h2 := hh.2
        rw [UInt8.le_iff_toNat_le] at h1 h2
        exact absurd (Nat.le_trans h1 h2) (by decide)
    have h45 : c ≠ 45 := by rintro rfl; exact absurd hc.1 (by decide)
    have h43 : c ≠ 43 := by rintro rfl; exact absurd hc.1 (by decide)
    have hp : sign (c :: q) = (false, c :: q) := by
      unfold sign
      split
      · rename_i heq; exact absurd (List.cons.inj heq).1 h45
      · rename_i heq; exact absurd (List.cons.inj heq).1 h43
      · rfl
    have hk : skipSpace (decNat x.natAbs) = c :: q := by rw [e, skipSpace_cons hs]
    simp only
    rw [hk, hp]
    simp only
    rw [← e, ht, if_neg h1, digitsVal_dec]

theorem scanInt_dec {x : Int} (h : InI32 x) : scanInt (dec x) = .ok (some x) := by
  obtain ⟨b, h1, h2, -⟩ := signed_dec x
  unfold scanInt
  rw [h1]
  simp only
  rw [h2, if_pos h]

theorem scanUnsigned_dec {n : Nat} (h : n < 4294967296) : scanUnsigned (dec (n : Int)) = .ok (some n) := by
  obtain ⟨b, h1, -, h3⟩ := signed_dec n
  unfold scanUnsigned
  rw [h1]
  simp only [Int.natAbs_natCast]
  rw [if_pos h, h3 (by omega)]; rfl

theorem strtol_dec {x : Int} (h : -9223372036854775808 ≤ x ∧ x ≤ 9223372036854775807) : strtol (dec x) = x := by
  obtain ⟨b, h1, h2, -⟩ := signed_dec x
  unfold strtol
  rw [h1]
  simp only
  rw [h2]
  omega

/-! ## Fields -/

theorem getText_field (n v : Str) : (field n v).getText = if Visible v then some v else none := by
  unfold field content
  by_cases h : Visible v
  · rw [if_pos h, if_pos h]; rfl
  · rw [if_neg h, if_neg h]; rfl

theorem visible_dec (x : Int) : Visible (dec x) := (printed_plain (dec_printed x)).2.2

theorem queryInt_field {n : Str} {x : Int} (h : InI32 x) (o : Option Int) : (field n (dec x)).queryInt o = .ok (some x) := by
  unfold Node.queryInt
  rw [getText_field, if_pos (visible_dec x)]
  simp only
  rw [scanInt_dec h]
  rfl

theorem queryDouble_field {n v : Str} (h : Printed v) {rd : Str → Option F64} {x : F64} (hx : rd v = some x) (o : Option F64) :
    (field n v).queryDouble rd o = some x := by
  unfold Node.queryDouble
  rw [getText_field, if_pos (printed_plain h).2.2]
  simp only
  rw [hx]; rfl

theorem read_triple {n : String} {a : I3} (h : a.Fit) : read3List (triple n a).elems 0 {} = .ok ⟨some a.x, some a.y, some a.z⟩ := by
  show read3List [field (lit "I") (dec a.x), field (lit "J") (dec a.y), field (lit "K") (dec a.z)] 0 {} = _
  unfold read3List
  rw [if_pos (by decide), queryInt_field h.1]
  show read3List _ 1 _ = _
  unfold read3List
  rw [if_pos (by decide), queryInt_field h.2.1]
  show read3List _ 2 _ = _
  unfold read3List
  rw [if_pos (by decide), queryInt_field h.2.2]
  rfl

/-! ## Auxiliary data -/

theorem assign_last {m : AuxMap} {k : Str} (v : Str) (h : ∀ e ∈ m, strLt e.1 k = true) : m.assign k v = m ++ [(k, v)] := by
  induction m with
  | nil => rfl
  | cons e m ih =>
    have he := h e (by simp)
    unfold AuxMap.assign
    rw [if_neg (by
      intro hh
      have := strLt_trans he hh
      rw [strLt_irrefl] at this; cases this), if_pos he, ih fun x hx => h x (by simp [hx])]
    rfl

instance (m : AuxMap) : Decidable (AuxSeen m) := by unfold AuxSeen; infer_instance

theorem readAux_list {m : AuxMap} : ∀ {pre : AuxMap}, (pre ++ m).Ordered →
    readAuxList (m.map fun e => field e.1 e.2) pre = if AuxSeen m then .ok (pre ++ m) else .ub .null := by
  induction m with
  | nil =>
    intro pre _
    rw [if_pos (by intro e he; cases he), List.append_nil]; rfl
  | cons e m ih =>
    intro pre h
    rw [List.map_cons, readAuxList, getText_field]
    by_cases hv : Visible e.2
    · have ho : (pre ++ [e] ++ m).Ordered := by rw [List.append_assoc]; exact h
      rw [if_pos hv]
      show readAuxList _ (AuxMap.assign pre e.1 e.2) = _
      rw [assign_last e.2 (fun x hx => (List.pairwise_append.1 h).2.2 x hx e (by simp))]
      rw [show (e.1, e.2) = e from rfl, ih ho]
      have : AuxSeen (e :: m) ↔ AuxSeen m := ⟨fun hh x hx => hh x (by simp [hx]), fun hh x hx => by
        rcases List.mem_cons.1 hx with rfl | hx
        · exact hv
        · exact hh x hx⟩
      by_cases hs : AuxSeen m
      · rw [if_pos hs, if_pos (this.2 hs), List.append_assoc]; rfl
      · rw [if_neg hs, if_neg fun c => hs (this.1 c)]
    · rw [if_neg hv, if_neg fun c => hv (c e (by simp))]
      rfl

end Verif.Xml
