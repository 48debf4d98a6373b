import Verif.Proof.Xml9
import Verif.Spec.XmlForeign
/-!
# The parts of `read_xml` and what they find
-/
namespace Verif.Xml
open Tec Spec

theorem bind_iff {α β : Type} {m : Out α} {f : α → Out β} {b : β} : (m >>= f) = .ok b ↔ ∃ a, m = .ok a ∧ f a = .ok b :=
  ⟨Out.bind_inv, fun ⟨a, h1, h2⟩ => by rw [h1]; exact h2⟩

theorem pure_iff {α : Type} {a b : α} : (Out.ok a : Out α) = .ok b ↔ a = b := ⟨fun h => by cases h; rfl, fun h => by rw [h]⟩

theorem known_iff {α : Type} {o : Option α} {a : α} : known o = .ok a ↔ o = some a := by
  cases o with
  | none => exact ⟨fun h => (by cases h), fun h => (by cases h)⟩
  | some b => exact ⟨fun h => by cases h; rfl, fun h => by cases h; rfl⟩

theorem toStr_iff {o : Option Str} {a : Str} : toStr o = .ok a ↔ o = some a := by
  cases o with
  | none => exact ⟨fun h => (by cases h), fun h => (by cases h)⟩
  | some b => exact ⟨fun h => by cases h; rfl, fun h => by cases h; rfl⟩

theorem elem_of_named {n : Str} {x : Node} (h : x.named n = true) : ∃ as cs, x = .elem n as cs := by
  unfold Node.named at h
  rw [Bool.and_eq_true, beq_iff_eq] at h
  cases x with
  | elem m as cs => obtain ⟨-, rfl⟩ := h; exact ⟨as, cs, rfl⟩
  | text => cases h.1
  | comment => cases h.1
  | decl => cases h.1
  | unknown => cases h.1

theorem first_iff {x y : Node} {n : Str} : firstNamed n x.children = some y ↔ Kid x n y := by
  unfold firstNamed
  rw [List.find?_eq_some_iff_append]
  constructor
  · rintro ⟨h1, l1, l2, h2, h3⟩
    obtain ⟨as', cs', rfl⟩ := elem_of_named h1
    cases x with
    | elem m as cs =>
      refine ⟨m, as, l1, l2, as', cs', congrArg _ h2, rfl, ?_⟩
      rintro z hz as cs rfl
      have := h3 _ hz
      simp [Node.named, Node.isElem, Node.name] at this
    | text => cases l1 <;> cases h2
    | comment => cases l1 <;> cases h2
    | decl => cases l1 <;> cases h2
    | unknown => cases l1 <;> cases h2
  · rintro ⟨m, as, l1, l2, as', cs', rfl, rfl, h⟩
    refine ⟨by simp [Node.named, Node.isElem, Node.name], l1, l2, rfl, fun z hz => ?_⟩
    by_contra hc
    obtain ⟨a, c, e⟩ := elem_of_named (n := n) (x := z) (by simpa using hc)
    exact h z hz a c e

theorem child_iff {x y : Node} {n : String} : x.child n = .ok y ↔ Kid x (lit n) y := by
  rw [← first_iff]
  unfold Node.child
  cases firstNamed (lit n) x.children with
  | none => exact ⟨fun h => (by cases h), fun h => (by cases h)⟩
  | some z => exact ⟨fun h => by cases h; rfl, fun h => by cases h; rfl⟩

theorem elems_kids (x : Node) : x.elems = kids x := by
  cases x with
  | elem m as cs => exact congrArg (fun p => cs.filter p) (funext fun y => by cases y <;> rfl)
  | _ => rfl

theorem getText_iff {x : Node} {t : Str} : x.getText = some t ↔ ShowsText x t := by
  unfold Node.getText
  constructor
  · intro h
    cases x with
    | elem m as cs =>
      cases cs with
      | nil => cases h
      | cons y cs =>
        cases y with
        | text c v => cases h; exact ⟨m, as, c, cs, rfl⟩
        | _ => cases h
    | _ => cases h
  · rintro ⟨m, as, c, cs, rfl⟩
    rfl

theorem attr_iff {x : Node} {n : String} {v : Str} : x.attr n = some v ↔ AttrIs x (lit n) v := by
  unfold Node.attr
  rw [Option.map_eq_some_iff]
  constructor
  · rintro ⟨a, h, rfl⟩
    rw [List.find?_eq_some_iff_append] at h
    obtain ⟨h1, l1, l2, h2, h3⟩ := h
    have h1 : a.1 = lit n := by simpa using h1
    cases x with
    | elem m as cs =>
      refine ⟨m, l1, l2, cs, ?_, fun b hb => by simpa using h3 b hb⟩
      rw [← h1]
      exact congrArg (fun q => Node.elem m q cs) h2
    | text => cases l1 <;> cases h2
    | comment => cases l1 <;> cases h2
    | decl => cases l1 <;> cases h2
    | unknown => cases l1 <;> cases h2
  · rintro ⟨m, l1, l2, cs, rfl, h⟩
    refine ⟨(lit n, v), ?_, rfl⟩
    rw [List.find?_eq_some_iff_append]
    exact ⟨by simp, l1, l2, rfl, fun b hb => by simpa using h b hb⟩

/-! ## Numbers -/

theorem isDigit_iff {b : UInt8} : isDigit b = true ↔ JDigit b := by
  unfold isDigit JDigit
  simp only [Bool.and_eq_true, decide_eq_true_eq, UInt8.le_iff_toNat_le]
  rfl

theorem mem_takeWhile_sat {p : UInt8 → Bool} {l : Str} {b : UInt8} (h : b ∈ l.takeWhile p) : p b = true := by
  induction l with
  | nil => cases h
  | cons c l ih =>
    rw [List.takeWhile_cons] at h
    split at h
    · rcases List.mem_cons.1 h with rfl | h
      · assumption
      · exact ih h
    · cases h

theorem span_unique {p : UInt8 → Bool} {a r : Str} (ha : ∀ b ∈ a, p b = true) (hr : ∀ b ∈ r.head?, p b = false) :
    (a ++ r).takeWhile p = a ∧ (a ++ r).dropWhile p = r := by
  induction a with
  | nil =>
    cases r with
    | nil => exact ⟨rfl, rfl⟩
    | cons b r =>
      have := hr b rfl
      simp [this]
  | cons c a ih =>
    have := ih fun b hb => ha b (by simp [hb])
    have hc := ha c (by simp)
    simp [hc, this.1, this.2]

theorem showsInt_iff {t : Str} {v : Int} : ShowsInt t v ↔ ∃ p, signedDigits t = some p ∧ sgn p = v := by
  constructor
  · rintro ⟨w, sg, ds, r, rfl, hw, hd, hr, hs⟩
    obtain ⟨c, q, rfl⟩ : ∃ c q, ds = c :: q := by
      cases ds with
      | nil => exact absurd rfl hd.1
      | cons c q => exact ⟨c, q, rfl⟩
    have hc : JDigit c := hd.2 c (by simp)
    have hsp : ∀ b, White b ↔ isSpace b = true := by
      intro b
      unfold White isSpace
      simp only [Bool.or_eq_true, Bool.and_eq_true, decide_eq_true_eq, beq_iff_eq, UInt8.le_iff_toNat_le]
      rfl
    have h1 : ∀ b ∈ (sg ++ (c :: q ++ r)).head?, isSpace b = false := by
      intro b hb
      have : b = c ∨ b = 43 ∨ b = 45 := by
        rcases hs with ⟨rfl | rfl, -⟩ | ⟨rfl, -⟩
        · cases hb; exact .inl rfl
        · cases hb; exact .inr (.inl rfl)
        · cases hb; exact .inr (.inr rfl)
      by_contra hcc
      have hw : White b := (hsp b).2 (by simpa using hcc)
      rcases this with rfl | rfl | rfl
      · unfold White at hw
        unfold JDigit at hc
        rcases hw with rfl | ⟨-, hw⟩
        · exact absurd hc.1 (by decide)
        · exact absurd (UInt8.le_trans hc.1 hw) (by decide)
      · exact absurd hw (by decide)
      · exact absurd hw (by decide)
    have e1 : skipSpace (w ++ (sg ++ (c :: q ++ r))) = sg ++ (c :: q ++ r) := (span_unique (fun b hb => (hsp b).1 (hw b hb)) h1).2
    have e2 : ((c :: q) ++ r).takeWhile isDigit = c :: q := (span_unique (fun b hb => isDigit_iff.2 (hd.2 b hb)) (fun b hb => by
      have := hr b hb
      rw [← isDigit_iff] at this
      simpa using this)).1
    have c45 : c ≠ 45 := by rintro rfl; exact absurd hc (by decide)
    have c43 : c ≠ 43 := by rintro rfl; exact absurd hc (by decide)
    unfold signedDigits
    rw [e1]
    rcases hs with ⟨rfl | rfl, rfl⟩ | ⟨rfl, rfl⟩
    · have e3 : sign ([] ++ (c :: q ++ r)) = (false, c :: q ++ r) := by
        show sign (c :: (q ++ r)) = _
        unfold sign
        split
        · rename_i heq; exact absurd (List.cons.inj heq).1 c45
        · rename_i heq; exact absurd (List.cons.inj heq).1 c43
        · rfl
      rw [e3]
      simp only
      rw [e2, if_neg (by simp)]
      exact ⟨_, rfl, rfl⟩
    · show ∃ p, (if ((c :: q) ++ r).takeWhile isDigit = [] then none else some (false, Xml.digitsVal (((c :: q) ++ r).takeWhile isDigit))) = some p ∧ _
      rw [e2, if_neg (by simp)]
      exact ⟨_, rfl, rfl⟩
    · show ∃ p, (if ((c :: q) ++ r).takeWhile isDigit = [] then none else some (true, Xml.digitsVal (((c :: q) ++ r).takeWhile isDigit))) = some p ∧ _
      rw [e2, if_neg (by simp)]
      exact ⟨_, rfl, rfl⟩
  · rintro ⟨p, h, rfl⟩
    unfold signedDigits at h
    simp only at h
    split at h
    · cases h
    rename_i hne
    cases h
    have hw : Blank (t.takeWhile isSpace) := by
      intro b hb
      have := mem_takeWhile_sat hb
      unfold isSpace at this
      simp only [Bool.or_eq_true, Bool.and_eq_true, decide_eq_true_eq, beq_iff_eq] at this
      unfold White
      simp only [UInt8.le_iff_toNat_le]
      exact this
    have ht : t = t.takeWhile isSpace ++ skipSpace t := (List.takeWhile_append_dropWhile).symm
    have key : ∀ u : Str, u.takeWhile isDigit ≠ [] → JDigits (u.takeWhile isDigit) ∧ ∀ b ∈ (u.dropWhile isDigit).head?, ¬ JDigit b := by
      intro u hu
      refine ⟨⟨hu, fun b hb => isDigit_iff.1 (mem_takeWhile_sat hb)⟩, fun b hb => ?_⟩
      rw [← isDigit_iff]
      have := List.head?_dropWhile_not isDigit u
      rw [hb] at this
      simpa using this
    obtain ⟨k1, k2⟩ := key _ hne
    have hsplit := (List.takeWhile_append_dropWhile (p := isDigit) (l := (sign (skipSpace t)).2)).symm
    have hsg : (sign (skipSpace t)).1 = true ∧ skipSpace t = lit "-" ++ (sign (skipSpace t)).2 ∨
        (sign (skipSpace t)).1 = false ∧ (skipSpace t = lit "+" ++ (sign (skipSpace t)).2 ∨ skipSpace t = (sign (skipSpace t)).2) := by
      generalize skipSpace t = u
      unfold sign
      split
      · exact .inl ⟨rfl, rfl⟩
      · exact .inr ⟨rfl, .inl rfl⟩
      · exact .inr ⟨rfl, .inr rfl⟩
    rcases hsg with ⟨s1, s2⟩ | ⟨s1, s2 | s2⟩
    · refine ⟨_, lit "-", _, _, ?_, hw, k1, k2, .inr ⟨rfl, ?_⟩⟩
      · rw [← hsplit, ← s2]; exact ht
      · rw [s1]; rfl
    · refine ⟨_, lit "+", _, _, ?_, hw, k1, k2, .inl ⟨.inr rfl, ?_⟩⟩
      · rw [← hsplit, ← s2]; exact ht
      · rw [s1]; rfl
    · refine ⟨_, [], _, _, ?_, hw, k1, k2, .inl ⟨.inl rfl, ?_⟩⟩
      · rw [← hsplit, List.nil_append, ← s2]; exact ht
      · rw [s1]; rfl

theorem noInt_iff {t : Str} : (∀ v, ¬ ShowsInt t v) ↔ signedDigits t = none := by
  constructor
  · intro h
    cases e : signedDigits t with
    | none => rfl
    | some p => exact absurd (showsInt_iff.2 ⟨p, e, rfl⟩) (h _)
  · intro h v hv
    obtain ⟨p, hp, -⟩ := showsInt_iff.1 hv
    rw [h] at hp; cases hp

theorem scanInt_iff {t : Str} {r : Option Int} : scanInt t = .ok r ↔ (∃ v, ShowsInt t v ∧ InI32 v ∧ r = some v) ∨ (∀ v, ¬ ShowsInt t v) ∧ r = none := by
  unfold scanInt
  rw [noInt_iff]
  cases e : signedDigits t with
  | none =>
    constructor
    · intro h; cases h; exact .inr ⟨rfl, rfl⟩
    · rintro (⟨v, hv, -⟩ | ⟨-, rfl⟩)
      · obtain ⟨p, hp, -⟩ := showsInt_iff.1 hv
        rw [e] at hp; cases hp
      · rfl
  | some p =>
    simp only
    constructor
    · intro h
      split at h
      · cases h; exact .inl ⟨_, showsInt_iff.2 ⟨p, e, rfl⟩, by assumption, rfl⟩
      · cases h
    · rintro (⟨v, hv, hi, rfl⟩ | ⟨h, -⟩)
      · obtain ⟨p', hp, rfl⟩ := showsInt_iff.1 hv
        rw [e] at hp; cases hp
        rw [if_pos hi]
      · cases h

theorem queryInt_iff {x : Node} {o r : Option Int} : x.queryInt o = .ok r ↔ (∃ v, HoldsInt x v ∧ r = some v) ∨ HoldsNone x ∧ r = o := by
  unfold Node.queryInt
  cases e : x.getText with
  | none =>
    have hn : ∀ t, ¬ ShowsText x t := fun t ht => by rw [← getText_iff, e] at ht; cases ht
    simp only [pure_iff]
    constructor
    · rintro rfl; exact .inr ⟨fun t ht => absurd ht (hn t), rfl⟩
    · rintro (⟨v, ⟨t, ht, -⟩, -⟩ | ⟨-, rfl⟩)
      · exact absurd ht (hn t)
      · rfl
  | some t =>
    have ht : ShowsText x t := getText_iff.1 e
    have hu : ∀ t', ShowsText x t' → t' = t := fun t' h => by rw [← getText_iff, e] at h; cases h; rfl
    simp only [bind_iff, pure_iff, scanInt_iff]
    constructor
    · rintro ⟨a, ⟨v, h1, h2, rfl⟩ | ⟨h1, rfl⟩, rfl⟩
      · exact .inl ⟨v, ⟨t, ht, h1, h2⟩, rfl⟩
      · refine .inr ⟨fun t' h' => ?_, rfl⟩
        rw [hu t' h']; exact h1
    · rintro (⟨v, ⟨t', h', h1, h2⟩, rfl⟩ | ⟨h, rfl⟩)
      · rw [hu t' h'] at h1
        exact ⟨_, .inl ⟨v, h1, h2, rfl⟩, rfl⟩
      · exact ⟨_, .inr ⟨h t ht, rfl⟩, rfl⟩

theorem holdsInt_unique {x : Node} {v w : Int} (h : HoldsInt x v) (h' : HoldsInt x w) : v = w := by
  have h1 := queryInt_iff (o := none).2 (.inl ⟨v, h, rfl⟩)
  have h2 := queryInt_iff (o := none).2 (.inl ⟨w, h', rfl⟩)
  rw [h1] at h2; cases h2; rfl

theorem queryInt_some {x : Node} {v : Int} : x.queryInt none = .ok (some v) ↔ HoldsInt x v := by
  rw [queryInt_iff]
  constructor
  · rintro (⟨w, h, e⟩ | ⟨-, e⟩)
    · cases e; exact h
    · cases e
  · exact fun h => .inl ⟨v, h, rfl⟩

theorem queryInt_none {x : Node} : x.queryInt none = .ok none ↔ HoldsNone x := by
  rw [queryInt_iff]
  constructor
  · rintro (⟨w, h, e⟩ | ⟨h, -⟩)
    · cases e
    · exact h
  · exact fun h => .inr ⟨h, rfl⟩

/-! ## Three numbers -/

theorem read3_iff {root : Node} {n : String} {a : I3} : (read3 root n {} >>= O3.known) = .ok a ↔ HoldsThree root (lit n) a := by
  unfold read3
  simp only [bind_iff, child_iff, elems_kids]
  constructor
  · rintro ⟨o, ⟨y, hy, h⟩, ho⟩
    unfold O3.known at ho
    simp only [bind_iff, known_iff, pure_iff] at ho
    obtain ⟨x1, h1, x2, h2, x3, h3, rfl⟩ := ho
    cases hk : kids y with
    | nil => rw [hk] at h; cases h; cases h1
    | cons e1 l =>
      rw [hk, read3List, if_pos (by decide)] at h
      obtain ⟨v1, q1, h⟩ := bind_iff.1 h
      cases l with
      | nil => cases h; cases h2
      | cons e2 l =>
        rw [read3List, if_pos (by decide)] at h
        obtain ⟨v2, q2, h⟩ := bind_iff.1 h
        cases l with
        | nil => cases h; cases h3
        | cons e3 l =>
          rw [read3List, if_pos (by decide)] at h
          obtain ⟨v3, q3, h⟩ := bind_iff.1 h
          have fin : o = ⟨v1, v2, v3⟩ ∧ (l = [] ∨ ∃ e, l = [e] ∧ HoldsNone e) := by
            cases l with
            | nil => cases h; exact ⟨rfl, .inl rfl⟩
            | cons e4 l =>
              rw [read3List, if_neg (by decide), if_pos (by decide)] at h
              obtain ⟨v4, q4, h⟩ := bind_iff.1 h
              cases v4 with
              | some v => rw [if_pos (by rfl)] at h; cases h
              | none =>
                rw [if_neg (by simp)] at h
                cases l with
                | nil => cases h; exact ⟨rfl, .inr ⟨e4, rfl, queryInt_none.1 q4⟩⟩
                | cons e5 l => rw [read3List, if_neg (by decide), if_neg (by decide)] at h; cases h
          obtain ⟨rfl, hl⟩ := fin
          cases h1; cases h2; cases h3
          exact ⟨y, e1, e2, e3, l, hy, hk, queryInt_some.1 q1, queryInt_some.1 q2, queryInt_some.1 q3, hl⟩
  · rintro ⟨y, e1, e2, e3, rest, hy, hk, h1, h2, h3, hr⟩
    refine ⟨⟨some a.x, some a.y, some a.z⟩, ⟨y, hy, ?_⟩, rfl⟩
    rw [hk, read3List, if_pos (by decide), bind_iff]
    refine ⟨_, queryInt_some.2 h1, ?_⟩
    rw [read3List, if_pos (by decide), bind_iff]
    refine ⟨_, queryInt_some.2 h2, ?_⟩
    rw [read3List, if_pos (by decide), bind_iff]
    refine ⟨_, queryInt_some.2 h3, ?_⟩
    rcases hr with rfl | ⟨e, rfl, he⟩
    · rfl
    · rw [read3List, if_neg (by decide), if_pos (by decide), bind_iff]
      exact ⟨_, queryInt_none.2 he, rfl⟩

end Verif.Xml
