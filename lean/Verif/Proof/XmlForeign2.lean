import Verif.Proof.XmlForeign1
import Verif.Proof.TecAux
/-!
# Variables, auxiliary data, zones and files that `read_xml` reads
-/
namespace Verif.Xml
open Tec Spec

/-! ## Auxiliary data -/

theorem assign_spec {m : AuxMap} (h : m.Ordered) (k v : Str) :
    (m.assign k v).Ordered ∧ ∀ a b, (a, b) ∈ m.assign k v ↔ a = k ∧ b = v ∨ a ≠ k ∧ (a, b) ∈ m := by
  induction m with
  | nil =>
    refine ⟨List.pairwise_singleton _ _, fun a b => ?_⟩
    show (a, b) ∈ [(k, v)] ↔ _
    simp
  | cons e m ih =>
    obtain ⟨k', v'⟩ := e
    obtain ⟨h1, h2⟩ := List.pairwise_cons.1 h
    obtain ⟨i1, i2⟩ := ih h2
    unfold AuxMap.assign
    split
    · rename_i hk
      have hlt : ∀ e ∈ (k', v') :: m, strLt k e.1 = true := by
        intro e he
        rcases List.mem_cons.1 he with rfl | he
        · exact hk
        · exact strLt_trans hk (h1 e he)
      refine ⟨List.pairwise_cons.2 ⟨hlt, h⟩, fun a b => ?_⟩
      rw [List.mem_cons, Prod.mk.injEq]
      refine or_congr Iff.rfl ⟨fun hm => ⟨(strLt_ne (hlt _ hm)).symm, hm⟩, fun hm => hm.2⟩
    · rename_i hk
      split
      · rename_i hk'
        refine ⟨List.pairwise_cons.2 ⟨fun e he => ?_, i1⟩, fun a b => ?_⟩
        · obtain ⟨a, b⟩ := e
          rcases (i2 a b).1 he with ⟨rfl, -⟩ | ⟨-, he⟩
          · exact hk'
          · exact h1 _ he
        · rw [List.mem_cons, List.mem_cons, i2, Prod.mk.injEq]
          constructor
          · rintro (⟨rfl, rfl⟩ | h | h)
            · exact .inr ⟨strLt_ne hk', .inl ⟨rfl, rfl⟩⟩
            · exact .inl h
            · exact .inr ⟨h.1, .inr h.2⟩
          · rintro (h | ⟨h, h' | h'⟩)
            · exact .inr (.inl h)
            · exact .inl h'
            · exact .inr (.inr ⟨h, h'⟩)
      · rename_i hk'
        have e : k' = k := strLt_eq (by simpa using hk') (by simpa using hk)
        subst e
        refine ⟨List.pairwise_cons.2 ⟨h1, h2⟩, fun a b => ?_⟩
        rw [List.mem_cons, List.mem_cons, Prod.mk.injEq, Prod.mk.injEq]
        constructor
        · rintro (h | h)
          · exact .inl h
          · exact .inr ⟨(strLt_ne (h1 _ h)).symm, .inr h⟩
        · rintro (h | ⟨h, h' | h'⟩)
          · exact .inl h
          · exact absurd h'.1 h
          · exact .inr h'

theorem ordered_ext {m m' : AuxMap} (h : m.Ordered) (h' : m'.Ordered) (hm : ∀ a b, (a, b) ∈ m ↔ (a, b) ∈ m') : m = m' := by
  refine List.Perm.eq_of_pairwise (le := fun a b : Str × Str => strLt a.1 b.1 = true) ?_ h h' ?_
  · intro a b _ _ h1 h2
    exact absurd (strLt_trans h1 h2) (by rw [strLt_irrefl]; decide)
  · have nd : ∀ {m : AuxMap}, m.Ordered → m.Nodup := fun h => h.imp fun hab e => by
      rw [e, strLt_irrefl] at hab; cases hab
    exact (List.perm_ext_iff_of_nodup (nd h) (nd h')).2 fun a => hm a.1 a.2

/-- the last element with this name has this text -/
def LastIs (l : List Node) (k v : Str) : Prop := ∃ l1 e l2, l = l1 ++ e :: l2 ∧ Named e k ∧ ShowsText e v ∧ ∀ e' ∈ l2, ¬ Named e' k

theorem lastIs_cons {e : Node} {l : List Node} {k v : Str} :
    LastIs (e :: l) k v ↔ LastIs l k v ∨ Named e k ∧ ShowsText e v ∧ ∀ e' ∈ l, ¬ Named e' k := by
  constructor
  · rintro ⟨l1, e', l2, h, h1, h2, h3⟩
    cases l1 with
    | nil => cases h; exact .inr ⟨h1, h2, h3⟩
    | cons c l1 => cases h; exact .inl ⟨l1, e', l2, rfl, h1, h2, h3⟩
  · rintro (⟨l1, e', l2, rfl, h1, h2, h3⟩ | ⟨h1, h2, h3⟩)
    · exact ⟨e :: l1, e', l2, rfl, h1, h2, h3⟩
    · exact ⟨[], e, l, rfl, h1, h2, h3⟩

theorem named_name {e : Node} (h : Spec.isElem e = true) (k : Str) : Named e k ↔ k = e.name := by
  cases e with
  | elem n as cs => exact ⟨fun ⟨_, _, h⟩ => by cases h; rfl, fun h => ⟨as, cs, by rw [h]; rfl⟩⟩
  | _ => cases h

theorem auxList_spec {l : List Node} (hl : ∀ e ∈ l, Spec.isElem e = true) {m : AuxMap} (h : m.Ordered) (ht : ∀ e ∈ l, ∃ t, ShowsText e t) :
    ∃ m', readAuxList l m = .ok m' ∧ m'.Ordered ∧ ∀ k v, (k, v) ∈ m' ↔ LastIs l k v ∨ (k, v) ∈ m ∧ ∀ e ∈ l, ¬ Named e k := by
  induction l generalizing m with
  | nil =>
    refine ⟨m, rfl, h, fun k v => ⟨fun hm => .inr ⟨hm, fun e he => by cases he⟩, ?_⟩⟩
    rintro (⟨l1, e, l2, h, -⟩ | h)
    · cases l1 <;> cases h
    · exact h.1
  | cons e l ih =>
    obtain ⟨t, hte⟩ := ht e (by simp)
    obtain ⟨a1, a2⟩ := assign_spec h e.name t
    obtain ⟨m', h1, h2, h3⟩ := ih (fun e he => hl e (by simp [he])) a1 fun e he => ht e (by simp [he])
    refine ⟨m', ?_, h2, fun k v => ?_⟩
    · unfold readAuxList
      rw [getText_iff.2 hte]
      exact h1
    · have hn := named_name (hl e (by simp))
      rw [h3, lastIs_cons, a2, hn k, or_assoc]
      refine or_congr Iff.rfl ?_
      constructor
      · rintro ⟨⟨rfl, rfl⟩ | ⟨h, hm⟩, hq⟩
        · exact .inl ⟨rfl, hte, hq⟩
        · refine .inr ⟨hm, fun e' he' => ?_⟩
          rcases List.mem_cons.1 he' with rfl | he'
          · rw [hn]; exact h
          · exact hq e' he'
      · rintro (⟨rfl, hv, hq⟩ | ⟨hm, hq⟩)
        · refine ⟨.inl ⟨rfl, ?_⟩, hq⟩
          rw [← getText_iff] at hv hte
          rw [hv] at hte; cases hte; rfl
        · refine ⟨.inr ⟨fun hc => hq e (by simp) ((hn k).2 hc), hm⟩, fun e' he' => hq e' (by simp [he'])⟩

theorem auxList_texts {l : List Node} {m m' : AuxMap} (h : readAuxList l m = .ok m') : ∀ e ∈ l, ∃ t, ShowsText e t := by
  induction l generalizing m with
  | nil => intro e he; cases he
  | cons e l ih =>
    obtain ⟨t, h1, h2⟩ := Out.bind_inv h
    intro e' he'
    rcases List.mem_cons.1 he' with rfl | he'
    · exact ⟨t, getText_iff.1 (toStr_iff.1 h1)⟩
    · exact ih h2 e' he'

theorem kids_elem (x : Node) : ∀ e ∈ kids x, Spec.isElem e = true := by
  intro e he
  cases x with
  | elem => exact (List.mem_filter.1 he).2
  | _ => cases he

theorem readAux_iff {root : Node} {m : AuxMap} : readAux root [] = .ok m ↔ HoldsAux root m := by
  unfold readAux HoldsAux
  cases e : firstNamed (lit "Auxiliary") root.children with
  | none =>
    have hn : ∀ y, ¬ Kid root (lit "Auxiliary") y := fun y hy => by rw [← first_iff, e] at hy; cases hy
    simp only [pure_iff]
    constructor
    · rintro rfl; exact .inl ⟨hn, rfl⟩
    · rintro (⟨-, rfl⟩ | ⟨y, hy, -⟩)
      · rfl
      · exact absurd hy (hn y)
  | some y =>
    have hy : Kid root (lit "Auxiliary") y := first_iff.1 e
    have hu : ∀ y', Kid root (lit "Auxiliary") y' → y' = y := fun y' h => by rw [← first_iff, e] at h; cases h; rfl
    have key : ∀ (ht : ∀ e ∈ kids y, ∃ t, ShowsText e t), ∃ m', readAuxList (kids y) [] = .ok m' ∧ m'.Ordered ∧ ∀ k v, (k, v) ∈ m' ↔ LastIs (kids y) k v := by
      intro ht
      obtain ⟨m', h1, h2, h3⟩ := auxList_spec (kids_elem y) (m := []) List.Pairwise.nil ht
      refine ⟨m', h1, h2, fun k v => ?_⟩
      rw [h3]
      exact ⟨fun h => h.elim id fun h => (by cases h.1), fun h => .inl h⟩
    simp only [elems_kids]
    constructor
    · intro h
      have ht := auxList_texts h
      obtain ⟨m', h1, h2, h3⟩ := key ht
      rw [h] at h1; cases h1
      exact .inr ⟨y, hy, h2, ht, h3⟩
    · rintro (⟨h, -⟩ | ⟨y', hy', h2, ht, h3⟩)
      · exact absurd hy (h y)
      · obtain rfl := hu y' hy'
        obtain ⟨m', k1, k2, k3⟩ := key ht
        rw [k1, ordered_ext k2 h2 fun a b => (k3 a b).trans (h3 a b).symm]

/-! ## Variables -/

theorem ofCode_iff {c : Int} {t : TecType} : TecType.ofCode c = .ok t ↔ c = t.code := by
  unfold TecType.ofCode
  constructor
  · intro h
    repeat' split at h
    all_goals first | (cases h; assumption) | cases h
  · rintro rfl
    cases t <;> rfl

theorem intAttr_iff {x : Node} {n : String} {v : Int} : x.queryIntAttr n none = .ok (some v) ↔ ∃ t, AttrIs x (lit n) t ∧ ShowsInt t v ∧ InI32 v := by
  unfold Node.queryIntAttr
  cases e : x.attr n with
  | none =>
    refine ⟨fun h => (by cases h), ?_⟩
    rintro ⟨t, ht, -⟩
    rw [← attr_iff, e] at ht; cases ht
  | some t =>
    simp only [bind_iff, pure_iff, scanInt_iff]
    constructor
    · rintro ⟨a, ⟨w, h1, h2, rfl⟩ | ⟨-, rfl⟩, h⟩
      · cases h; exact ⟨t, attr_iff.1 e, h1, h2⟩
      · cases h
    · rintro ⟨t', h', h1, h2⟩
      rw [← attr_iff, e] at h'; cases h'
      exact ⟨_, .inl ⟨v, h1, h2, rfl⟩, rfl⟩

theorem unsignedAttr_iff {x : Node} {n : String} {s : Nat} : x.queryUnsignedAttr n none = .ok (some s) ↔
    ∃ t v, AttrIs x (lit n) t ∧ ShowsInt t v ∧ v.natAbs < 4294967296 ∧ (s : Int) = v % 4294967296 := by
  unfold Node.queryUnsignedAttr
  have val : ∀ p : Bool × Nat, p.2 < 4294967296 → (((if p.1 then u32 (4294967296 - p.2) else p.2 : Nat)) : Int) = sgn p % 4294967296 := by
    rintro ⟨b, k⟩ hk
    simp only at hk
    cases b
    · show (k : Int) = (k : Int) % 4294967296
      omega
    · show ((u32 (4294967296 - k) : Nat) : Int) = (-(k : Int)) % 4294967296
      unfold u32
      omega
  have abs : ∀ p : Bool × Nat, (sgn p).natAbs = p.2 := by
    rintro ⟨b, k⟩
    cases b
    · show ((k : Int)).natAbs = k; omega
    · show (-(k : Int)).natAbs = k; omega
  cases e : x.attr n with
  | none =>
    refine ⟨fun h => (by cases h), ?_⟩
    rintro ⟨t, v, ht, -⟩
    rw [← attr_iff, e] at ht; cases ht
  | some t =>
    simp only [bind_iff, pure_iff]
    constructor
    · rintro ⟨a, h1, h2⟩
      unfold scanUnsigned at h1
      cases ep : signedDigits t with
      | none => rw [ep] at h1; cases h1; cases h2
      | some p =>
        rw [ep] at h1
        simp only at h1
        split at h1
        · rename_i hp
          cases h1; cases h2
          exact ⟨t, sgn p, attr_iff.1 e, showsInt_iff.2 ⟨p, ep, rfl⟩, by rw [abs]; exact hp, val p hp⟩
        · cases h1
    · rintro ⟨t', v, h', h1, h2, h3⟩
      rw [← attr_iff, e] at h'; cases h'
      obtain ⟨p, ep, rfl⟩ := showsInt_iff.1 h1
      rw [abs] at h2
      refine ⟨some (if p.1 then u32 (4294967296 - p.2) else p.2), ?_, ?_⟩
      · unfold scanUnsigned
        rw [ep]
        simp only
        rw [if_pos h2]
      · have := val p h2
        rw [← h3] at this
        have : (if p.1 then u32 (4294967296 - p.2) else p.2) = s := by exact_mod_cast this
        rw [this]; rfl

theorem realAttr_iff {rd : Str → Option F64} {x : Node} {n : String} {v : Option F64} : x.queryDoubleAttr rd n none = v ↔ HoldsReal rd x (lit n) v := by
  unfold Node.queryDoubleAttr HoldsReal
  cases e : x.attr n with
  | none =>
    have hn : ∀ t, ¬ AttrIs x (lit n) t := fun t ht => by rw [← attr_iff, e] at ht; cases ht
    exact ⟨fun h => .inr ⟨hn, h.symm⟩, fun h => h.elim (fun ⟨t, ht, _⟩ => absurd ht (hn t)) fun h => h.2.symm⟩
  | some t =>
    have ht : AttrIs x (lit n) t := attr_iff.1 e
    have hr : ((rd t).orElse fun _ => none) = rd t := by cases rd t <;> rfl
    simp only [hr]
    constructor
    · rintro rfl; exact .inl ⟨t, ht, rfl⟩
    · rintro (⟨t', h', rfl⟩ | ⟨h, -⟩)
      · rw [← attr_iff, e] at h'; cases h'; rfl
      · exact absurd ht (h t)

theorem strtol_iff {t : Str} {w : Option Int} : some (strtol t) = w ↔
    (∃ v, ShowsInt t v ∧ w = some (max (-9223372036854775808) (min 9223372036854775807 v))) ∨ (∀ v, ¬ ShowsInt t v) ∧ w = some 0 := by
  unfold strtol
  rw [noInt_iff]
  cases e : signedDigits t with
  | none =>
    constructor
    · rintro rfl; exact .inr ⟨rfl, rfl⟩
    · rintro (⟨v, hv, -⟩ | ⟨-, rfl⟩)
      · obtain ⟨p, hp, -⟩ := showsInt_iff.1 hv
        rw [e] at hp; cases hp
      · rfl
  | some p =>
    constructor
    · rintro rfl; exact .inl ⟨_, showsInt_iff.2 ⟨p, e, rfl⟩, rfl⟩
    · rintro (⟨v, hv, rfl⟩ | ⟨h, -⟩)
      · obtain ⟨p', hp, rfl⟩ := showsInt_iff.1 hv
        rw [e] at hp; cases hp
        rfl
      · cases h

theorem code_i32 (t : TecType) : InI32 t.code := by cases t <;> decide

theorem data_iff {rd : Str → Option F64} {e : Node} {d : DataLog} : DataLog.read_xml rd e = .ok d ↔ HoldsData rd e d := by
  constructor
  · intro h
    unfold DataLog.read_xml at h
    simp only [bind_iff, known_iff, toStr_iff, ofCode_iff, pure_iff] at h
    obtain ⟨_, h1, tp, rfl, ty, h2, _, h3, si, rfl, pt, h4, rfl⟩ := h
    obtain ⟨t, a1, a2, -⟩ := intAttr_iff.1 h1
    refine ⟨⟨t, a1, by rw [← h2]; exact a2⟩, unsignedAttr_iff.1 h3, ⟨pt, attr_iff.1 h4, strtol_iff.1 rfl⟩, realAttr_iff.1 rfl, realAttr_iff.1 rfl⟩
  · rintro ⟨⟨t, a1, a2⟩, h2, ⟨pt, h3, h4⟩, h5, h6⟩
    unfold DataLog.read_xml
    simp only [bind_iff, known_iff, toStr_iff, ofCode_iff, pure_iff]
    refine ⟨_, intAttr_iff.2 ⟨t, a1, a2, code_i32 _⟩, _, rfl, _, rfl, _, unsignedAttr_iff.2 h2, _, rfl, pt, attr_iff.2 h3, ?_⟩
    rw [realAttr_iff.2 h5, realAttr_iff.2 h6, strtol_iff.2 h4]

theorem readData_iff {rd : Str → Option F64} {l : List Node} {ds r : List DataLog} :
    readData rd l ds = .ok r ↔ ∃ r', r = ds ++ r' ∧ List.Forall₂ (HoldsData rd) l r' := by
  induction l generalizing ds with
  | nil =>
    rw [readData, pure_iff]
    constructor
    · rintro rfl; exact ⟨[], by simp, .nil⟩
    · rintro ⟨r', rfl, h⟩; cases h; simp
  | cons e l ih =>
    rw [readData]
    simp only [bind_iff, data_iff, ih]
    constructor
    · rintro ⟨d, h1, r', rfl, h2⟩
      exact ⟨d :: r', by simp, .cons h1 h2⟩
    · rintro ⟨r', rfl, h⟩
      cases h with
      | cons h1 h2 => exact ⟨_, h1, _, by simp, h2⟩

/-! ## Zones -/

theorem zone_iff {rd : Str → Option F64} {j : Junk} {e : Node} {z : ZoneLog} : (ZoneRead.read_xml rd e {} >>= ZoneRead.log j) = .ok z ↔ HoldsZone rd j e z := by
  constructor
  · intro h
    obtain ⟨zr, h, hl⟩ := bind_iff.1 h
    unfold ZoneRead.read_xml at h
    simp only [bind_iff, known_iff, toStr_iff, child_iff, getText_iff, pure_iff, elems_kids] at h
    obtain ⟨y1, n1, name, n2, y2, n3, _, n4, strand, rfl, time, n5, y3, n6, dim, n7, y4, n8, rdim, n9, mx, n10, sk, n11, bg, n12, en, n13, rm, n14, aux, n15, y5, n16, dt, n17, rfl⟩ := h
    unfold ZoneRead.log at hl
    simp only [bind_iff, known_iff, pure_iff] at hl
    obtain ⟨s', e1, tm, e2, d', e3, rd', e4, mx', e5, sk', e6, bg', e7, en', e8, rm', e9, rfl⟩ := hl
    cases e1; subst e3; subst e4
    have r3 : ∀ {n : String} {o : O3} {a : I3}, read3 e n {} = .ok o → o.known = .ok a → HoldsThree e (lit n) a := fun h h' => read3_iff.1 (bind_iff.2 ⟨_, h, h'⟩)
    obtain ⟨dt', rfl, hd⟩ := readData_iff.1 n17
    refine ⟨⟨y1, n1, n2⟩, ⟨y2, n3, queryInt_some.1 n4⟩, ?_, ⟨y3, n6, queryInt_some.1 n7⟩, ⟨y4, n8, queryInt_some.1 n9⟩,
      r3 n10 e5, r3 n11 e6, r3 n12 e7, r3 n13 e8, r3 n14 e9, readAux_iff.1 n15, ⟨y5, n16, by simpa using hd⟩, rfl, rfl, rfl, rfl, rfl, rfl⟩
    unfold readTime at n5
    unfold timeLog at e2
    by_cases hs : strand = -1
    · rw [if_pos hs] at n5 e2
      cases n5; cases e2
      exact .inl ⟨hs, rfl⟩
    · rw [if_neg hs] at n5 e2
      simp only [bind_iff, child_iff, pure_iff] at n5
      obtain ⟨y, hy, rfl⟩ := n5
      rw [known_iff] at e2
      unfold Node.queryDouble at e2
      cases et : y.getText with
      | none => rw [et] at e2; cases e2
      | some t =>
        rw [et] at e2
        refine .inr ⟨hs, y, t, hy, getText_iff.1 et, ?_⟩
        simp only at e2
        cases er : rd t with
        | none => rw [er] at e2; cases e2
        | some x => rw [er] at e2; exact e2
  · rintro ⟨⟨y1, n1, n2⟩, ⟨y2, n3, n4⟩, ht, ⟨y3, n6, n7⟩, ⟨y4, n8, n9⟩, q1, q2, q3, q4, q5, qa, ⟨y5, n16, qd⟩, u1, u2, u3, u4, u5, u6⟩
    have r3 : ∀ {n : String} {a : I3}, HoldsThree e (lit n) a → ∃ o, read3 e n {} = .ok o ∧ o.known = .ok a := fun h => bind_iff.1 (read3_iff.2 h)
    obtain ⟨o1, a1, b1⟩ := r3 q1
    obtain ⟨o2, a2, b2⟩ := r3 q2
    obtain ⟨o3, a3, b3⟩ := r3 q3
    obtain ⟨o4, a4, b4⟩ := r3 q4
    obtain ⟨o5, a5, b5⟩ := r3 q5
    have tm : ∃ t, readTime rd e z.StrandId none = .ok t ∧ timeLog j z.StrandId t = .ok z.SolutionTime := by
      unfold readTime timeLog
      rcases ht with ⟨hs, ht⟩ | ⟨hs, y, t, hy, h1, h2⟩
      · rw [if_pos hs, ht]
        exact ⟨none, rfl, by rw [if_pos hs]; rfl⟩
      · rw [if_neg hs]
        refine ⟨some z.SolutionTime, ?_, by rw [if_neg hs]; rfl⟩
        simp only [bind_iff, child_iff, pure_iff]
        refine ⟨y, hy, ?_⟩
        unfold Node.queryDouble
        rw [getText_iff.2 h1]
        simp only
        rw [h2]
        rfl
    obtain ⟨t, t1, t2⟩ := tm
    rw [bind_iff]
    refine ⟨⟨z.ZoneName, some z.StrandId, t, some z.Dim, some z.Real_Dim, o1, o2, o3, o4, o5, z.Auxiliary, z.Data⟩, ?_, ?_⟩
    · unfold ZoneRead.read_xml
      simp only [bind_iff, known_iff, toStr_iff, child_iff, getText_iff, pure_iff, elems_kids]
      exact ⟨y1, n1, _, n2, y2, n3, _, queryInt_some.2 n4, _, rfl, t, t1, y3, n6, _, queryInt_some.2 n7, y4, n8, _, queryInt_some.2 n9,
        _, a1, _, a2, _, a3, _, a4, _, a5, _, readAux_iff.2 qa, y5, n16, _, readData_iff.2 ⟨_, rfl, qd⟩, rfl⟩
    · unfold ZoneRead.log
      simp only [bind_iff, known_iff, pure_iff]
      refine ⟨_, rfl, _, t2, _, rfl, _, rfl, _, b1, _, b2, _, b3, _, b4, _, b5, ?_⟩
      rw [← u1, ← u2]
      obtain ⟨⟩ := z
      simp only at u3 u4 u5 u6
      subst u3; subst u4; subst u5; subst u6
      rfl

theorem zones_iff {rd : Str → Option F64} {junk : Nat → Junk} {l : List Node} {i : Nat} {zs : List ZoneLog} :
    readZones rd junk l i = .ok zs ↔ HoldsZones rd junk i l zs := by
  induction l generalizing i zs with
  | nil =>
    rw [readZones, pure_iff]
    constructor
    · rintro rfl; exact .nil
    · intro h; cases h; rfl
  | cons e l ih =>
    rw [readZones]
    constructor
    · intro h
      obtain ⟨zr, h1, h⟩ := bind_iff.1 h
      obtain ⟨z, h2, h⟩ := bind_iff.1 h
      obtain ⟨r, h3, h⟩ := bind_iff.1 h
      cases h
      exact .cons (zone_iff.1 (bind_iff.2 ⟨zr, h1, h2⟩)) (ih.1 h3)
    · intro h
      cases h with
      | cons h1 h2 =>
        obtain ⟨zr, a, b⟩ := bind_iff.1 (zone_iff.2 h1)
        exact bind_iff.2 ⟨zr, a, bind_iff.2 ⟨_, b, bind_iff.2 ⟨_, ih.2 h2, rfl⟩⟩⟩

/-! ## Files -/

theorem names_iff {l : List Node} (hl : ∀ e ∈ l, Spec.isElem e = true) {vs : List Str} : l.map Node.name = vs ↔ List.Forall₂ Named l vs := by
  induction l generalizing vs with
  | nil =>
    constructor
    · rintro rfl; exact .nil
    · intro h; cases h; rfl
  | cons e l ih =>
    have hn := named_name (hl e (by simp))
    have ih := fun vs => ih (fun e he => hl e (by simp [he])) (vs := vs)
    constructor
    · rintro rfl; exact .cons ((hn _).2 rfl) ((ih _).1 rfl)
    · intro h
      cases h with
      | cons h1 h2 => rw [List.map_cons, (ih _).2 h2, ← (hn _).1 h1]

theorem zoneBare_of {z : ZoneLog} (u4 : z.Echo_Text = []) (u5 : z.Json_Text = []) (u6 : z.Xml_Text = []) : zoneBare z = z := by
  obtain ⟨⟩ := z
  simp only at u4 u5 u6
  subst u4; subst u5; subst u6
  rfl

theorem holds_bare {rd : Str → Option F64} {junk : Nat → Junk} {i : Nat} {l : List Node} {zs : List ZoneLog} (h : HoldsZones rd junk i l zs) : zs.map zoneBare = zs := by
  induction h with
  | nil => rfl
  | cons h1 _ ih =>
    rw [List.map_cons, ih]
    obtain ⟨-, -, -, u4, u5, u6⟩ := h1.rest
    congr 1
    exact zoneBare_of u4 u5 u6

theorem holdsFile_bare {rd : Str → Option F64} {junk : Nat → Junk} {root : Node} {m : FileLog} (h : HoldsFile rd junk root m) : bare m = m := by
  obtain ⟨y, -, hz⟩ := h.zones
  obtain ⟨-, -, -, u4, u5, u6⟩ := h.rest
  unfold bare
  rw [holds_bare hz]
  obtain ⟨⟩ := m
  simp only at u4 u5 u6
  subst u4; subst u5; subst u6
  rfl

/-- reading is finding what the file holds, then writing the texts -/
theorem readFile_iff {F : Fmt} {rd : Str → Option F64} {junk : Nat → Junk} {root : Node} {l' : FileLog} :
    FileLog.read_xml F rd junk root FileLog.new = .ok l' ↔ ∃ m, HoldsFile rd junk root m ∧ (m.gen_xml F >>= FileLog.gen_json F) = .ok l' := by
  constructor
  · intro h
    unfold FileLog.read_xml at h
    simp only [bind_iff, known_iff, toStr_iff, child_iff, getText_iff, attr_iff, elems_kids, zones_iff] at h
    obtain ⟨name, n1, y1, n2, path, n3, y2, n4, time, n5, y3, n6, y4, n7, title, n8, y5, n9, _, n10, type, rfl, y6, n11, aux, n12, y7, n13, zs, n14, lx, n15, n16⟩ := h
    refine ⟨_, ⟨n1, ⟨y1, n2, n3⟩, ⟨y2, n4, n5⟩, ⟨y3, n6, ?_⟩, ⟨y4, n7, n8⟩, ⟨y5, n9, ?_⟩, ⟨y6, n11, ?_⟩, (readAux_iff (m := aux)).1 n12, ⟨y7, n13, ?_⟩, ?_⟩, bind_iff.2 ⟨lx, n15, n16⟩⟩
    · show (∃ t x, ShowsText y3 t ∧ rd t = some x ∧ y3.queryDouble rd (some 0) = some x) ∨ (∀ t, ShowsText y3 t → rd t = none) ∧ y3.queryDouble rd (some 0) = some 0
      unfold Node.queryDouble
      cases et : y3.getText with
      | none => exact .inr ⟨fun t ht => (by rw [← getText_iff, et] at ht; cases ht), rfl⟩
      | some t =>
        simp only
        cases er : rd t with
        | none => exact .inr ⟨fun t' ht => (by rw [← getText_iff, et] at ht; cases ht; exact er), rfl⟩
        | some x => exact .inl ⟨t, x, getText_iff.1 et, er, rfl⟩
    · rcases queryInt_iff.1 n10 with ⟨v, h, e⟩ | ⟨h, e⟩
      · cases e; exact .inl h
      · cases e; exact .inr ⟨h, rfl⟩
    · exact (names_iff (kids_elem y6)).1 rfl
    · exact n14
    · exact ⟨rfl, rfl, rfl, rfl, rfl, rfl⟩
  · rintro ⟨m, ⟨n1, ⟨y1, n2, n3⟩, ⟨y2, n4, n5⟩, ⟨y3, n6, hu⟩, ⟨y4, n7, n8⟩, ⟨y5, n9, ht⟩, ⟨y6, n11, hv⟩, ha, ⟨y7, n13, hz⟩, u1, u2, u3, u4, u5, u6⟩, h⟩
    have used : y3.queryDouble rd (some 0) = m.UsingTime := by
      unfold Node.queryDouble
      rcases hu with ⟨t, x, a, b, c⟩ | ⟨a, b⟩
      · rw [getText_iff.2 a, c]
        simp only
        rw [b]; rfl
      · rw [b]
        cases et : y3.getText with
        | none => rfl
        | some t =>
          simp only
          rw [a t (getText_iff.1 et)]; rfl
    have type : y5.queryInt (some (-1)) = .ok (some m.FileType) := by
      rcases ht with h | ⟨h, e⟩
      · exact queryInt_iff.2 (.inl ⟨_, h, rfl⟩)
      · rw [e]; exact queryInt_iff.2 (.inr ⟨h, rfl⟩)
    have vars := (names_iff (kids_elem y6)).2 hv
    obtain ⟨lx, h1, h2⟩ := bind_iff.1 h
    unfold FileLog.read_xml
    simp only [bind_iff, known_iff, toStr_iff, child_iff, getText_iff, attr_iff, elems_kids, zones_iff]
    refine ⟨_, n1, y1, n2, _, n3, y2, n4, _, n5, y3, n6, y4, n7, _, n8, y5, n9, _, type, _, rfl, y6, n11, _, readAux_iff.2 ha, y7, n13, _, hz, lx, ?_, h2⟩
    rw [← h1]
    refine congrArg (FileLog.gen_xml F) ?_
    have used' : y3.queryDouble rd FileLog.new.UsingTime = m.UsingTime := used
    rw [used', vars]
    obtain ⟨⟩ := m
    simp only at u1 u2 u3 u4 u5 u6
    subst u1; subst u2; subst u3; subst u4; subst u5; subst u6
    rfl

end Verif.Xml
