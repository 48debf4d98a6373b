import Verif.Spec.Attr
import Mathlib.Tactic.ByContra
import Mathlib.Data.List.Nodup
import Mathlib.Data.List.Basic
/-!
# Linked lists of attributes
-/
namespace Verif.Attr
open Spec Xml.Attr

theorem rd_ok {α : Type} {f : Attrs → Nat → α} {s : Attrs} {a : Nat} (h : s.live a = true) : rd f (some a) s = .ok (f s a) s := by
  simp [rd, h]

theorem wr_ok {f : Nat → Attrs → Attrs} {s : Attrs} {a : Nat} (h : s.live a = true) : wr (some a) f s = .ok () (f a s) := by
  simp [wr, h]

theorem rdRoot_ok {s : Attrs} {e : Nat} (h : s.elem e = true) : rdRoot e s = .ok (s.root e) s := by simp [rdRoot, h]

theorem setRoot_ok {s : Attrs} {e : Nat} {p : P} (h : s.elem e = true) : setRoot e p s = .ok () { s with root := put s.root e p } := by
  simp [setRoot, h]

theorem put_same {α : Type} (f : Nat → α) (c : Nat) (v : α) : put f c v c = v := if_pos rfl
theorem put_ne {α : Type} (f : Nat → α) {c q : Nat} (v : α) (h : q ≠ c) : put f c v q = f q := if_neg h

/-- the text a pointer points to -/
def Points (s : Attrs) (c : CStr) (t : Str) : Prop := deref c s = .ok t s

theorem points_name {s : Attrs} {a : Nat} {t : Str} : Points s (.nameOf a) t ↔ s.live a = true ∧ s.name a = t := by
  unfold Points deref rd
  by_cases h : s.live a = true
  · simp [h]
  · simp [h]

theorem points_value {s : Attrs} {a : Nat} {t : Str} : Points s (.valueOf a) t ↔ s.live a = true ∧ s.value a = some t := by
  unfold Points deref
  dsimp only
  by_cases h : s.live a = true
  · rw [M.bind_ok (rd_ok h)]
    cases hv : s.value a with
    | none => simp [M.undef]
    | some u =>
      show (Res.ok u s = Res.ok t s) ↔ _
      simp [h]
  · have : rd Attrs.value (some a) s = .ub .dangling := by simp [rd, h]
    rw [M.bind_run, this]
    simp [h]

theorem points_text {s : Attrs} {t u : Str} : Points s (.text t) u ↔ t = u := by
  show (Res.ok t s = Res.ok u s) ↔ _
  simp

/-- a pointer to a text in use keeps it if the text is not touched -/
theorem Points.frame {s s' : Attrs} {c : CStr} {t : Str} (h : Points s c t)
    (H : ∀ a, s.live a = true → (c = .nameOf a → s'.live a = true ∧ s'.name a = s.name a) ∧ (c = .valueOf a → s'.live a = true ∧ s'.value a = s.value a)) :
    Points s' c t := by
  cases c with
  | text u => rw [points_text] at h ⊢; exact h
  | nameOf a =>
    rw [points_name] at h ⊢
    obtain ⟨h1, h2⟩ := (H a h.1).1 rfl
    exact ⟨h1, h2.trans h.2⟩
  | valueOf a =>
    rw [points_value] at h ⊢
    obtain ⟨h1, h2⟩ := (H a h.1).2 rfl
    exact ⟨h1, h2.trans h.2⟩

theorem nameIs_ok {s : Attrs} {c : CStr} {t : Str} {a : Nat} (h : Points s c t) (ha : s.live a = true) : nameIs c a s = .ok (s.name a == t) s := by
  unfold nameIs
  rw [M.bind_ok (rd_ok ha), M.bind_ok h]; rfl

/-- from `p` over `as` to `q` -/
def Seg (s : Attrs) : P → List Nat → P → Prop
  | p, [], q => p = q
  | some a, b :: l, q => a = b ∧ s.live a = true ∧ Seg s (s.next a) l q
  | none, _ :: _, _ => False

theorem linked_iff {s : Attrs} {p : P} {as : List Nat} : Linked s p as ↔ Seg s p as none := by
  induction as generalizing p with
  | nil => cases p <;> simp [Linked, Seg]
  | cons b l ih => cases p <;> simp [Linked, Seg, ih]

theorem seg_append {s : Attrs} {p q : P} {as bs : List Nat} : Seg s p (as ++ bs) q ↔ ∃ r, Seg s p as r ∧ Seg s r bs q := by
  induction as generalizing p with
  | nil => simp [Seg]
  | cons b l ih =>
    cases p with
    | none => simp [Seg]
    | some a =>
      simp only [List.cons_append, Seg, ih]
      constructor
      · rintro ⟨h1, h2, r, h3, h4⟩; exact ⟨r, ⟨h1, h2, h3⟩, h4⟩
      · rintro ⟨r, ⟨h1, h2, h3⟩, h4⟩; exact ⟨h1, h2, r, h3, h4⟩

theorem seg_head {s : Attrs} {p q : P} {a : Nat} {as : List Nat} (h : Seg s p (a :: as) q) : p = some a ∧ s.live a = true ∧ Seg s (s.next a) as q := by
  cases p with
  | none => exact h.elim
  | some b => obtain ⟨rfl, h⟩ := h; exact ⟨rfl, h⟩

theorem seg_live {s : Attrs} {p q : P} {as : List Nat} (h : Seg s p as q) : ∀ a ∈ as, s.live a = true := by
  induction as generalizing p with
  | nil => simp
  | cons b l ih =>
    obtain ⟨_, h1, h2⟩ := seg_head h
    intro a ha
    rcases List.mem_cons.mp ha with rfl | ha
    · exact h1
    · exact ih h2 a ha

theorem Seg.frame {s s' : Attrs} {p q : P} {as : List Nat} (h : Seg s p as q) (H : ∀ a ∈ as, s'.live a = s.live a ∧ s'.next a = s.next a) : Seg s' p as q := by
  induction as generalizing p with
  | nil => exact h
  | cons b l ih =>
    obtain ⟨rfl, h1, h2⟩ := seg_head h
    obtain ⟨e1, e2⟩ := H b (by simp)
    exact ⟨rfl, e1.trans h1, e2 ▸ ih h2 fun a ha => H a (by simp [ha])⟩

/-- `q` is put behind the last of `as` -/
theorem Seg.relink {s s' : Attrs} {p r q : P} {as : List Nat} {l : Nat} (h : Seg s p (as ++ [l]) r)
    (H : ∀ a ∈ as ++ [l], s'.live a = s.live a) (N : ∀ a ∈ as, s'.next a = s.next a) (Q : s'.next l = q) : Seg s' p (as ++ [l]) q := by
  obtain ⟨m, h1, h2⟩ := seg_append.mp h
  obtain ⟨rfl, h3, _⟩ := seg_head h2
  refine seg_append.mpr ⟨some l, h1.frame fun a ha => ⟨H a (by simp [ha]), N a ha⟩, rfl, (H l (by simp)).trans h3, ?_⟩
  exact Q

theorem rec_frame {s s' : Attrs} {a : Nat} {x : Att} (h : Rec s a x) (H : s'.live a = s.live a ∧ s'.name a = s.name a ∧ s'.value a = s.value a ∧ s'.owned a = s.owned a) :
    Rec s' a x := by
  obtain ⟨h1, h2, h3, h4⟩ := H
  unfold Rec
  rw [h1, h2, h3, h4]; exact h

theorem content_frame {s s' : Attrs} {as : List Nat} {l : List Att} (h : List.Forall₂ (Rec s) as l)
    (H : ∀ a ∈ as, s'.live a = s.live a ∧ s'.name a = s.name a ∧ s'.value a = s.value a ∧ s'.owned a = s.owned a) : List.Forall₂ (Rec s') as l := by
  induction h with
  | nil => exact .nil
  | cons h _ ih => exact .cons (rec_frame h (H _ (by simp))) (ih fun a ha => H a (by simp [ha]))

/-- there is no attribute with the name -/
theorem lookup_none {n : Str} {l : List Att} (h : lookup n l = none) : ∀ x ∈ l, x.name ≠ n := by
  induction l with
  | nil => simp
  | cons a l ih =>
    unfold lookup at h
    split at h
    · cases h
    · rename_i hn
      intro x hx
      rcases List.mem_cons.mp hx with rfl | hx
      · exact hn
      · exact ih h x hx

theorem lookup_some {n : Str} {l : List Att} {x : Att} (h : lookup n l = some x) : ∃ l1 l2, l = l1 ++ x :: l2 ∧ x.name = n ∧ ∀ y ∈ l1, y.name ≠ n := by
  induction l with
  | nil => cases h
  | cons a l ih =>
    unfold lookup at h
    split at h
    · rename_i hn
      obtain rfl := Option.some.inj h
      exact ⟨[], l, rfl, hn, by simp⟩
    · rename_i hn
      obtain ⟨l1, l2, rfl, h1, h2⟩ := ih h
      refine ⟨a :: l1, l2, rfl, h1, ?_⟩
      intro y hy
      rcases List.mem_cons.mp hy with rfl | hy
      · exact hn
      · exact h2 y hy

theorem assign_none {n v : Str} {l : List Att} (h : ∀ x ∈ l, x.name ≠ n) : assign n v l = l ++ [⟨n, v, true⟩] := by
  induction l with
  | nil => rfl
  | cons a l ih =>
    unfold assign
    rw [if_neg (h a (by simp)), ih fun x hx => h x (by simp [hx])]; rfl

theorem assign_some {n v : Str} {l1 l2 : List Att} {x : Att} (h : ∀ y ∈ l1, y.name ≠ n) (hx : x.name = n) :
    assign n v (l1 ++ x :: l2) = l1 ++ ⟨n, v, true⟩ :: l2 := by
  induction l1 with
  | nil =>
    show (if x.name = n then _ else _) = _
    rw [if_pos hx]; rfl
  | cons a l ih =>
    rw [List.cons_append]
    unfold assign
    rw [if_neg (h a (by simp)), ih fun x hx => h x (by simp [hx])]; rfl

theorem without_none {n : Str} {l : List Att} (h : ∀ x ∈ l, x.name ≠ n) : without n l = l := by
  unfold without
  rw [List.filter_eq_self]
  intro x hx
  simpa using h x hx

theorem without_some {n : Str} {l1 l2 : List Att} {x : Att} (hx : x.name = n) (h : ((l1 ++ x :: l2).map Att.name).Nodup) :
    without n (l1 ++ x :: l2) = l1 ++ l2 := by
  rw [List.map_append, List.map_cons, List.nodup_append] at h
  obtain ⟨h1, h2, h3⟩ := h
  rw [List.nodup_cons] at h2
  have e1 := without_none (n := n) (l := l1) fun y hy e => h3 y.name (List.mem_map_of_mem hy) x.name (by simp) (e.trans hx.symm)
  have e2 := without_none (n := n) (l := l2) fun y hy e => h2.1 (by rw [hx, ← e]; exact List.mem_map_of_mem hy)
  unfold without at e1 e2 ⊢
  rw [List.filter_append, List.filter_cons, e1, e2]
  simp [hx]

/-- the places split as the attributes do -/
theorem content_split {s : Attrs} {as : List Nat} {l1 l2 : List Att} {x : Att} (h : List.Forall₂ (Rec s) as (l1 ++ x :: l2)) :
    ∃ as1 a as2, as = as1 ++ a :: as2 ∧ List.Forall₂ (Rec s) as1 l1 ∧ Rec s a x ∧ List.Forall₂ (Rec s) as2 l2 := by
  induction l1 generalizing as with
  | nil =>
    cases h with
    | cons h1 h2 => exact ⟨[], _, _, rfl, .nil, h1, h2⟩
  | cons y l ih =>
    cases h with
    | cons h1 h2 =>
      obtain ⟨as1, a, as2, rfl, e1, e2, e3⟩ := ih h2
      exact ⟨_ :: as1, a, as2, rfl, .cons h1 e1, e2, e3⟩

/-- the loops pass attributes with other names -/
theorem seek_pass {s : Attrs} {c : CStr} {t : Str} {last p q : P} {as : List Nat} {l : List Att} {n : Nat} (hc : Points s c t) (h : Seg s p as q)
    (hl : List.Forall₂ (Rec s) as l) (hn : ∀ y ∈ l, y.name ≠ t) :
    seek c (n + as.length) last p s = seek c n (if as = [] then last else as.getLast?) q s ∧ findLoop c (n + as.length) p s = findLoop c n q s := by
  induction hl generalizing p last with
  | nil => obtain rfl := h; exact ⟨rfl, rfl⟩
  | @cons a x as l h1 h2 ih =>
    obtain ⟨rfl, h3, h4⟩ := seg_head h
    have hx : (s.name a == t) = false := by
      rw [h1.2.1]
      exact beq_false_of_ne (hn x (by simp))
    obtain ⟨i1, i2⟩ := ih (last := some a) h4 fun y hy => hn y (by simp [hy])
    have e : n + (a :: as).length = (n + as.length) + 1 := by simp; omega
    rw [e]
    constructor
    · conv_lhs => unfold seek
      rw [M.bind_ok (nameIs_ok hc h3), hx]
      simp only [Bool.false_eq_true, if_false]
      rw [M.bind_ok (rd_ok h3), i1]
      cases as with
      | nil => rfl
      | cons b as => simp
    · conv_lhs => unfold findLoop
      rw [M.bind_ok (nameIs_ok hc h3), hx]
      simp only [Bool.false_eq_true, if_false]
      rw [M.bind_ok (rd_ok h3), i2]

theorem seek_none {s : Attrs} {c : CStr} {t : Str} {p : P} {as : List Nat} {l : List Att} {n : Nat} (hc : Points s c t) (h : Linked s p as)
    (hl : List.Forall₂ (Rec s) as l) (hn : ∀ y ∈ l, y.name ≠ t) (hk : as.length < n) :
    seek c n none p s = .ok (as.getLast?, none) s ∧ findLoop c n p s = .ok none s := by
  obtain ⟨m, rfl⟩ : ∃ m, n = (m + 1) + as.length := ⟨n - as.length - 1, by omega⟩
  obtain ⟨h1, h2⟩ := seek_pass (n := m + 1) (last := none) hc (linked_iff.mp h) hl hn
  rw [h1, h2]
  refine ⟨?_, rfl⟩
  cases as <;> rfl

theorem seek_some {s : Attrs} {c : CStr} {t : Str} {p : P} {as1 as2 : List Nat} {a : Nat} {l : List Att} {x : Att} {n : Nat} (hc : Points s c t)
    (h : Linked s p (as1 ++ a :: as2)) (hl : List.Forall₂ (Rec s) as1 l) (hn : ∀ y ∈ l, y.name ≠ t) (hx : Rec s a x) (ht : x.name = t)
    (hk : (as1 ++ a :: as2).length < n) :
    seek c n none p s = .ok (as1.getLast?, some a) s ∧ findLoop c n p s = .ok (some a) s := by
  rw [List.length_append, List.length_cons] at hk
  obtain ⟨m, rfl⟩ : ∃ m, n = (m + 1) + as1.length := ⟨n - as1.length - 1, by omega⟩
  obtain ⟨q, s1, s2⟩ := seg_append.mp (linked_iff.mp h)
  obtain ⟨rfl, ha, _⟩ := seg_head s2
  obtain ⟨h1, h2⟩ := seek_pass (n := m + 1) (last := none) hc s1 hl hn
  have hb : (s.name a == t) = true := by rw [hx.2.1, ht]; simp
  rw [h1, h2]
  constructor
  · unfold seek
    rw [M.bind_ok (nameIs_ok hc ha), hb]
    cases as1 <;> rfl
  · unfold findLoop
    rw [M.bind_ok (nameIs_ok hc ha), hb]; rfl

end Verif.Attr
