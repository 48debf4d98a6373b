import Verif.Proof.Clone2
import Verif.Props.Dom
import Mathlib.Tactic.IntervalCases
/-!
# Copying and comparing nodes and documents (C93)
-/
namespace Verif.Props
open Spec Xml Xml.Dom
open Tec (Str lit)

/-- a place that is free -/
noncomputable def somePlace (live : Nat → Bool) : Nat := by
  classical exact if h : ∃ a, live a = false then h.choose else 0

theorem somePlace_ok : NodePlaces somePlace := by
  intro live N h
  have : ∃ a, live a = false := ⟨N, h N le_rfl⟩
  unfold somePlace
  rw [dif_pos this]
  exact this.choose_spec

/-- `DeepClone` of a node that is not a document, into its own document (null) or into another one: the copy has the same tree, nothing else changes -/
theorem C93_deep {pick : Place} (hp : NodePlaces pick) {s : CDom} {F : Forest} (I : Is s.dom F) (S : Sound F s.what) {c d : Nat} {target : P} (hc : F.live c)
    (hcd : F.doc c ≠ c) (hd : F.live d) (hdd : F.doc d = d) (ht : target = some d ∨ target = none ∧ F.doc c = d) :
    ∃ N s' F' r, (∀ k, N ≤ k → DeepClone pick k target c s = .ok (some r) s') ∧ Is s'.dom F' ∧ Sound F' s'.what ∧ Grown F s.what F' s'.what d r ∧
      SameTree F'.K s'.what r F.K s.what c :=
  deepClone_run hp I S hc hcd hd hdd ht

/-- the copy and the original have no node in common -/
theorem C93_apart {pick : Place} (hp : NodePlaces pick) {s : CDom} {F : Forest} (I : Is s.dom F) (S : Sound F s.what) {c d : Nat} {target : P} (hc : F.live c)
    (hcd : F.doc c ≠ c) (hd : F.live d) (hdd : F.doc d = d) (ht : target = some d ∨ target = none ∧ F.doc c = d) :
    ∃ N s' F' r, (∀ k, N ≤ k → DeepClone pick k target c s = .ok (some r) s') ∧ Is s'.dom F' ∧ (∀ q, ¬ (Below F'.K q r ∧ Below F'.K q c)) ∧
      SameTree F'.K s'.what r F'.K s'.what c := by
  obtain ⟨N, s', F', r, e, I', _, G, T⟩ := deepClone_run hp I S hc hcd hd hdd ht
  refine ⟨N, s', F', r, e, I', fun q hq => ?_, fun n => ?_⟩
  · have h1 := below_closed (D := fun q => ¬ F.live q) G.closed hq.1 G.fresh
    refine h1 (below_closed (D := F.live) (fun a ha x hx => ?_) hq.2 hc)
    rw [(G.old a ha).2.2.1] at hx
    exact (I.live_kid hx).1
  · rw [T n]
    refine (treeAt_congr (D := F.live) (fun q hq x hx => (I.live_kid hx).1) (fun q hq => ?_) n c hc).symm
    exact ⟨(G.old q hq).2.2.1, (G.old q hq).2.2.2⟩

/-- of a document there is no copy: both `ShallowClone` and `DeepClone` return null -/
theorem C93_document {pick : Place} {s : CDom} {c : Nat} (target : P) (h : s.dom.live c = true) (hd : s.what c = .document) (k : Nat) :
    ShallowClone pick target c s = .ok none s ∧ DeepClone pick (k + 1) target c s = .ok none s := by
  have h1 : ShallowClone pick target c s = .ok none s := by
    unfold ShallowClone
    have h0 : hold c s = .ok .document s := by simp [hold, h, hd]
    rw [M.bind_ok h0]; rfl
  refine ⟨h1, ?_⟩
  unfold DeepClone
  rw [M.bind_ok h1]; rfl

/-- `DeepCopy` into another document: what that held is gone, its tree is that of the source, everything else is as it was -/
theorem C93_copy {pick : Place} (hp : NodePlaces pick) {s : CDom} {F : Forest} (I : Is s.dom F) (S : Sound F s.what) {this target : Nat} (h1 : F.live this)
    (h1d : F.doc this = this) (h2 : F.live target) (h2d : F.doc target = target) (hne : target ≠ this) :
    ∃ N s' F', (∀ k, N ≤ k → DeepCopy pick k this target s = .ok () s') ∧ Is s'.dom F' ∧ Sound F' s'.what ∧
      (∀ q, F.live q → F.doc q ≠ target → Untouched F s.what F' s'.what q) ∧ F'.live target ∧ F'.doc target = target ∧
      (∀ q, F'.live q → (F.live q ∧ F.doc q ≠ target) ∨ (F'.doc q = target ∧ Below F'.K q target)) ∧
      SameTree F'.K s'.what target F.K s.what this :=
  deepCopy_run hp I S h1 h1d h2 h2d hne

/-- into itself: nothing happens -/
theorem C93_copy_self (pick : Place) (k d : Nat) (s : CDom) : DeepCopy pick k d d s = .ok () s := by
  unfold DeepCopy
  rw [if_pos rfl]; rfl

/-- the nodes `ShallowEqual` takes for equal -/
theorem C93_equal (x y : Content) : x.shallowEqual y = true ↔ Alike x y := shallowEqual_iff x y

/-- A node and its copy are equal, and so are those which hold the same.  Documents are equal to nothing, not even to themselves. -/
theorem C93_equal_self (x : Content) : (x.shallowEqual x = true ↔ x ≠ .document) ∧ (∀ y, DistinctNames x → x.copy = some y → x = y ∧ x.shallowEqual y = true) := by
  have h1 : x.shallowEqual x = true ↔ x ≠ .document := by
    rw [shallowEqual_iff]
    constructor
    · rintro h rfl; cases h
    · intro h
      cases x with
      | document => exact absurd rfl h
      | element n as => exact .element rfl
      | text c v => exact .text
      | comment v => exact .comment
      | declaration v => exact .declaration
      | unknown v => exact .unknown
  refine ⟨h1, fun y hx hy => ?_⟩
  have hd : x ≠ .document := by rintro rfl; cases hy
  rw [copy_eq hx hd] at hy
  cases hy
  exact ⟨rfl, h1.mpr hd⟩

/-- equal nodes need not hold the same: the names of attributes do not count, nor whether a text is CDATA -/
theorem C93_equal_false :
    (Content.element (lit "Item") [(lit "x", lit "1"), (lit "y", lit "2")]).shallowEqual (.element (lit "Item") [(lit "y", lit "1"), (lit "z", lit "2")]) = true ∧
    (Content.text true (lit "a<b")).shallowEqual (.text false (lit "a<b")) = true := by decide +kernel

/-- what the nodes of the example hold -/
def cloneWhat (q : Nat) : Content :=
  if q = 0 ∨ q = 6 then .document
  else if q = 1 then .element (lit "Var") [(lit "name", lit "rho"), (lit "n", lit "3")]
  else if q = 2 then .comment (lit "first")
  else if q = 3 then .element (lit "Item") []
  else .text (q == 4) (lit "a<b")

/-- the example state: document 0 with element 1 with children 2, 3, 4; node 5 in no list; document 6 with a node 7 in no list -/
theorem cloneIs : ∃ (s : CDom) (F : Forest), Is s.dom F ∧ s.what = cloneWhat ∧ Sound F s.what ∧ F.K = domK ∧ (∀ q, F.live q ↔ q < 8) ∧
    F.doc = (fun q => if q = 6 ∨ q = 7 then 6 else 0) := by
  obtain ⟨s, F, I, e1, e2, e3⟩ := domIs
  refine ⟨⟨s, cloneWhat⟩, F, I, rfl, ?_, e1, e2, e3⟩
  intro q hq
  rw [e2] at hq
  rw [e3]
  interval_cases q <;> (constructor <;> first | decide +kernel | (simp [cloneWhat, DistinctNames]; try decide +kernel))

/-- element 1, copied into document 6: the copy is an element with three children that hold the same -/
example : ∃ (s : CDom) (F : Forest) (N : Nat) (s' : CDom) (F' : Forest) (r : Nat), Is s.dom F ∧ (∀ k, N ≤ k → DeepClone somePlace k (some 6) 1 s = .ok (some r) s') ∧ 8 ≤ r ∧ F'.doc r = 6 ∧
    s'.what r = cloneWhat 1 ∧ (F'.K r).map s'.what = [cloneWhat 2, cloneWhat 3, cloneWhat 4] ∧ F'.K 1 = [2, 3, 4] := by
  obtain ⟨s, F, I, e0, S, e1, e2, e3⟩ := cloneIs
  obtain ⟨N, s', F', r, e, I', _, G, T⟩ := C93_deep somePlace_ok I S (c := 1) (d := 6) (target := some 6) ((e2 1).mpr (by omega)) (by rw [e3]; decide) ((e2 6).mpr (by omega)) (by rw [e3]; decide) (.inl rfl)
  refine ⟨s, F, N, s', F', r, I, e, ?_, (G.new r G.live G.fresh).1, ?_, ?_, ?_⟩
  · have := G.fresh
    rw [e2] at this
    omega
  · have := T 0
    simp only [treeAt, CTree.node.injEq, and_true] at this
    rw [this, e0]
  · have := T 1
    simp only [treeAt, CTree.node.injEq, e0, e1] at this
    have h := congrArg (List.map fun t => match t with | CTree.node x _ => x) this.2
    simpa [domK, Function.comp_def] using h
  · rw [(G.old 1 ((e2 1).mpr (by omega))).2.2.1, e1]; rfl

/-- document 0, copied into document 6: node 7 is gone -/
example : ∃ (s : CDom) (F : Forest) (N : Nat) (s' : CDom) (F' : Forest), Is s.dom F ∧ (∀ k, N ≤ k → DeepCopy somePlace k 0 6 s = .ok () s') ∧
    (F'.K 6).map s'.what = [cloneWhat 1] ∧ F'.K 0 = [1] ∧ (F'.live 7 → Below F'.K 7 6) := by
  obtain ⟨s, F, I, e0, S, e1, e2, e3⟩ := cloneIs
  obtain ⟨N, s', F', e, I', _, U, _, _, L, T⟩ := C93_copy somePlace_ok I S (this := 0) (target := 6) ((e2 0).mpr (by omega)) (by rw [e3]; decide) ((e2 6).mpr (by omega)) (by rw [e3]; decide) (by decide)
  refine ⟨s, F, N, s', F', I, e, ?_, ?_, fun h => ?_⟩
  · have := T 1
    simp only [treeAt, CTree.node.injEq, e0, e1] at this
    have h := congrArg (List.map fun t => match t with | CTree.node x _ => x) this.2
    simpa [domK, Function.comp_def] using h
  · rw [(U 0 ((e2 0).mpr (by omega)) (by rw [e3]; decide)).2.2.1, e1]; rfl
  · rcases L 7 h with ⟨_, h⟩ | h
    · rw [e3] at h; exact absurd rfl h
    · exact h.2

end Verif.Props
