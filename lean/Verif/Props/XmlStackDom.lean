import Verif.Proof.XmlStackDom3
import Verif.Props.XmlClone
/-!
# C117: how much stack deleting and copying need
-/
namespace Verif.Props
open Spec Xml Xml.Dom
open Tec (Str lit)

/-- C117 (deleting): with room for `r` calls in each other a node is deleted as with an endless stack if there are no `r` steps below it; otherwise the stack is exhausted -/
theorem C117_node {s : Dom} {F : Forest} (I : Is s F) {a : Nat} (h : F.live a) (hd : F.doc a ≠ a) (r : Nat) :
    (¬ Deep F.K r a → ∃ n s', ∀ k, n ≤ k → docDeleteNodeS r k a s = .ok () s' ∧ docDeleteNode k a s = .ok () s') ∧
    (Deep F.K r a → ∃ n, ∀ k, n ≤ k → docDeleteNodeS r k a s = .ub .overflow) := by
  obtain ⟨good, bad⟩ := docDelS I.shows.out I.wf ((I.live a).mpr h) (by rw [I.doc]; exact hd) r
  refine ⟨fun h => ?_, bad⟩
  obtain ⟨n, s', e⟩ := good h
  exact ⟨n, s', fun k hk => ⟨e k hk, docDelS_same (e k hk)⟩⟩

/-- C117 (documents): so with emptying and destroying a document, if no node of it, in its tree or not, has `r` steps below it -/
theorem C117_document {s : Dom} {F : Forest} (I : Is s F) {d : Nat} (h : F.live d) (hd : F.doc d = d) (r : Nat) :
    (Shallow F r d → (∃ n s', ∀ k, n ≤ k → ClearS r k d s = .ok () s' ∧ Clear k d s = .ok () s') ∧
      ∃ n s', ∀ k, n ≤ k → deleteDocumentS r k d s = .ok () s' ∧ deleteDocument k d s = .ok () s') ∧
    (¬ Shallow F r d → ∃ n, ∀ k, n ≤ k → ClearS r k d s = .ub .overflow ∧ deleteDocumentS r k d s = .ub .overflow) := by
  obtain ⟨g1, b1⟩ := clearS_run I h hd r
  obtain ⟨g2, b2⟩ := delDocS_run I h hd r
  refine ⟨fun hs => ⟨?_, ?_⟩, fun hs => ?_⟩
  · obtain ⟨n, s', e⟩ := g1 hs
    exact ⟨n, s', fun k hk => ⟨e k hk, clearS_same (e k hk)⟩⟩
  · obtain ⟨n, s', e⟩ := g2 hs
    exact ⟨n, s', fun k hk => ⟨e k hk, delDocS_same (e k hk)⟩⟩
  · obtain ⟨n1, e1⟩ := b1 hs
    obtain ⟨n2, e2⟩ := b2 hs
    exact ⟨n1 + n2, fun k hk => ⟨e1 k (by omega), e2 k (by omega)⟩⟩

/-- C117 (copying a node) -/
theorem C117_clone {pick : Place} (hp : NodePlaces pick) {s : CDom} {F : Forest} (I : Is s.dom F) (S : Sound F s.what) {c d : Nat} {target : P} (hc : F.live c)
    (hcd : F.doc c ≠ c) (hd : F.live d) (hdd : F.doc d = d) (ht : target = some d ∨ target = none ∧ F.doc c = d) (r : Nat) :
    (¬ Deep F.K r c → ∃ n s' a, ∀ k, n ≤ k → DeepCloneS pick r k target c s = .ok (some a) s' ∧ DeepClone pick k target c s = .ok (some a) s') ∧
    (Deep F.K r c → ∃ n, ∀ k, n ≤ k → DeepCloneS pick r k target c s = .ub .overflow) := by
  obtain ⟨good, bad⟩ := cloneNodeS hp I.wf c target d s F r I (I.has S hc hcd) hd hdd ht
  refine ⟨fun h => ?_, bad⟩
  obtain ⟨n, s', F', a, e, _⟩ := good h
  exact ⟨n, s', a, fun k hk => ⟨e k hk, (cloneS_same k r).1 _ _ _ _ _ (e k hk)⟩⟩

/-- C117 (copying a document): what the target held is deleted, and the children of the source are copied; both must fit -/
theorem C117_copy {pick : Place} (hp : NodePlaces pick) {s : CDom} {F : Forest} (I : Is s.dom F) (S : Sound F s.what) {this target : Nat} (h1 : F.live this)
    (h1d : F.doc this = this) (h2 : F.live target) (h2d : F.doc target = target) (hne : target ≠ this) (r : Nat) :
    (Shallow F r target → ¬ Deep F.K (r + 1) this → ∃ n s', ∀ k, n ≤ k → DeepCopyS pick r k this target s = .ok () s' ∧ DeepCopy pick k this target s = .ok () s') ∧
    (¬ Shallow F r target ∨ Deep F.K (r + 1) this → ∃ n, ∀ k, n ≤ k → DeepCopyS pick r k this target s = .ub .overflow) := by
  obtain ⟨good, bad⟩ := deepCopyS_run hp I S h1 h1d h2 h2d hne r
  refine ⟨fun ha hb => ?_, bad⟩
  obtain ⟨n, s', e⟩ := good ha fun x hx h => hb ⟨x, hx, h⟩
  exact ⟨n, s', fun k hk => ⟨e k hk, deepCopyS_same (e k hk)⟩⟩

/-- a document with one node in the other, as often as one likes -/
theorem chainIs (n : Nat) : ∃ s F, Is s F ∧ (∀ q, F.live q ↔ q ≤ n) ∧ (∀ q, q ≤ n → F.doc q = 0) ∧ ∀ q, F.K q = if q < n then [q + 1] else [] := by
  induction n with
  | zero =>
    obtain ⟨m, s', r, I⟩ := is_nothing.exec (.newDocument 0) (by simp [DOp.may, Forest.empty])
    exact ⟨s', _, I, by simp [DOp.step, Forest.empty], by simp [DOp.step, put], by simp [DOp.step, Forest.empty]⟩
  | succ n ih =>
    obtain ⟨s, F, I, h1, h2, h3⟩ := ih
    obtain ⟨m, s1, _, I1⟩ := I.exec (.newNode 0 (n + 1)) ⟨(h1 0).mpr (by omega), h2 0 (by omega), by rw [h1]; omega⟩
    have g1 : ∀ q, ((DOp.newNode 0 (n + 1)).step F).1.live q ↔ q ≤ n + 1 := by
      intro q
      show F.live q ∨ q = n + 1 ↔ _
      rw [h1]; omega
    have g2 : ∀ q, q ≤ n + 1 → ((DOp.newNode 0 (n + 1)).step F).1.doc q = 0 := by
      intro q hq
      show put F.doc (n + 1) 0 q = 0
      unfold put
      split
      · rfl
      · exact h2 q (by omega)
    have g3 : ((DOp.newNode 0 (n + 1)).step F).1.K = F.K := rfl
    generalize ((DOp.newNode 0 (n + 1)).step F).1 = F1 at I1 g1 g2 g3
    have e : F1.doc (n + 1) = F1.doc n := by rw [g2 _ (by omega), g2 _ (by omega)]
    have nb : ¬ Below F1.K n (n + 1) := not_below (by omega) (by rw [g3, h3, if_neg (by omega)])
    obtain ⟨m, s2, _, I2⟩ := I1.exec (.insertEnd n (n + 1)) ⟨(g1 n).mpr (by omega), (g1 _).mpr (by omega), fun _ => ⟨by rw [g2 _ (by omega)]; omega, nb⟩⟩
    simp only [DOp.step, if_pos e] at I2
    refine ⟨s2, _, I2, g1, g2, fun q => ?_⟩
    show moved F1.K (n + 1) n (· ++ [n + 1]) q = _
    unfold moved
    rw [g3, h3]
    by_cases h : q = n
    · subst h; simp
    · rw [if_neg h]
      by_cases h' : q < n
      · rw [if_pos h', if_pos (by omega), List.erase_of_not_mem (by simp; omega)]
      · rw [if_neg h', if_neg (by omega)]; rfl

/-- C117 is false in general: on every stack there is a document that can be built, and that exhausts it when it is destroyed -/
theorem C117_false (r : Nat) : ∃ s F, Is s F ∧ F.live 0 ∧ F.doc 0 = 0 ∧ ∃ n, ∀ k, n ≤ k → deleteDocumentS r k 0 s = .ub .overflow ∧ ∃ s', deleteDocument k 0 s = .ok () s' := by
  obtain ⟨s, F, I, h1, h2, h3⟩ := chainIs (r + 1)
  have h0 := (h1 0).mpr (by omega)
  have d0 := h2 0 (by omega)
  have deep : ∀ m q, q + m ≤ r + 1 → Deep F.K m q := by
    intro m
    induction m with
    | zero => intro q _; trivial
    | succ m ih => intro q hq; exact ⟨q + 1, by rw [h3, if_pos (by omega)]; simp, ih (q + 1) (by omega)⟩
  have ns : ¬ Shallow F r 0 := fun h => h 1 ((h1 1).mpr (by omega)) (by omega) (h2 1 (by omega)) (deep r 1 (by omega))
  obtain ⟨n, e⟩ := (C117_document I h0 d0 r).2 ns
  obtain ⟨n', s', e', _⟩ := (C86_document I h0 d0).2
  exact ⟨s, F, I, h0, d0, n + n', fun k hk => ⟨(e k (by omega)).2, s', e' k (by omega)⟩⟩

/-- element 1 with its three children needs room for two calls, to be deleted and to be copied; document 0, in which it is, too -/
example : ∃ (s : CDom) (F : Forest), Is s.dom F ∧
    (∃ n, ∀ k, n ≤ k → docDeleteNodeS 1 k 1 s.dom = .ub .overflow) ∧ (∃ n s', ∀ k, n ≤ k → docDeleteNodeS 2 k 1 s.dom = .ok () s') ∧
    (∃ n, ∀ k, n ≤ k → DeepCloneS somePlace 1 k (some 6) 1 s = .ub .overflow) ∧ (∃ n s' a, ∀ k, n ≤ k → DeepCloneS somePlace 2 k (some 6) 1 s = .ok (some a) s') ∧
    (∃ n, ∀ k, n ≤ k → DeepCopyS somePlace 1 k 0 6 s = .ub .overflow) ∧ (∃ n s', ∀ k, n ≤ k → DeepCopyS somePlace 2 k 0 6 s = .ok () s') ∧
    (∃ n, ∀ k, n ≤ k → deleteDocumentS 1 k 0 s.dom = .ub .overflow) ∧ (∃ n s', ∀ k, n ≤ k → deleteDocumentS 2 k 0 s.dom = .ok () s') := by
  obtain ⟨s, F, I, e0, S, e1, e2, e3⟩ := cloneIs
  have h0 := (e2 0).mpr (by omega)
  have h1 := (e2 1).mpr (by omega)
  have h6 := (e2 6).mpr (by omega)
  have d0 : F.doc 0 = 0 := by rw [e3]; decide
  have d1 : F.doc 1 ≠ 1 := by rw [e3]; decide
  have d6 : F.doc 6 = 6 := by rw [e3]; decide
  have t1 : Deep F.K 1 1 := ⟨2, by rw [e1]; decide, trivial⟩
  have t0 : Deep F.K 2 0 := ⟨1, by rw [e1]; decide, t1⟩
  have no : ∀ q, q ≠ 0 → ¬ Deep F.K 2 q := by
    rintro q hq ⟨x, hx, y, hy, _⟩
    rw [e1] at hx hy
    unfold domK at hx hy
    rw [if_neg hq] at hx
    split at hx
    · have : x ≠ 0 ∧ x ≠ 1 := by simp at hx; omega
      rw [if_neg this.1, if_neg this.2] at hy
      cases hy
    · cases hx
  have n1 := no 1 (by omega)
  have n0 : ¬ Deep F.K 3 0 := by
    rintro ⟨x, hx, h⟩
    refine no x (fun e => ?_) h
    rw [e1, e] at hx
    revert hx; decide
  have sh0 : Shallow F 2 0 := fun q _ hne _ => no q hne
  have nsh : ¬ Shallow F 1 0 := fun h => h 1 h1 (by decide) (by rw [e3]; decide) t1
  have sh6 : ∀ r, 1 ≤ r → Shallow F r 6 := by
    intro r hr q hq hne hqd
    obtain ⟨r, rfl⟩ : ∃ i, r = i + 1 := ⟨r - 1, by omega⟩
    rintro ⟨x, hx, _⟩
    rw [e3] at hqd
    rw [e1] at hx
    unfold domK at hx
    (repeat' split at hx) <;> simp_all
  have a1 := C117_node I h1 d1
  have a2 := C117_clone somePlace_ok I S h1 d1 h6 d6 (.inl rfl)
  have a3 := C117_copy somePlace_ok I S h0 d0 h6 d6 (by decide)
  have a4 := C117_document I h0 d0
  refine ⟨s, F, I, (a1 1).2 t1, ?_, (a2 1).2 t1, ?_, (a3 1).2 (.inr t0), ?_, ?_, ?_⟩
  · obtain ⟨n, s', e⟩ := (a1 2).1 n1
    exact ⟨n, s', fun k hk => (e k hk).1⟩
  · obtain ⟨n, s', a, e⟩ := (a2 2).1 n1
    exact ⟨n, s', a, fun k hk => (e k hk).1⟩
  · obtain ⟨n, s', e⟩ := (a3 2).1 (sh6 2 (by omega)) n0
    exact ⟨n, s', fun k hk => (e k hk).1⟩
  · obtain ⟨n, e⟩ := (a4 1).2 nsh
    exact ⟨n, fun k hk => (e k hk).2⟩
  · obtain ⟨n, s', e⟩ := ((a4 2).1 sh0).2
    exact ⟨n, s', fun k hk => (e k hk).1⟩

end Verif.Props
