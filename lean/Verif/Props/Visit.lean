import Verif.Proof.Visit
import Verif.Props.Dom
/-!
# C109 — Visitors
-/
namespace Verif.Props
open Verif Spec Xml.Dom

/-- C109: whatever was done to the documents, `Accept` of any node, with any visitor, ends, is defined and changes no node.  It makes the calls of the visit of
that node over the lists of children, these alone, and answers what the last of them is answered. -/
theorem C109 {s : Dom} {F : Forest} (I : Is s F) (inner : Nat → Bool) (ans : Visitor) {c : Nat} (hc : F.live c) (h : List Call) :
    ∃ n l b, (∀ k, n ≤ k → Accept inner ans k c ⟨s, h⟩ = .ok b ⟨s, h ++ l⟩) ∧ ∀ l' b', Visits F.K inner ans h c l' b' ↔ l' = l ∧ b' = b := by
  obtain ⟨n, l, b, v, r⟩ := accept_run I inner ans c ((I.live c).2 hc) h
  exact ⟨n, l, b, r, fun l' b' => ⟨fun w => v.unique w, fun ⟨e1, e2⟩ => by subst e1; subst e2; exact v⟩⟩

/-- C109 (order): the first call is the one that opens the node, the last one the one that closes it, and its answer is the answer of `Accept`; which call
follows a call is fixed by the answer to it; no call is made twice; every `VisitEnter` has its `VisitExit`, also where a visit is cut short. -/
theorem C109_order {s : Dom} {F : Forest} (I : Is s F) {inner : Nat → Bool} {ans : Visitor} {c k : Nat} (hc : F.live c) {h : List Call} {b : Bool} {t : Tour}
    (hk : ∀ j, k ≤ j → Accept inner ans j c ⟨s, h⟩ = .ok b t) :
    ∃ l, t = ⟨s, h ++ l⟩ ∧ l.head? = some (opening inner c) ∧ (∃ l0, l = l0 ++ [closing inner c] ∧ b = ans (h ++ l0) (closing inner c)) ∧
      Following F.K inner ans h l ∧ l.Nodup ∧ Paired l ∧ ∀ x ∈ l, Toured F.K inner (nodeOf x) c := by
  obtain ⟨n, l, b', v, r'⟩ := accept_run I inner ans c ((I.live c).2 hc) h
  have e := (hk (max n k) (Nat.le_max_right _ _)).symm.trans (r' (max n k) (Nat.le_max_left _ _))
  injection e with e1 e2
  subst e1; subst e2
  exact ⟨l, rfl, v.ends.1, v.ends.2, v.following, visits_nodup I c v, by simpa using v.paired [] .nil, v.seen⟩

/-- C109 (the call behind a call): at most one. -/
theorem C109_follow {s : Dom} {F : Forest} (I : Is s F) {inner : Nat → Bool} {x y z : Call} {b : Bool}
    (h1 : Follow F.K inner x b y) (h2 : Follow F.K inner x b z) : y = z := by
  have par : ∀ {p q c : Nat}, c ∈ F.K p → c ∈ F.K q → p = q := fun hp hq => by
    have e1 := (I.shows.kid _ _ hp).2.1
    have e2 := (I.shows.kid _ _ hq).2.1
    rw [e1] at e2; injection e2
  have par2 : ∀ {p q c : Nat} {l l' r r' : List Nat}, F.K p = l ++ c :: r → F.K q = l' ++ c :: r' → p = q := fun {p q c l l' r r'} e e' =>
    par (c := c) (by rw [e]; simp) (by rw [e']; simp)
  have clo : ∀ {c d : Nat}, closing inner c = closing inner d → c = d := fun {c d} e => by
    unfold closing at e; split at e <;> split at e <;> cases e <;> rfl
  have noEnter : ∀ {c p : Nat}, closing inner c ≠ .enter p := fun {c p} e => by
    unfold closing at e; split at e <;> cases e
  have nxt : ∀ {p c d d' : Nat} {l l' r r' : List Nat}, F.K p = l ++ c :: d :: r → F.K p = l' ++ c :: d' :: r' → d = d' := fun e e' => by
    have a := (I.shows.out.next_mid e).2.1
    have b := (I.shows.out.next_mid e').2.1
    rw [a] at b; simpa using b
  have lst : ∀ {p c d : Nat} {l l' r : List Nat}, F.K p = l ++ c :: d :: r → F.K p = l' ++ [c] → False := fun e e' => by
    have a := (I.shows.out.next_mid e).2.1
    have b := (I.shows.out.next_mid e').2.1
    rw [a] at b; simp at b
  generalize hx : x = x' at h2
  generalize hb : b = b' at h2
  cases h1 with
  | down e => cases h2 with
    | down e' => cases hx; rw [e] at e'; injection e' with e' _; rw [e']
    | empty e' => cases hx; rw [e] at e'; cases e'
    | skip => cases hb
    | next _ => exact absurd hx.symm noEnter
    | up _ => exact absurd hx.symm noEnter
    | stop _ => cases hb
  | empty e => cases h2 with
    | down e' => cases hx; rw [e] at e'; cases e'
    | empty e' => cases hx; rfl
    | skip => cases hb
    | next _ => exact absurd hx.symm noEnter
    | up _ => exact absurd hx.symm noEnter
    | stop _ => cases hb
  | skip => cases h2 with
    | skip => cases hx; rfl
    | stop _ => exact absurd hx.symm noEnter
    | _ => cases hb
  | next e => cases h2 with
    | down _ => exact absurd hx noEnter
    | empty _ => exact absurd hx noEnter
    | next e' => cases clo hx; cases par2 e e'; rw [nxt e e']
    | up e' => cases clo hx; cases par2 e e'; exact (lst e e').elim
    | _ => cases hb
  | up e => cases h2 with
    | down _ => exact absurd hx noEnter
    | empty _ => exact absurd hx noEnter
    | next e' => cases clo hx; cases par2 e e'; exact (lst e' e).elim
    | up e' => cases clo hx; cases par2 e e'; rfl
    | _ => cases hb
  | stop e => cases h2 with
    | skip => exact absurd hx noEnter
    | stop e' => cases clo hx; rw [par e e']
    | _ => cases hb

/-- C109 (default answers): a visitor that always answers `true`, such as one without any implementation of its own, sees every node below `c` that is under
documents and elements only, once; the answer is `true`. -/
theorem C109_default {s : Dom} {F : Forest} (I : Is s F) (inner : Nat → Bool) {ans : Visitor} (T : ∀ h x, ans h x = true) {c : Nat} (hc : F.live c) (h : List Call) :
    ∃ n l, (∀ k, n ≤ k → Accept inner ans k c ⟨s, h⟩ = .ok true ⟨s, h ++ l⟩) ∧ l.Nodup ∧
      ∀ x, x ∈ l ↔ Toured F.K inner (nodeOf x) c ∧ (x = opening inner (nodeOf x) ∨ x = closing inner (nodeOf x)) := by
  obtain ⟨n, l, b, v, r⟩ := accept_run I inner ans c ((I.live c).2 hc) h
  obtain ⟨e, A⟩ := v.all I.wf T
  subst e
  refine ⟨n, l, r, visits_nodup I c v, fun x => ⟨fun hx => ⟨v.seen x hx, v.shape x hx⟩, fun ⟨hs, hx⟩ => ?_⟩⟩
  rcases hx with hx | hx <;> rw [hx]
  · exact (A _ hs).1
  · exact (A _ hs).2

/-- C109 (quitting): from the first `false` on, if only `false` follows, all there is left are calls of `VisitExit`. -/
theorem C109_quit {s : Dom} {F : Forest} (I : Is s F) (inner : Nat → Bool) {ans : Visitor} {m : Nat} (Q : ∀ g x, m ≤ g.length → ans g x = false) {c : Nat} (hc : F.live c) :
    ∃ n l b, (∀ k, n ≤ k → Accept inner ans k c ⟨s, []⟩ = .ok b ⟨s, l⟩) ∧ ∀ i x, m < i → l[i]? = some x → ∃ p, x = .exit p := by
  obtain ⟨n, l, b, v, r⟩ := accept_run I inner ans c ((I.live c).2 hc) []
  refine ⟨n, l, b, r, fun i x hi hx => ?_⟩
  obtain ⟨i, rfl⟩ : ∃ j, i = j + 1 := ⟨i - 1, by omega⟩
  obtain ⟨hlt, hx⟩ := List.getElem?_eq_some_iff.1 hx
  have e : l = l.take i ++ l[i] :: l[i + 1] :: l.drop (i + 2) := by
    rw [List.getElem_cons_drop, List.getElem_cons_drop, List.take_append_drop]
  have f := v.following _ _ _ _ e
  rw [Q _ _ (by simp; omega), hx] at f
  generalize l[i] = y at f
  cases f with
  | skip => exact ⟨_, rfl⟩
  | stop _ => exact ⟨_, rfl⟩

/-- all nodes of the sample are elements but 3, a text -/
def tourInner : Nat → Bool := fun c => c != 3

/-- `false` from `VisitEnter` of the node 2, else `true` -/
def tourAns : Visitor := fun _ x => x != .enter 2

theorem tourCalls : Visits domK tourInner tourAns [] 0 [.enter 0, .enter 1, .enter 2, .exit 2, .visit 3, .enter 4, .exit 4, .exit 1, .exit 0] true := by
  refine .inside (l := [.enter 1, .enter 2, .exit 2, .visit 3, .enter 4, .exit 4, .exit 1]) rfl rfl ?_
  refine .cons (l := [.enter 1, .enter 2, .exit 2, .visit 3, .enter 4, .exit 4, .exit 1]) (m := []) (c := 1) (cs := []) ?_ .nil
  refine .inside (l := [.enter 2, .exit 2, .visit 3, .enter 4, .exit 4]) rfl rfl ?_
  refine .cons (l := [.enter 2, .exit 2]) (m := [.visit 3, .enter 4, .exit 4]) (c := 2) (cs := [3, 4]) (.skip rfl rfl) ?_
  refine .cons (l := [.visit 3]) (m := [.enter 4, .exit 4]) (c := 3) (cs := [4]) (.leaf rfl) ?_
  exact .cons (l := [.enter 4, .exit 4]) (m := []) (c := 4) (cs := []) (.inside (l := []) rfl rfl .nil) .nil

/-- C109 (the comment of `XMLVisitor`, tinyxml2.h:453-454: after `false` "no children of this node or its siblings" are visited) is not so for `VisitEnter`:
its `false` skips the children; the siblings are visited unless `VisitExit` answers `false` as well. -/
theorem C109_comment : ¬ ∀ (s : Dom) (F : Forest) (inner : Nat → Bool) (ans : Visitor) (c k p d e : Nat) (b : Bool) (l l1 l2 : List Call), Is s F → F.live c →
    Accept inner ans k c ⟨s, []⟩ = .ok b ⟨s, l⟩ → l = l1 ++ .enter d :: l2 → ans l1 (.enter d) = false → d ∈ F.K p → e ∈ F.K p → opening inner e ∉ l2 := by
  intro H
  obtain ⟨s, F, I, e1, e2, e3⟩ := domIs
  obtain ⟨n, l, b, r, u⟩ := C109 I tourInner tourAns ((e2 0).2 (by decide)) []
  rw [e1] at u
  obtain ⟨hl, hb⟩ := (u _ _).1 tourCalls
  exact H s F tourInner tourAns 0 n 1 2 4 b l [.enter 0, .enter 1] [.exit 2, .visit 3, .enter 4, .exit 4, .exit 1, .exit 0] I ((e2 0).2 (by decide))
    (r n (Nat.le_refl _)) hl.symm rfl (by rw [e1]; decide) (by rw [e1]; decide) (by decide)

/-- the hypotheses of C109 are met: a document with an element with three children -/
example : ∃ s F n, Is s F ∧ F.live 0 ∧ ∀ k, n ≤ k → Accept tourInner tourAns k 0 ⟨s, []⟩ =
    .ok true ⟨s, [.enter 0, .enter 1, .enter 2, .exit 2, .visit 3, .enter 4, .exit 4, .exit 1, .exit 0]⟩ := by
  obtain ⟨s, F, I, e1, e2, e3⟩ := domIs
  obtain ⟨n, l, b, r, u⟩ := C109 I tourInner tourAns ((e2 0).2 (by decide)) []
  rw [e1] at u
  obtain ⟨hl, hb⟩ := (u _ _).1 tourCalls
  subst hl; subst hb
  exact ⟨s, F, n, I, (e2 0).2 (by decide), r⟩

/-- and of the others: answers that are all `true`, and a visitor that gives up after three calls -/
example : (∀ h x, defaultVisitor h x = true) ∧ (∀ g x, 3 ≤ g.length → (fun (g : List Call) (_ : Call) => decide (g.length < 3)) g x = false) ∧
    Visits domK tourInner (fun g _ => decide (g.length < 3)) [] 0 [.enter 0, .enter 1, .enter 2, .exit 2, .exit 1, .exit 0] false := by
  refine ⟨fun _ _ => rfl, fun g x h => by simpa using h, ?_⟩
  refine .inside (l := [.enter 1, .enter 2, .exit 2, .exit 1]) rfl rfl ?_
  refine .stop (c := 1) (cs := []) ?_
  refine .inside (l := [.enter 2, .exit 2]) rfl rfl ?_
  exact .stop (c := 2) (cs := [3, 4]) (.inside (l := []) rfl rfl .nil)

end Verif.Props
