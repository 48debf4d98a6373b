import Verif.Proof.Attr4
import Verif.Model.Xml.Number
/-!
# C92: the attributes of elements
-/
namespace Verif.Props
open Verif Spec Xml.Attr Verif.Attr

/-- whatever calls a program makes on any number of elements: no undefined behaviour, and the lists of attributes are what the calls say -/
theorem C92_runs {pick : Pick} (hp : Picks pick) {ops : List AOp} {A : Elems} (h : ACalls noElems ops A) :
    ∃ N s L, (∀ k, N ≤ k → aExecAll pick k ops noAttrs = .ok () s) ∧ AShows s A L := execAll_shows hp h shows_nothing

/-- a single call from any such state -/
theorem C92_call {pick : Pick} (hp : Picks pick) {s : Attrs} {A : Elems} {L : Nat → List Nat} (S : AShows s A L) (op : AOp) (h : op.may A) :
    ∃ N s' L', (∀ k, N ≤ k → op.exec pick k s = .ok () s') ∧ AShows s' (op.step A) L' := S.exec hp op h

/-- whether a repeated name is seen while loading -/
theorem C92_parse {pick : Pick} (hp : Picks pick) {s : Attrs} {A : Elems} {L : Nat → List Nat} (S : AShows s A L) {e : Nat} (he : A e = some [])
    (r : List (Str × Str)) :
    ∃ N s' L', (∀ k, N ≤ k → ParseAttributes pick k e none r s = .ok (decide (r.map Prod.fst).Nodup) s') ∧
      AShows s' (A.upd e (some (taken [] r).1)) L' ∧ ((r.map Prod.fst).Nodup → (taken [] r).1 = r.map fun x => ⟨x.1, x.2, false⟩) := by
  have main : ∀ (r : List (Str × Str)) (l : List Att), (l.map Att.name).Nodup →
      ((taken l r).2 = decide (l.map Att.name ++ r.map Prod.fst).Nodup) ∧
      ((l.map Att.name ++ r.map Prod.fst).Nodup → (taken l r).1 = l ++ r.map fun x => ⟨x.1, x.2, false⟩) := by
    intro r
    induction r with
    | nil => intro l hl; simp [taken, hl]
    | cons nv r ih =>
      intro l hl
      obtain ⟨n, v⟩ := nv
      unfold taken
      cases hx : lookup n l with
      | some x =>
        obtain ⟨l1, l2, rfl, h1, h2⟩ := lookup_some hx
        have hd : ¬ ((l1 ++ x :: l2).map Att.name ++ ((n, v) :: r).map Prod.fst).Nodup := by
          intro h
          rw [List.nodup_append] at h
          exact h.2.2 x.name (by simp) n (by simp) h1
        refine ⟨?_, fun h => absurd h hd⟩
        rw [decide_eq_false hd]; rfl
      | none =>
        have hn := lookup_none hx
        have hl' : ((l ++ [(⟨n, v, false⟩ : Att)]).map Att.name).Nodup := by
          rw [List.map_append, List.nodup_append]
          refine ⟨hl, by simp, ?_⟩
          intro a ha b hb h
          obtain ⟨y, hy, rfl⟩ := List.mem_map.mp ha
          simp only [List.map_cons, List.map_nil, List.mem_singleton] at hb
          exact hn y hy (h.trans hb)
        obtain ⟨i1, i2⟩ := ih _ hl'
        rw [if_neg (by simp)]
        have e : ((l ++ [(⟨n, v, false⟩ : Att)]).map Att.name) ++ r.map Prod.fst = l.map Att.name ++ ((n, v) :: r).map Prod.fst := by simp
        rw [e] at i1 i2
        refine ⟨i1, fun h => ?_⟩
        rw [i2 h]; simp
  have hL : L e = [] := List.forall₂_nil_right_iff.mp (S.content e [] he)
  obtain ⟨s', L', r1, S'⟩ := AShows.parse hp r S he (Nat.lt_succ_self _)
  rw [hL] at r1
  obtain ⟨m1, m2⟩ := main r [] List.nodup_nil
  refine ⟨(([] : List Nat).length + r.length).succ, s', L', fun k hk => ?_, S', fun h => m2 h⟩
  have rk : ParseAttributes pick k e none r s = .ok (taken [] r).2 s' := r1 k hk
  rw [rk, m1]; rfl

/-- `FindAttribute` and `Attribute`: the attribute with the name, if there is one; the pointers give its name and value -/
theorem C92_find {s : Attrs} {A : Elems} {L : Nat → List Nat} (S : AShows s A L) {e : Nat} {l : List Att} (he : A e = some l) (t : Str) (u : Option Str)
    {k : Nat} (hk : (L e).length < k) :
    match lookup t l with
    | none => FindAttribute k e (.text t) s = .ok none s ∧ Attribute k e (.text t) (u.map .text) s = .ok none s
    | some x => ∃ a, FindAttribute k e (.text t) s = .ok (some a) s ∧ deref (.nameOf a) s = .ok t s ∧ deref (.valueOf a) s = .ok x.value s ∧
        Attribute k e (.text t) (u.map .text) s = .ok (if u = none ∨ u = some x.value then some (.valueOf a) else none) s := by
  rcases S.find he (points_text.mpr rfl : Points s (.text t) t) hk with ⟨h0, _, h1, _⟩ | ⟨x, l1, l2, as1, a, as2, h1, h2, h3, h4, h5, h6, h7, h8, h9, h10⟩
  · rw [h0]
    refine ⟨h1, ?_⟩
    unfold Attribute
    rw [M.bind_ok h1]; rfl
  · rw [h1]
    refine ⟨a, h9, points_name.mpr ⟨h7.1, h7.2.1.trans h2⟩, points_value.mpr ⟨h7.1, h7.2.2.1⟩, ?_⟩
    unfold Attribute
    rw [M.bind_ok h9]
    cases u with
    | none => rfl
    | some w =>
      show (deref (.valueOf a) >>= fun t => deref (.text w) >>= fun u => (pure (if t = u then some (CStr.valueOf a) else none) : M Attrs (Option CStr))) s = _
      rw [M.bind_ok (points_value.mpr ⟨h7.1, h7.2.2.1⟩ : Points s (.valueOf a) x.value), M.bind_ok (points_text.mpr rfl : Points s (.text w) w)]
      by_cases hw : x.value = w
      · simp [hw]
      · rw [if_neg hw, if_neg (by simpa using fun h => hw h.symm)]; rfl

/-- the loop over all attributes of an element -/
theorem C92_all {s : Attrs} {A : Elems} {L : Nat → List Nat} (S : AShows s A L) {e : Nat} {l : List Att} (he : A e = some l)
    {k : Nat} (hk : (L e).length < k) : AllAttributes k e s = .ok (l.map fun x => (x.name, x.value)) s ∧ (l.map Att.name).Nodup := by
  have hel : s.elem e = true := by rw [S.elem, he]; rfl
  refine ⟨?_, S.names e l he⟩
  unfold AllAttributes
  rw [M.bind_ok (rdRoot_ok hel)]
  exact walk_ok (S.linked e hel) (S.content e l he) hk

/-- with the elements go their attributes -/
theorem C92_no_leak {s : Attrs} {A : Elems} {L : Nat → List Nat} (S : AShows s A L) (h : ∀ e, A e = none) : ∀ a, s.live a = false := by
  intro a
  cases ha : s.live a with
  | false => rfl
  | true =>
    obtain ⟨e, he⟩ := S.used a ha
    rw [S.gone e (h e)] at he; cases he

/-- `e->SetAttribute( n, e->Attribute( n ) )` of a value set by a call: it is freed before it is read -/
theorem C92_self {pick : Pick} {s : Attrs} {A : Elems} {L : Nat → List Nat} (S : AShows s A L) {e : Nat} {n v : Src} {t : Str}
    (hn : n.get A = some t) (h : v.isValueOf A e t) : ∃ N, ∀ k, N ≤ k → (AOp.set e n v).exec pick k s = .ub .dangling := by
  obtain ⟨x, rfl, h1, h2⟩ := h
  obtain ⟨l, he, h1⟩ := Option.bind_eq_some_iff.mp h1
  have hel : s.elem e = true := by rw [S.elem, he]; rfl
  obtain ⟨N1, c1, r1, p1, _⟩ := S.ptr hn
  refine ⟨N1 + (L e).length + 1, fun k hk => ?_⟩
  rcases S.find he (points_text.mpr rfl : Points s (.text t) t) (show (L e).length < k by omega) with ⟨f, _⟩ | ⟨x', l1', l2', as1', a, as2', g1, g2, g3, g4, g5, g6, g7, g8, g9, g10⟩
  · rw [h1] at f; cases f
  rw [h1] at g1; cases g1
  rcases S.find he p1 (show (L e).length < k by omega) with ⟨f, _⟩ | ⟨y, _, _, as1, b, as2, f1, f2, f3, f4, f5, f6, f7, f8, f9, f10⟩
  · rw [h1] at f; cases f
  have hb : b = a := S.same he (by rw [f5]; simp) (by rw [g5]; simp) (by rw [f7.2.1, g7.2.1, f2, g2])
  subst hb
  show (n.ptr k >>= fun n => (Src.value e t).ptr k >>= fun v => SetAttribute pick k e n v) s = _
  have hv : (Src.value e t).ptr k s = .ok (.valueOf b) s := by
    unfold Src.ptr
    dsimp only
    rw [M.bind_ok g9]; rfl
  rw [M.bind_ok (r1 k (by omega)), M.bind_ok hv]
  unfold SetAttribute FindOrCreateAttribute
  rw [bind_assoc, M.bind_ok (rdRoot_ok hel), bind_assoc, M.bind_ok f10]
  exact setValue_self g7.1 (g7.2.2.2.trans h2)

/-- an element that is gone may not be used, nor may an attribute -/
theorem C92_dangling {s : Attrs} {e : Nat} (h : s.elem e = false) (pick : Pick) (k : Nat) (n v : CStr) :
    FindAttribute k e n s = .ub .dangling ∧ SetAttribute pick k e n v s = .ub .dangling ∧ DeleteAttribute k e n s = .ub .dangling := by
  have hr : rdRoot e s = .ub .dangling := by simp [rdRoot, h]
  refine ⟨?_, ?_, ?_⟩
  · unfold FindAttribute; rw [M.bind_ub hr]
  · unfold SetAttribute FindOrCreateAttribute; rw [bind_assoc, M.bind_ub hr]
  · unfold DeleteAttribute; rw [M.bind_ub hr]

/-- the pointers to attributes of elements give their names and values; no other may be followed -/
theorem C92_pointers {s : Attrs} {A : Elems} {L : Nat → List Nat} (S : AShows s A L) :
    (∀ a, (∀ e, a ∉ L e) → deref (.nameOf a) s = .ub .dangling ∧ deref (.valueOf a) s = .ub .dangling) ∧
    (∀ e l, A e = some l → List.Forall₂ (fun a x => deref (.nameOf a) s = .ok x.name s ∧ deref (.valueOf a) s = .ok x.value s) (L e) l) := by
  constructor
  · intro a h
    have ha : s.live a = false := by
      cases ha : s.live a with
      | false => rfl
      | true =>
        obtain ⟨e, he⟩ := S.used a ha
        exact absurd he (h e)
    have hr : ∀ {α : Type} (f : Attrs → Nat → α), rd f (some a) s = .ub .dangling := by intro α f; simp [rd, ha]
    refine ⟨hr _, ?_⟩
    unfold deref
    dsimp only
    rw [M.bind_ub (hr _)]
  · intro e l he
    exact (S.content e l he).imp fun a x c => ⟨points_name.mpr ⟨c.1, c.2.1⟩, points_value.mpr ⟨c.1, c.2.2.1⟩⟩

/-- the lists of C91 and of the printed documents are those of the pointers -/
theorem C92_setAttr (n v : Str) (l : List Att) :
    (assign n v l).map (fun x => (x.name, x.value)) = Xml.setAttr n v (l.map fun x => (x.name, x.value)) := by
  induction l with
  | nil => rfl
  | cons a l ih =>
    unfold assign
    by_cases h : a.name = n
    · rw [if_pos h, List.map_cons, List.map_cons]
      unfold Xml.setAttr
      rw [if_pos h, h]
    · rw [if_neg h, List.map_cons, List.map_cons, ih]
      conv_rhs => unfold Xml.setAttr
      rw [if_neg h]

/-! ## two elements: one loaded with `a="1" b="2"`, one made by calls -/

/-- one byte -/
def ch (n : Nat) : Str := [UInt8.ofNat n]

/-- Of element 0 `c` gets the value of `a`, `a` (loaded) its own, `b` goes; element 1 gets `a` with the value of `c` of element 0. -/
def attrCalls : List AOp :=
  [.newElement 0, .parse 0 [(ch 97, ch 49), (ch 98, ch 50)], .set 0 (.own (ch 99)) (.value 0 (ch 97)), .set 0 (.own (ch 97)) (.value 0 (ch 97)),
   .delete 0 (.name 0 (ch 98)), .newElement 1, .set 1 (.name 0 (ch 97)) (.value 0 (ch 99))]

/-- what there is then -/
def attrElems : Elems := attrCalls.foldl (fun A op => op.step A) noElems

theorem attrRun : ACalls noElems attrCalls attrElems := by
  have d0 : (AOp.newElement 0).step noElems 0 = some [] := by decide +kernel
  have d1 : (attrCalls.take 5).foldl (fun A op => op.step A) noElems 1 = none := by decide +kernel
  refine .cons (by rfl) (.cons d0 (.cons ?_ (.cons ?_ (.cons ?_ (.cons d1 (.cons ?_ .nil))))))
  · exact ⟨[⟨ch 97, ch 49, false⟩, ⟨ch 98, ch 50, false⟩], ch 99, ch 49, by decide +kernel, by decide +kernel, by decide +kernel, by
      rintro ⟨a, h, _⟩; exact absurd (Src.value.inj h).2 (by decide)⟩
  · refine ⟨[⟨ch 97, ch 49, false⟩, ⟨ch 98, ch 50, false⟩, ⟨ch 99, ch 49, true⟩], ch 97, ch 49, by decide +kernel, by decide +kernel, by decide +kernel, ?_⟩
    rintro ⟨a, _, h, h'⟩
    have hx : ∀ b, b = some a → b = some ⟨ch 97, ch 49, false⟩ → False := by
      rintro b rfl hb
      rw [Option.some.inj hb] at h'; cases h'
    exact hx _ h (by decide +kernel)
  · exact ⟨[⟨ch 97, ch 49, true⟩, ⟨ch 98, ch 50, false⟩, ⟨ch 99, ch 49, true⟩], ch 98, by decide +kernel, by decide +kernel⟩
  · exact ⟨[], ch 97, ch 49, by decide +kernel, by decide +kernel, by decide +kernel, by
      rintro ⟨a, h, _⟩; exact absurd (Src.value.inj h).1 (by decide)⟩

/-- an allocator -/
noncomputable def somePick : Pick := by
  classical
  exact fun live => if h : ∃ N, ∀ a, N ≤ a → live a = false then h.choose else 0

theorem somePick_picks : Picks somePick := by
  intro live N h
  have hx : ∃ N, ∀ a, N ≤ a → live a = false := ⟨N, h⟩
  unfold somePick
  rw [dif_pos hx]
  exact hx.choose_spec _ le_rfl

example : ∃ pick N s L, Picks pick ∧ (∀ k, N ≤ k → aExecAll pick k attrCalls noAttrs = .ok () s) ∧ AShows s attrElems L ∧
    (∀ k, N ≤ k → AllAttributes k 0 s = .ok [(ch 97, ch 49), (ch 99, ch 49)] s) ∧
    (∀ k, N ≤ k → (AOp.set 0 (.own (ch 99)) (.value 0 (ch 99))).exec pick k s = .ub .dangling) := by
  obtain ⟨N, s, L, r, S⟩ := C92_runs somePick_picks attrRun
  obtain ⟨M, r2⟩ := C92_self (pick := somePick) S (e := 0) (n := .own (ch 99)) (v := .value 0 (ch 99)) (t := ch 99) rfl
    ⟨⟨ch 99, ch 49, true⟩, rfl, by decide +kernel, rfl⟩
  refine ⟨somePick, N + (L 0).length + M + 1, s, L, somePick_picks, fun k hk => r k (by omega), S, fun k hk => ?_, fun k hk => r2 k (by omega)⟩
  exact (C92_all S (e := 0) (l := [⟨ch 97, ch 49, true⟩, ⟨ch 99, ch 49, true⟩]) (by decide +kernel) (by omega)).1

/-- loading stops at the second `a` -/
example : taken [] [(ch 97, ch 49), (ch 98, ch 50), (ch 97, ch 51), (ch 99, ch 52)] = ([⟨ch 97, ch 49, false⟩, ⟨ch 98, ch 50, false⟩], false) := by decide +kernel

end Verif.Props
