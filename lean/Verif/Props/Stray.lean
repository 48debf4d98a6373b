import Verif.Proof.Stray
/-!
# C107: what an element access without checks reaches, for any indices
-/
namespace Verif.Props
open Spec
variable {V : Type} {mem : Nat → Nat → Bool} {chk : Bool} {w : World V} {aw : AWorld V}

/-- C107: `x(n, xs..., fs...)` in a build without checks, for any component, indices and flags, in any reachable state.  If the
indices lead to a place in the storage, the access reads and writes the one element a valid access with that place reads and
writes in either build; otherwise the behaviour is undefined, for reading and for writing. -/
theorem C107 (R : Reach mem chk w aw) {x : Nat} {k : Kind} {es : List Ext} {val : Nat → List Int → Option V}
    (hx : aw.arr x = some (k, .ready es val)) {n : Nat} {xs : List Int} {fs : List FL} (lx : xs.length = k.locs.length)
    (lf : fs.length = k.locs.length) :
    (∀ a, seat k es n (point xs fs) = some a → ∃ n' xs' fs', Valid k es n' xs' fs' ∧
      n' * points (mkShape es k.locs) + offset (mkShape es k.locs) (point xs' fs') = a ∧
      (∀ c, exec false (.read x n xs fs) w = exec c (.read x n' xs' fs') w) ∧
      ∀ c v, exec false (.write x n xs fs v) w = exec c (.write x n' xs' fs' v) w) ∧
    (seat k es n (point xs fs) = none →
      (∃ u, exec false (.read x n xs fs) w = .ub u) ∧ ∀ v, ∃ u, exec false (.write x n xs fs v) w = .ub u) := by
  obtain ⟨L, R⟩ := R.rel
  obtain ⟨o, hb, -, -, r⟩ := R.arr_some hx
  cases r with
  | @ready _ _ B cell r fits pos vals =>
    have hl := R.len hx
    have lp : (point xs fs).length = k.locs.length := by
      rw [point_length (by rw [lx, lf]), lx]
    have key := Obj.at_free r.typed (r.sized fits) n lx lf w.h
    constructor
    · intro a ha
      have hi : ∀ y ∈ point xs fs, InI32 y := by
        unfold seat at ha
        split at ha
        · rename_i c; exact c.2
        · cases ha
      obtain ⟨n', xs', fs', v, e⟩ := place_surj hl (place_lt ha)
      have h1 := (Obj.elem_place r n lp hi).1 a ha
      rw [if_pos hi, h1] at key
      have h2 : ∀ c, Obj.at_ c k o n' xs' fs' w.h = .ok (.at B a) w.h := by
        intro c
        have := (Obj.at_ok c r fits v.lenx (FlagsFit.len v.flags) ((accessErr_none hl v.lenx (FlagsFit.len v.flags)).2 v)).1
        rw [this, e]
      refine ⟨n', xs', fs', v, e, fun c => ?_, fun c z => ?_⟩
      · simp only [exec, World.access, hb, bind, M.bind, key, h2 c]
      · simp only [exec, World.access, hb, bind, M.bind, key, h2 c]
    · intro ha
      have h1 : ∃ u, Obj.at_ false k o n xs fs w.h = .ub u := by
        rw [key]
        by_cases hi : ∀ y ∈ point xs fs, InI32 y
        · rw [if_pos hi]; exact (Obj.elem_place r n lp hi).2 ha
        · rw [if_neg hi]; exact ⟨_, rfl⟩
      obtain ⟨u, h1⟩ := h1
      refine ⟨⟨u, ?_⟩, fun v => ⟨u, ?_⟩⟩
      · simp only [exec, World.access, hb, bind, M.bind, h1]
      · simp only [exec, World.access, hb, bind, M.bind, h1]

/-- C107, arrays without elements: on an array that is empty, or whose last allocation failed half way, every access without
checks is undefined behaviour, whatever the indices. -/
theorem C107_empty (R : Reach mem chk w aw) {x : Nat} {k : Kind} {a : AArr V} (hx : aw.arr x = some (k, a))
    (hn : ∀ es val, a ≠ .ready es val) {n : Nat} {xs : List Int} {fs : List FL} (lx : xs.length = k.locs.length)
    (lf : fs.length = k.locs.length) :
    (∃ u, exec false (.read x n xs fs) w = .ub u) ∧ ∀ v, ∃ u, exec false (.write x n xs fs v) w = .ub u := by
  obtain ⟨L, R⟩ := R.rel
  obtain ⟨o, hb, -, -, r⟩ := R.arr_some hx
  have h1 : ∃ u, Obj.at_ false k o n xs fs w.h = .ub u := by
    rw [Obj.at_free r.typed_stray r.sized n lx lf]
    split
    · exact Obj.elem_loose (R.stray_loose hx hn hb) n _
    · exact ⟨_, rfl⟩
  obtain ⟨u, h1⟩ := h1
  refine ⟨⟨u, ?_⟩, fun v => ⟨u, ?_⟩⟩
  · simp only [exec, World.access, hb, bind, M.bind, h1]
  · simp only [exec, World.access, hb, bind, M.bind, h1]

example : ∃ w aw, Reach (V := Int) (fun _ _ => true) false w aw ∧ aw.arr 0 = some (⟨1, [.center, .half]⟩, .empty) := by
  have h : arun (V := Int) (fun _ _ => true) false [.makeSized 0 ⟨1, [.center, .half]⟩ (fun _ => .null) [⟨0, 2, 0⟩, ⟨1, 2, 0⟩], .clear 0]
      AWorld.init = some (_, _) := rfl
  obtain ⟨w, R⟩ := reach_of_arun h
  exact ⟨w, _, R, rfl⟩

/-- C107, own place: a valid access names the place counted by component and position in storage order, and two valid accesses
name the same place only if they have the same component and the same point. -/
theorem C107_own (R : Reach mem chk w aw) {x : Nat} {k : Kind} {es : List Ext} {val : Nat → List Int → Option V}
    (hx : aw.arr x = some (k, .ready es val)) {n : Nat} {xs : List Int} {fs : List FL} (v : Valid k es n xs fs) :
    seat k es n (point xs fs) = some (n * points (mkShape es k.locs) + offset (mkShape es k.locs) (point xs fs)) ∧
    ∀ n' xs' fs', Valid k es n' xs' fs' → seat k es n (point xs fs) = seat k es n' (point xs' fs') →
      n = n' ∧ point xs fs = point xs' fs' := by
  obtain ⟨L, R⟩ := R.rel
  obtain ⟨o, hb, -, -, r⟩ := R.arr_some hx
  cases r with
  | @ready _ _ B cell r fits pos vals =>
    refine ⟨place_pt fits v.comp v.pt, fun n' xs' fs' v' e => ?_⟩
    rw [place_pt fits v.comp v.pt, place_pt fits v'.comp v'.pt, Option.some.injEq] at e
    exact addr_inj v.pt v'.pt e

/-- C107, the next row: moving an index by the whole width of its dimension is the same as moving the index before it by one,
as long as the index before it stays in its dimension. -/
theorem C107_row {k : Kind} {es : List Ext} {n : Nat} {s t : Shape} {d e : Dim} (hs : mkShape es k.locs = s ++ d :: e :: t)
    {pre : List Int} (hp : HasPt s pre) {i j : Int} (h1 : d.Has i) (h2 : d.Has (i + 1)) (ys : List Int) (i1 : InI32 i)
    (i2 : InI32 (i + 1)) (j1 : InI32 j) (j2 : InI32 (j + e.width)) :
    seat k es n (pre ++ i :: (j + e.width) :: ys) = seat k es n (pre ++ (i + 1) :: j :: ys) := by
  unfold seat
  have key : ∀ m r, r < m → walk m r (mkShape es k.locs) (pre ++ i :: (j + e.width) :: ys) =
      walk m r (mkShape es k.locs) (pre ++ (i + 1) :: j :: ys) := by
    rw [hs]; clear hs
    induction s generalizing pre with
    | nil =>
      cases pre with
      | cons p pre => exact hp.elim
      | nil =>
        intro m r hr
        have a0 := Dim.nonneg_of_has h1
        have a1 := Dim.nonneg_of_has h2
        have a2 := mul_add_lt hr (Dim.width_pos_of_has h1)
        have a3 := mul_add_lt hr (Dim.width_pos_of_has h2)
        simp only [List.nil_append, walk]
        rw [if_pos ⟨by omega, by omega⟩, if_pos (c := 0 ≤ ((r * d.width : Nat) : Int) + (i + 1 + d.ext.n) ∧ _) ⟨by omega, by omega⟩]
        have e1 : (((r * d.width : Nat) : Int) + (i + 1 + d.ext.n)).toNat = (((r * d.width : Nat) : Int) + (i + d.ext.n)).toNat + 1 := by
          omega
        rw [e1]
        generalize (((r * d.width : Nat) : Int) + (i + d.ext.n)).toNat = q
        have e2 : (((q + 1) * e.width : Nat) : Int) + (j + e.ext.n) = ((q * e.width : Nat) : Int) + (j + e.width + e.ext.n) := by
          rw [Nat.add_mul, Nat.one_mul]; push_cast; omega
        rw [e2]
    | cons p s ih =>
      cases pre with
      | nil => exact hp.elim
      | cons q pre =>
        intro m r hr
        simp only [List.cons_append, walk]
        split
        · exact ih hp.2 _ _ (by omega)
        · rfl
  have hc : (∀ y ∈ pre ++ i :: (j + e.width) :: ys, InI32 y) ↔ ∀ y ∈ pre ++ (i + 1) :: j :: ys, InI32 y := by
    simp only [List.mem_append, List.mem_cons]
    constructor
    · rintro h y (h' | rfl | rfl | h')
      · exact h y (.inl h')
      · exact i2
      · exact j1
      · exact h y (.inr (.inr (.inr h')))
    · rintro h y (h' | rfl | rfl | h')
      · exact h y (.inl h')
      · exact i1
      · exact j2
      · exact h y (.inr (.inr (.inr h')))
  by_cases hn : n < k.N
  · by_cases c : ∀ y ∈ pre ++ i :: (j + e.width) :: ys, InI32 y
    · rw [if_pos ⟨hn, c⟩, if_pos ⟨hn, hc.1 c⟩, key _ _ hn]
    · rw [if_neg (fun h => c h.2), if_neg (fun h => c (hc.2 h.2))]
  · rw [if_neg (fun h => hn h.1), if_neg (fun h => hn h.1)]

/-- C107, the next component: moving the first index by the whole width of its dimension is the same as naming the next
component. -/
theorem C107_comp {k : Kind} {es : List Ext} {n : Nat} {t : Shape} {d : Dim} (hs : mkShape es k.locs = d :: t)
    (hn : n + 1 < k.N) {i : Int} (ys : List Int) (i1 : InI32 i) (i2 : InI32 (i + d.width)) :
    seat k es n ((i + d.width) :: ys) = seat k es (n + 1) (i :: ys) := by
  unfold seat
  have hc : (∀ y ∈ (i + d.width) :: ys, InI32 y) ↔ ∀ y ∈ i :: ys, InI32 y := by
    simp only [List.forall_mem_cons, i1, i2, true_and]
  have e2 : (((n + 1) * d.width : Nat) : Int) + (i + d.ext.n) = ((n * d.width : Nat) : Int) + (i + d.width + d.ext.n) := by
    rw [Nat.add_mul, Nat.one_mul]; push_cast; omega
  by_cases c : ∀ y ∈ i :: ys, InI32 y
  · rw [if_pos ⟨by omega, hc.2 c⟩, if_pos ⟨hn, c⟩, hs]
    simp only [walk, e2]
  · rw [if_neg (fun h => c (hc.1 h.2)), if_neg (fun h => c h.2)]

/-- two rows of three numbers, counted from -1: the places of some accesses, with and without an element -/
example : seat ⟨1, [.center, .center]⟩ [⟨0, 2, 0⟩, ⟨1, 2, 0⟩] 0 [0, 2] = some 3 ∧
    seat ⟨1, [.center, .center]⟩ [⟨0, 2, 0⟩, ⟨1, 2, 0⟩] 0 [1, -1] = some 3 ∧
    seat ⟨1, [.center, .center]⟩ [⟨0, 2, 0⟩, ⟨1, 2, 0⟩] 0 [2, -2] = none ∧
    seat ⟨1, [.center, .center]⟩ [⟨0, 2, 0⟩, ⟨1, 2, 0⟩] 0 [1, 2] = none ∧
    seat ⟨1, [.center, .center]⟩ [⟨0, 2, 0⟩, ⟨1, 2, 0⟩] 1 [-1, 0] = none := by decide

/-- a reachable state with such an array: the first index past its row reads the first number of the next row, and the access
`(2, -2)` is undefined although row two, one in front of its first number, would lie inside the storage -/
example : (∃ w aw val, Reach (V := Int) (fun _ _ => true) false w aw ∧
      aw.arr 0 = some (⟨1, [.center, .center]⟩, .ready [⟨0, 2, 0⟩, ⟨1, 2, 0⟩] val)) ∧
    (run (V := Int) false
      [.makeSized 0 ⟨1, [.center, .center]⟩ (fun _ => .null) [⟨0, 2, 0⟩, ⟨1, 2, 0⟩], .write 0 0 [1, -1] [.C, .C] 7,
       .read 0 0 [0, 2] [.C, .C], .write 0 0 [0, 2] [.C, .C] 8, .read 0 0 [1, -1] [.C, .C]] (World.init fun _ _ => true)).map (·.1)
      = some [.ret .unit, .ret .unit, .ret (.val (some 7)), .ret .unit, .ret (.val (some 8))] ∧
    (run (V := Int) false
      [.makeSized 0 ⟨1, [.center, .center]⟩ (fun _ => .null) [⟨0, 2, 0⟩, ⟨1, 2, 0⟩], .write 0 0 [2, -2] [.C, .C] 7]
      (World.init fun _ _ => true)).map (·.1) = none := by
  refine ⟨?_, by decide +kernel, by decide +kernel⟩
  have h : arun (V := Int) (fun _ _ => true) false [.makeSized 0 ⟨1, [.center, .center]⟩ (fun _ => .null) [⟨0, 2, 0⟩, ⟨1, 2, 0⟩]]
      AWorld.init = some (_, _) := rfl
  obtain ⟨w, R⟩ := reach_of_arun h
  exact ⟨w, _, _, R, rfl⟩

/-- the hypotheses of `C107_row` and `C107_comp` on that shape with two components -/
example : mkShape [⟨0, 2, 0⟩, ⟨1, 2, 0⟩] [.center, .center] = [] ++ ⟨⟨0, 2, 0⟩, .center⟩ :: ⟨⟨1, 2, 0⟩, .center⟩ :: [] ∧
    HasPt [] [] ∧ (Dim.mk ⟨0, 2, 0⟩ .center).Has 0 ∧ (Dim.mk ⟨0, 2, 0⟩ .center).Has (0 + 1) ∧
    seat ⟨2, [.center, .center]⟩ [⟨0, 2, 0⟩, ⟨1, 2, 0⟩] 0 [0 + 2, -1] = some 6 ∧
    seat ⟨2, [.center, .center]⟩ [⟨0, 2, 0⟩, ⟨1, 2, 0⟩] 1 [0, -1] = some 6 := by
  refine ⟨rfl, trivial, ?_, ?_, ?_, ?_⟩ <;> decide

end Verif.Props
