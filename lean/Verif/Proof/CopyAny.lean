import Verif.Spec.CopyAny
import Verif.Proof.Stray
import Verif.Proof.Disp
/-!
# Lemmas: copies with zones anywhere
-/
namespace Verif
open Spec
variable {V : Type} {mem : Nat → Nat → Bool} {chk : Bool} {w : World V} {aw : AWorld V} {L : List Nat}

theorem Spec.CopyDim.modest_fits {d : CopyDim} (h : d.Modest) : d.Fits1 ∧ d.Fits2 := by
  simp only [CopyDim.Modest, List.forall_mem_cons, List.not_mem_nil, false_imp_iff, implies_true, and_true] at h
  have := loc_le d.loc
  obtain ⟨h1, h2, h3, h4, h5, h6⟩ := h
  unfold CopyDim.Fits1 CopyDim.Fits2 CopyDim.wid CopyDim.hi CopyDim.lo InI32
  omega

/-- the points written have `int` indices -/
theorem writes_int {ds : List CopyDim} (hf : ∀ d ∈ ds, d.Modest) {ys : List Int} (hw : Writes ds ys) :
    (∀ y ∈ ys, InI32 y) ∧ ys.length = ds.length := by
  induction ds generalizing ys with
  | nil => cases ys with
    | nil => simp
    | cons => exact hw.elim
  | cons d ds ih => cases ys with
    | nil => exact hw.elim
    | cons y ys =>
      obtain ⟨h1, h2⟩ := ih (fun d hd => hf d (by simp [hd])) hw.2
      refine ⟨?_, by simp [h2]⟩
      simp only [List.forall_mem_cons]
      refine ⟨?_, h1⟩
      have hm := hf d (by simp)
      simp only [CopyDim.Modest, List.forall_mem_cons, List.not_mem_nil, false_imp_iff, implies_true, and_true] at hm
      have hl := loc_le d.loc
      have h3 := hw.1
      unfold CopyDim.Writes CopyDim.lo CopyDim.hi at h3
      unfold InI32
      omega

theorem image_len {ds : List CopyDim} {ys : List Int} (h : ys.length = ds.length) : (image ds ys).length = ds.length := by
  induction ds generalizing ys with
  | nil => cases ys <;> simp_all [image]
  | cons d ds ih => cases ys with
    | nil => simp at h
    | cons y ys => simp [image, ih (by simpa using h)]

/-- the loops, element by element -/
theorem inTurnAt_run {k : Kind} {es es' : List Ext} {o pd : Obj} {B B' : Nat} {ds : List CopyDim} (hl : ds.length = k.locs.length)
    (g : Option (Nat → Option V)) (same : g = none → pd = o ∧ es' = es) (other : g ≠ none → B ∉ pd.own) (l : List (List Int × Nat))
    (ints : ∀ p ∈ l, (∀ y ∈ p.1, InI32 y) ∧ p.1.length = k.locs.length) {h : Heap V} {c c' f : Nat → Option V}
    (r : ObjReady k es o h B c) (r' : ObjReady k es' pd h B' c') (hf : ∀ a < k.N * points (mkShape es k.locs), c a = f a)
    (hg : ∀ g', g = some g' → ∀ b < k.N * points (mkShape es' k.locs), c' b = g' b) :
    match inTurnAt (seat k es) (seat k es') ds g f l with
    | none => ∃ u, runAll (fun p => Obj.copyElem k o pd ds p.2 p.1) l h = .ub u
    | some f' => ∃ h' c1, runAll (fun p => Obj.copyElem k o pd ds p.2 p.1) l h = .ok () h' ∧ ObjReady k es o h' B c1 ∧
        h'.next = h.next ∧ h'.mem = h.mem ∧ (∀ b, b ≠ B → h'.blk b = h.blk b) ∧
        ∀ a < k.N * points (mkShape es k.locs), c1 a = f' a := by
  induction l generalizing h c c' f with
  | nil => exact ⟨h, c, rfl, r, rfl, rfl, fun _ _ => rfl, hf⟩
  | cons p l ih =>
    obtain ⟨ys, n⟩ := p
    obtain ⟨hi, hlen⟩ := ints (ys, n) (by simp)
    simp only at hi hlen
    have hlz : (image ds ys).length = k.locs.length := by rw [image_len (by rw [hlen, hl]), hl]
    have e := Obj.copyElem_eq r.typed r'.typed hl hlen h (n := n)
    have cell' : ∀ b, b < k.N * points (mkShape es' k.locs) → c' b = (g.getD f) b := by
      intro b hb
      cases g with
      | some g' => exact hg g' rfl b hb
      | none =>
        obtain ⟨rfl, rfl⟩ := same rfl
        have e1 := r.det r'
        subst e1
        have h1 := r.blk.symm.trans r'.blk
        simp only [Option.some.injEq, Block.vals.injEq] at h1
        rw [← h1.2]; exact hf b hb
    have bad : (∃ u, Obj.copyElem k o pd ds n ys h = .ub u) → ∃ u, runAll (fun p => Obj.copyElem k o pd ds p.2 p.1) ((ys, n) :: l) h = .ub u := by
      rintro ⟨u, hu⟩
      exact ⟨u, by rw [runAll_cons, M.bind_ub hu]⟩
    simp only [inTurnAt]
    cases hb : seat k es' n (image ds ys) with
    | none =>
      have : ∃ u, Obj.copyElem k o pd ds n ys h = .ub u := by
        rw [e]
        split
        · rename_i hz
          obtain ⟨u, hu⟩ := (Obj.elem_place r' n hlz hz).2 hb
          exact ⟨u, by unfold Obj.move; rw [M.bind_ub hu]⟩
        · exact ⟨_, rfl⟩
      cases seat k es n ys <;> exact bad this
    | some b =>
      have hz : ∀ y ∈ image ds ys, InI32 y := by
        unfold seat at hb
        split at hb
        · rename_i c; exact c.2
        · cases hb
      have eb := (Obj.elem_place r' n hlz hz).1 b hb
      have lb := place_lt hb
      rw [if_pos hz] at e
      cases ha : seat k es n ys with
      | none =>
        refine bad ?_
        obtain ⟨u, hu⟩ := (Obj.elem_place r n hlen hi).2 ha
        exact ⟨u, by rw [e]; unfold Obj.move; rw [M.bind_ok eb, M.bind_ok (Heap.loadV_at r'.blk lb), M.bind_ub hu]⟩
      | some a =>
        have ea := (Obj.elem_place r n hlen hi).1 a ha
        have la := place_lt ha
        have h1 : Obj.copyElem k o pd ds n ys h = .ok () (h.poke B a ((g.getD f) b)) := by
          rw [e]; unfold Obj.move
          rw [M.bind_ok eb, M.bind_ok (Heap.loadV_at r'.blk lb), M.bind_ok ea, Heap.storeV_at r.blk la, Heap.poke_vals r.blk,
            cell' b lb]
        obtain ⟨c1, r1⟩ := r.poke a ((g.getD f) b)
        obtain ⟨f1, f2, f3⟩ := Heap.poke_frame h B a ((g.getD f) b)
        have hc1 : ∀ x < k.N * points (mkShape es k.locs), c1 x = if x = a then (g.getD f) b else f x := by
          intro x hx
          rw [← Heap.cellAt_vals r1.blk, Heap.cellAt_poke r.blk, Heap.cellAt_vals r.blk, hf x hx]
          simp
        have r1' : ∃ c2, ObjReady k es' pd (h.poke B a ((g.getD f) b)) B' c2 ∧
            ∀ g', g = some g' → ∀ b < k.N * points (mkShape es' k.locs), c2 b = g' b := by
          cases hgg : g with
          | none =>
            obtain ⟨rfl, rfl⟩ := same hgg
            have e1 := r.det r'
            subst e1
            exact ⟨c1, by rw [← hgg]; exact r1, by simp⟩
          | some g' =>
            refine ⟨c', r'.poke_other (other (by simp [hgg])) _ _, fun g2 h2 => hg g2 (hgg.trans h2)⟩
        obtain ⟨c2, r2, hg2⟩ := r1'
        have := ih (fun q hq => ints q (by simp [hq])) r1 r2 hc1 hg2
        dsimp only
        revert this
        cases inTurnAt (seat k es) (seat k es') ds g (fun x => if x = a then (g.getD f) b else f x) l with
        | none =>
          rintro ⟨u, hu⟩
          exact ⟨u, by rw [runAll_cons, M.bind_ok h1]; exact hu⟩
        | some f' =>
          rintro ⟨h', c3, g1, g2, g3, g4, g5, g6⟩
          exact ⟨h', c3, by rw [runAll_cons, M.bind_ok h1]; exact g1, g2, g3.trans f1, g4.trans f2,
            fun b hb => (g5 b hb).trans (f3 b hb), g6⟩

theorem perComp_pairs (N : Nat) (l : List (List Int)) : perComp N l = pairs l (nats 0 N) := by
  unfold perComp pairs
  rw [nats_range]; simp

end Verif
