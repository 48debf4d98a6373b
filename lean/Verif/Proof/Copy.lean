import Verif.Proof.CopyPlan
/-!
# The loops of `copy_from`
-/
namespace Verif
open Spec
variable {V : Type}

/-! ## one interface for the three dimensions -/

/-- one assignment -/
def Obj.copyElem (k : Kind) (o pd : Obj) (ds : List CopyDim) (n : Nat) (ys : List Int) : M (Heap V) Unit :=
  match o, pd, ds, ys with
  | .d1 o, .d1 pd, [a], [x] => D1.PD.copyElem k.N o pd n x (a.i - a.I)
  | .d2 o, .d2 pd, [a, b], [x, y] => D2.PD.copyElem k.N o pd n x y (a.i - a.I) (b.i - b.I)
  | .d3 o, .d3 pd, [a, b, g], [x, y, z] => D3.PD.copyElem k.N o pd n x y z (a.i - a.I) (b.i - b.I) (g.i - g.I)
  | _, _, _, _ => M.undef .oob

/-- the loops -/
def Obj.copyLoops (k : Kind) (o pd : Obj) (ds : List CopyDim) : M (Heap V) Unit :=
  match o, pd, ds with
  | .d1 o, .d1 pd, [a] => forI a.lo (a.lo + a.wid) fun x => forU 0 k.N fun n => D1.PD.copyElem k.N o pd n x (a.i - a.I)
  | .d2 o, .d2 pd, [a, b] => forI a.lo (a.lo + a.wid) fun x => forI b.lo (b.lo + b.wid) fun y =>
      forU 0 k.N fun n => D2.PD.copyElem k.N o pd n x y (a.i - a.I) (b.i - b.I)
  | .d3 o, .d3 pd, [a, b, g] => forI a.lo (a.lo + a.wid) fun x => forI b.lo (b.lo + b.wid) fun y =>
      forI g.lo (g.lo + g.wid) fun z => forU 0 k.N fun n =>
        D3.PD.copyElem k.N o pd n x y z (a.i - a.I) (b.i - b.I) (g.i - g.I)
  | _, _, _ => M.undef .oob

theorem Spec.CopyDim.clash_iff (d : CopyDim) : d.ClashC ↔ d.Clash := by
  unfold CopyDim.ClashC CopyDim.Clash; omega

theorem copyDims_len {ls : List Loc} {R r : List (Int × Int)} {I i : List Int} (h1 : R.length = ls.length)
    (h2 : r.length = ls.length) (h3 : I.length = ls.length) (h4 : i.length = ls.length) :
    (copyDims ls R r I i).length = ls.length := by
  induction ls generalizing R r I i with
  | nil => simp [copyDims]
  | cons l ls ih =>
    match R, r, I, i, h1, h2, h3, h4 with
    | _ :: _, _ :: _, _ :: _, _ :: _, h1, h2, h3, h4 =>
      simp only [copyDims, List.length_cons] at *
      rw [ih (by omega) (by omega) (by omega) (by omega)]

theorem Obj.copy_elim (chk : Bool) {k : Kind} {o pd : Obj} (t : Typed k o) (t' : Typed k pd) (same : Bool)
    {R r : List (Int × Int)} {I i : List Int} (h1 : R.length = k.locs.length)
    (h2 : r.length = k.locs.length) (h3 : I.length = k.locs.length) (h4 : i.length = k.locs.length) (h : Heap V)
    {Q : Res (Heap V) Unit → Prop}
    (bad1 : ¬ (∀ d ∈ copyDims k.locs R r I i, d.Fits1) → Q (.ub .overflow))
    (bad2 : (chk = true → ∀ d ∈ copyDims k.locs R r I i, d.Over) → ¬ (∀ d ∈ copyDims k.locs R r I i, d.Fits2) → Q (.ub .overflow))
    (e1 : chk = true → ¬ (∀ d ∈ copyDims k.locs R r I i, d.Over) → Q (.err .overlapNotFound h))
    (e2 : chk = true → (∀ d ∈ copyDims k.locs R r I i, d.Over) → same = true → (∀ d ∈ copyDims k.locs R r I i, d.Clash) → Q (.err .copyOverlap h))
    (run : (chk = true → ∀ d ∈ copyDims k.locs R r I i, d.Over) →
      (chk = true → same = true → ¬ (∀ d ∈ copyDims k.locs R r I i, d.Clash)) →
      Q (Obj.copyLoops k o pd (copyDims k.locs R r I i) h)) :
    Q (Obj.copy chk k o pd same (.ranges R r I i) h) := by
  cases t with
  | @d1 N L0 o =>
    cases t'; rename_i pd
    match R, r, I, i, h1, h2, h3, h4 with
    | [R0], [r0], [I0], [i0], _, _, _, _ =>
      simp only [copyDims, List.forall_mem_cons, List.not_mem_nil, false_imp_iff, implies_true, and_true] at *
      refine D1.PD.copy_from_elim chk N o pd same ⟨L0, R0, r0, I0, i0⟩ h bad1 bad2 e1 ?_ ?_
      · simp only [CopyDim.clash_iff]; exact e2
      · simp only [CopyDim.clash_iff]; exact run
  | @d2 N L0 L1 o =>
    cases t'; rename_i pd
    match R, r, I, i, h1, h2, h3, h4 with
    | [R0, R1], [r0, r1], [I0, I1], [i0, i1], _, _, _, _ =>
      simp only [copyDims, List.forall_mem_cons, List.not_mem_nil, false_imp_iff, implies_true, and_true] at *
      refine D2.PD.copy_from_elim chk N o pd same ⟨L0, R0, r0, I0, i0⟩ ⟨L1, R1, r1, I1, i1⟩ h bad1 bad2 e1 ?_ ?_
      · simp only [CopyDim.clash_iff]; exact e2
      · simp only [CopyDim.clash_iff]; exact run
  | @d3 N L0 L1 L2 o =>
    cases t'; rename_i pd
    match R, r, I, i, h1, h2, h3, h4 with
    | [R0, R1, R2], [r0, r1, r2], [I0, I1, I2], [i0, i1, i2], _, _, _, _ =>
      simp only [copyDims, List.forall_mem_cons, List.not_mem_nil, false_imp_iff, implies_true, and_true] at *
      refine D3.PD.copy_from_elim chk N o pd same ⟨L0, R0, r0, I0, i0⟩ ⟨L1, R1, r1, I1, i1⟩ ⟨L2, R2, r2, I2, i2⟩ h bad1 bad2 e1 ?_ ?_
      · simp only [CopyDim.clash_iff]; exact e2
      · simp only [CopyDim.clash_iff]; exact run

/-! ## the loops as a run over a list -/

theorem bind_pure_one {σ : Type} (m : M σ Unit) : (m >>= fun _ => pure ()) = m := by
  funext s
  rw [M.bind_run]
  cases m s <;> rfl


/-- the points written, in the order of the loops -/
def boxPts : List CopyDim → List (List Int)
  | [] => [[]]
  | d :: ds => (ints d.lo d.wid.toNat).flatMap fun x => (boxPts ds).map fun xs => x :: xs

theorem runAll_flatMap {σ α β : Type} (g : α → List β) (fn : β → M σ Unit) (l : List α) :
    runAll fn (l.flatMap g) = runAll (fun a => runAll fn (g a)) l := by
  induction l with
  | nil => rfl
  | cons a l ih => rw [List.flatMap_cons, runAll_append, ih, runAll_cons]

theorem mem_boxPts {ds : List CopyDim} (hw : ∀ d ∈ ds, 0 ≤ d.wid) {ys : List Int} : ys ∈ boxPts ds ↔ Writes ds ys := by
  induction ds generalizing ys with
  | nil => cases ys <;> simp [boxPts, Writes]
  | cons d ds ih =>
    have h0 := hw d (by simp)
    have ih := @ih (fun d hd => hw d (by simp [hd]))
    cases ys with
    | nil => simp [boxPts, Writes]
    | cons y ys =>
      simp only [boxPts, Writes, List.mem_flatMap, List.mem_map, mem_ints, List.cons.injEq, CopyDim.Writes]
      unfold CopyDim.wid at h0
      constructor
      · rintro ⟨a, ha, b, hb, rfl, rfl⟩
        unfold CopyDim.wid at ha
        exact ⟨by omega, ih.1 hb⟩
      · rintro ⟨h1, h2⟩
        exact ⟨y, by unfold CopyDim.wid; omega, ys, ih.2 h2, rfl, rfl⟩

theorem nodup_of_pairwise_lt {l : List Int} (h : l.Pairwise intLt) : l.Nodup :=
  h.imp fun h e => by unfold intLt at h; omega

theorem nodup_boxPts (ds : List CopyDim) : (boxPts ds).Nodup := by
  induction ds with
  | nil => simp [boxPts]
  | cons d ds ih =>
    simp only [boxPts]
    have hs := ints_sorted d.lo d.wid.toNat
    revert hs
    generalize ints d.lo d.wid.toNat = l
    intro hs
    induction l with
    | nil => simp
    | cons a l ihl =>
      rw [List.pairwise_cons] at hs
      rw [List.flatMap_cons, List.nodup_append]
      refine ⟨?_, ihl hs.2, ?_⟩
      · refine List.Pairwise.map _ ?_ ih
        intro x y hxy h; exact hxy (List.cons.inj h).2
      · intro p hp q hq
        simp only [List.mem_map, List.mem_flatMap] at hp hq
        obtain ⟨x, -, rfl⟩ := hp
        obtain ⟨b, hb, y, -, rfl⟩ := hq
        intro h
        have h1 := hs.1 b hb
        have h2 := (List.cons.inj h).1
        unfold intLt at h1; omega

theorem nats_nodup (b k : Nat) : (nats b k).Nodup :=
  (nats_sorted b k).imp fun h e => by unfold natLt at h; omega

theorem nodup_pairs {α β : Type} {l : List α} {m : List β} (h : l.Nodup) (h' : m.Nodup) : (pairs l m).Nodup := by
  induction l with
  | nil => simp [pairs]
  | cons a l ih =>
    rw [List.nodup_cons] at h
    rw [pairs_cons, List.nodup_append]
    refine ⟨?_, ih h.2, ?_⟩
    · refine List.Pairwise.map _ ?_ h'
      intro x y hxy e; exact hxy (Prod.mk.inj e).2
    · intro p hp q hq e
      simp only [List.mem_map] at hp
      obtain ⟨b, -, rfl⟩ := hp
      subst e
      simp only [pairs, List.mem_flatMap, List.mem_map] at hq
      obtain ⟨c, hc, d, -, e⟩ := hq
      cases e
      exact h.1 hc

theorem mem_pairs {α β : Type} {l : List α} {m : List β} {p : α × β} : p ∈ pairs l m ↔ p.1 ∈ l ∧ p.2 ∈ m := by
  obtain ⟨a, b⟩ := p
  simp [pairs]

theorem Obj.copyLoops_eq {k : Kind} {o pd : Obj} (t : Typed k o) (t' : Typed k pd) {ds : List CopyDim} (hl : ds.length = k.locs.length)
    (hw : ∀ d ∈ ds, 0 ≤ d.wid) (hN : k.N < 4294967296) :
    (Obj.copyLoops k o pd ds : M (Heap V) Unit) =
      runAll (fun p => Obj.copyElem k o pd ds p.2 p.1) (pairs (boxPts ds) (nats 0 k.N)) := by
  rw [runAll_pairs]
  cases t with
  | @d1 N L0 o =>
    cases t'; rename_i pd
    match ds, hl with
    | [a], _ =>
      simp only [List.forall_mem_cons, List.not_mem_nil, false_imp_iff, implies_true, and_true] at hw
      simp only [boxPts, List.map_cons, List.map_nil, runAll_flatMap, runAll_cons, runAll_nil]
      simp only [Obj.copyLoops, Obj.copyElem, bind_pure_one]
      rw [forI_eq _ _ hw]
      refine congrArg (fun f => runAll f _) (funext fun x => ?_)
      rw [forU_eq _ _ (Nat.zero_le _) hN, Nat.sub_zero]
  | @d2 N L0 L1 o =>
    cases t'; rename_i pd
    match ds, hl with
    | [a, b], _ =>
      simp only [List.forall_mem_cons, List.not_mem_nil, false_imp_iff, implies_true, and_true] at hw
      simp only [boxPts, List.map_cons, List.map_nil, List.map_flatMap, runAll_flatMap, runAll_cons, runAll_nil]
      simp only [Obj.copyLoops, Obj.copyElem, bind_pure_one]
      rw [forI_eq _ _ hw.1]
      refine congrArg (fun f => runAll f _) (funext fun x => ?_)
      rw [forI_eq _ _ hw.2]
      refine congrArg (fun f => runAll f _) (funext fun y => ?_)
      rw [forU_eq _ _ (Nat.zero_le _) hN, Nat.sub_zero]
  | @d3 N L0 L1 L2 o =>
    cases t'; rename_i pd
    match ds, hl with
    | [a, b, g], _ =>
      simp only [List.forall_mem_cons, List.not_mem_nil, false_imp_iff, implies_true, and_true] at hw
      simp only [boxPts, List.map_cons, List.map_nil, List.map_flatMap, runAll_flatMap, runAll_cons, runAll_nil]
      simp only [Obj.copyLoops, Obj.copyElem, bind_pure_one]
      rw [forI_eq _ _ hw.1]
      refine congrArg (fun f => runAll f _) (funext fun x => ?_)
      rw [forI_eq _ _ hw.2.1]
      refine congrArg (fun f => runAll f _) (funext fun y => ?_)
      rw [forI_eq _ _ hw.2.2]
      refine congrArg (fun f => runAll f _) (funext fun z => ?_)
      rw [forU_eq _ _ (Nat.zero_le _) hN, Nat.sub_zero]

end Verif
