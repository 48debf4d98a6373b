import Verif.Proof.Tec3
/-!
# Lemmas about filling zone buffers: whole loops
-/
namespace Verif.Tec
open Spec

theorem runAll_flatMap' {σ α β : Type} (g : α → List β) (fn : β → M σ Unit) (l : List α) :
    runAll fn (l.flatMap g) = runAll (fun a => runAll fn (g a)) l := by
  induction l with
  | nil => rfl
  | cons a l ih => rw [List.flatMap_cons, runAll_append, ih, runAll_cons]

theorem runAll_map' {σ α β : Type} (g : α → β) (fn : β → M σ Unit) (l : List α) :
    runAll fn (l.map g) = runAll (fun a => fn (g a)) l := by
  induction l with
  | nil => rfl
  | cons a l ih => rw [List.map_cons, runAll_cons, ih, runAll_cons]

theorem sel_map {d : DimSel} (s : d.Sane) :
    d.picks.map (fun v => ((v - d.head) / d.skip).toNat) = List.range d.count.toNat := by
  unfold DimSel.count DimSel.picks
  rw [picks_map_idx s.pos]; simp

theorem selection_eq (x y z : DimSel) : selection x y z =
    z.picks.flatMap fun k => (y.picks.flatMap fun j => x.picks.map fun i => (i, j)).map fun p => (p.1, p.2, k) := by
  unfold selection
  refine congrArg (fun f => List.flatMap f z.picks) (funext fun k => ?_)
  rw [List.map_flatMap]
  simp only [List.map_map, Function.comp_def]

/-- the rows of a selection -/
def rows (y z : DimSel) : List (Int × Int) := z.picks.flatMap fun k => y.picks.map fun j => (j, k)

theorem selection_pos {z : Zone} (s : ∀ i < 3, (z.sel i).Sane) :
    (selection (z.sel 0) (z.sel 1) (z.sel 2)).map z.bufPos =
      List.range ((z.sel 0).count.toNat * (z.sel 1).count.toNat * (z.sel 2).count.toNat) := by
  rw [selection_eq]
  have h0 := sel_map (s 0 (by decide)); have h1 := sel_map (s 1 (by decide)); have h2 := sel_map (s 2 (by decide))
  have h01 := map_pos_flat _ _ _ _ h0 h1 (fun i j => (i, j))
    (fun p => ((p.1 - (z.sel 0).head) / (z.sel 0).skip).toNat + (z.sel 0).count.toNat * ((p.2 - (z.sel 1).head) / (z.sel 1).skip).toNat)
    (fun _ _ => rfl)
  refine map_pos_flat _ _ _ _ h01 h2 (fun p k => (p.1, p.2, k)) _ ?_
  intro p k
  unfold Zone.bufPos
  simp only []
  ring

theorem rows_pos {z : Zone} (s : ∀ i < 3, (z.sel i).Sane) :
    (rows (z.sel 1) (z.sel 2)).map z.rowPos = List.range ((z.sel 1).count.toNat * (z.sel 2).count.toNat) :=
  map_pos_flat _ _ _ _ (sel_map (s 1 (by decide))) (sel_map (s 2 (by decide))) (fun j k => (j, k)) _ (fun _ _ => rfl)

theorem mem_selection {x y z : DimSel} {i j k : Int} :
    (i, j, k) ∈ selection x y z ↔ i ∈ x.picks ∧ j ∈ y.picks ∧ k ∈ z.picks := by
  unfold selection
  simp only [List.mem_flatMap, List.mem_map, Prod.mk.injEq]
  constructor
  · rintro ⟨k', hk, j', hj, i', hi, rfl, rfl, rfl⟩; exact ⟨hi, hj, hk⟩
  · rintro ⟨hi, hj, hk⟩; exact ⟨k, hk, j, hj, i, hi, rfl, rfl, rfl⟩

theorem mem_rows {y z : DimSel} {j k : Int} : (j, k) ∈ rows y z ↔ j ∈ y.picks ∧ k ∈ z.picks := by
  unfold rows
  simp only [List.mem_flatMap, List.mem_map, Prod.mk.injEq]
  constructor
  · rintro ⟨k', hk, j', hj, rfl, rfl⟩; exact ⟨hj, hk⟩
  · rintro ⟨hj, hk⟩; exact ⟨k, hk, j, hj, rfl, rfl⟩

theorem length_selection (z : Zone) (s : ∀ i < 3, (z.sel i).Sane) :
    (selection (z.sel 0) (z.sel 1) (z.sel 2)).length =
      (z.sel 0).count.toNat * (z.sel 1).count.toNat * (z.sel 2).count.toNat := by
  have := congrArg List.length (selection_pos s)
  simpa using this

theorem length_rows (z : Zone) (s : ∀ i < 3, (z.sel i).Sane) :
    (rows (z.sel 1) (z.sel 2)).length = (z.sel 1).count.toNat * (z.sel 2).count.toNat := by
  have := congrArg List.length (rows_pos s)
  simpa using this

theorem item_window {α : Type} (c : Nat → α) {o n size : Nat} {k : Int} (h : size * k.toNat + size ≤ n) :
    item size (window c o n) k = window c (o + size * k.toNat) size := by
  unfold item window
  rw [← List.map_drop, ← List.map_take]
  congr 1
  rw [List.drop_range', Nat.mul_one, show n - size * k.toNat = size + (n - size * k.toNat - size) by omega,
    ← List.range'_append_1, List.take_left' (by simp)]

theorem window_flat {α : Type} (c : Nat → α) (o w n : Nat) :
    window c o (n * w) = (List.range n).flatMap fun t => window c (o + w * t) w := by
  induction n with
  | zero => simp [window]
  | succ n ih =>
    rw [List.range_succ, List.flatMap_append, ← ih]
    unfold window
    rw [Nat.add_mul, Nat.one_mul, ← List.range'_append_1, List.map_append, Nat.mul_comm n w]
    simp

/-- the last bytes of a selected point are inside the array -/
theorem place_bound {z : Zone} (g : z.Geo) {i j k : Int} (hi : i ∈ (z.sel 0).picks) (hj : j ∈ (z.sel 1).picks)
    (hk : k ∈ (z.sel 2).picks) :
    0 ≤ place (z.sel 0) (z.sel 1) (i, j, k) ∧ place (z.sel 0) (z.sel 1) (i, j, k) < z.Max.x * z.Max.y * z.Max.z := by
  obtain ⟨b0, b1, b2, c1, c2, c3⟩ := g.nums hi hj hk
  have : place (z.sel 0) (z.sel 1) (i, j, k) = i + z.Max.x * j + z.Max.x * z.Max.y * k := by
    unfold place; simp only [Zone.sel]; ring
  omega

/-- bytes of a whole variable -/
def Zone.total (z : Zone) (size : Nat) : Nat := (z.Max.x * z.Max.y * z.Max.z).toNat * size
/-- bytes of the selected part of a variable -/
def Zone.chosen (z : Zone) (size : Nat) : Nat :=
  size * ((z.sel 0).count.toNat * (z.sel 1).count.toNat * (z.sel 2).count.toNat)

theorem item_bound {z : Zone} {size : Nat} {v : Int} (h0 : 0 ≤ v) (h : v < z.Max.x * z.Max.y * z.Max.z) :
    size * v.toNat + size ≤ z.total size := by
  unfold Zone.total
  have : v.toNat + 1 ≤ (z.Max.x * z.Max.y * z.Max.z).toNat := by omega
  calc size * v.toNat + size = (v.toNat + 1) * size := by ring
    _ ≤ _ := Nat.mul_le_mul_right _ this

theorem Zone.Geo.loops {z : Zone} (g : z.Geo) {i : Nat} (hi : i < 3) (t : StepFits (z.sel i)) :
    (∀ {σ : Type} (body : Int → M σ Unit), forS (z.sel i).head ((z.sel i).max - (z.sel i).tail) (z.sel i).skip body =
      runAll body (z.sel i).picks) ∧ InI32 ((z.sel i).max - (z.sel i).tail) := by
  have s0 := g.sane i hi
  have h1 := s0.max; have h2 := s0.tail; have h3 := s0.head; have h4 := s0.sum
  have a := g.acc i hi
  unfold DimSel.Accepted at a
  unfold InI32 at *
  refine ⟨fun body => forS_eq body s0.pos (by unfold InI32; omega) (by unfold InI32; omega) (fun s m => ?_), by omega⟩
  have := t s m; have := s0.pos
  unfold DimSel.picks at m; rw [mem_picks] at m
  unfold InI32; omega

theorem fillPoints_run {z : Zone} (g : z.Geo) (t0 : StepFits (z.sel 0)) (t1 : StepFits (z.sel 1)) (t2 : StepFits (z.sel 2)) (size : Nat) (b d : Ptr) :
    fillPoints z size b d = runAll (fun p => copyPoint z size b d p.1 p.2.1 p.2.2) (selection (z.sel 0) (z.sel 1) (z.sel 2)) := by
  unfold fillPoints selection
  rw [i32_ok (x := z.Max.z - z.End.z) (g.loops (i := 2) (by decide) t2).2]
  simp only [M.liftM_eq, M.lift_ok, pure_bind]
  rw [runAll_flatMap']
  refine ((g.loops (i := 2) (by decide) t2).1 _).trans (congrArg (fun f => runAll f _) (funext fun sk => ?_))
  rw [i32_ok (x := z.Max.y - z.End.y) (g.loops (i := 1) (by decide) t1).2]
  simp only [M.lift_ok, pure_bind]
  rw [runAll_flatMap']
  refine ((g.loops (i := 1) (by decide) t1).1 _).trans (congrArg (fun f => runAll f _) (funext fun sj => ?_))
  rw [i32_ok (x := z.Max.x - z.End.x) (g.loops (i := 0) (by decide) t0).2]
  simp only [M.lift_ok, pure_bind]
  rw [runAll_map']
  exact (g.loops (i := 0) (by decide) t0).1 _

theorem fillRows_run {z : Zone} (g : z.Geo) (t1 : StepFits (z.sel 1)) (t2 : StepFits (z.sel 2)) (size : Nat) (b d : Ptr) :
    fillRows z size b d = runAll (fun p => copyRow z size b d p.1 p.2) (rows (z.sel 1) (z.sel 2)) := by
  unfold fillRows rows
  rw [i32_ok (x := z.Max.z - z.End.z) (g.loops (i := 2) (by decide) t2).2]
  simp only [M.liftM_eq, M.lift_ok, pure_bind]
  rw [runAll_flatMap']
  refine ((g.loops (i := 2) (by decide) t2).1 _).trans (congrArg (fun f => runAll f _) (funext fun sk => ?_))
  rw [i32_ok (x := z.Max.y - z.End.y) (g.loops (i := 1) (by decide) t1).2]
  simp only [M.lift_ok, pure_bind]
  rw [runAll_map']
  exact (g.loops (i := 1) (by decide) t1).1 _

theorem fillPoints_ok {z : Zone} (g : z.Geo) (t0 : StepFits (z.sel 0)) (t1 : StepFits (z.sel 1)) (t2 : StepFits (z.sel 2))
    (q : PlacesFit (z.sel 0) (z.sel 1) (z.sel 2) (z.sel 0).picks) {size d s o sl : Nat} (hsz : z.Max.x * z.Max.y * z.Max.z * size < 18446744073709551616)
    {h : Heap Byte} {dc sc : Nat → Option Byte} (hne : d ≠ s) (hd : h.blk d = some (.vals (z.chosen size) dc))
    (hs : h.blk s = some (.vals sl sc)) (hsl : o + z.total size ≤ sl) :
    ∃ dc', fillPoints z size (.at d 0) (.at s o) h = .ok () (h.upd d (some (.vals (z.chosen size) dc'))) ∧
      window dc' 0 (z.chosen size) = selectedBytes (z.sel 0) (z.sel 1) (z.sel 2) size (window sc o (z.total size)) := by
  rw [fillPoints_run g t0 t1 t2]
  obtain ⟨dc', r1, -, r3⟩ := runAll_fill (w := size) (fun p => copyPoint z size (.at d 0) (.at s o) p.1 p.2.1 p.2.2) z.bufPos
    (fun p => o + size * (place (z.sel 0) (z.sel 1) p).toNat) hne (selection (z.sel 0) (z.sel 1) (z.sel 2)) 0 h dc
    (by rw [selection_pos g.sane, length_selection z g.sane, List.range_eq_range']) hd hs
    (by rw [length_selection z g.sane, Nat.zero_add]; exact le_refl _)
    (by
      rintro ⟨i, j, k⟩ hm
      obtain ⟨hi, hj, hk⟩ := mem_selection.mp hm
      obtain ⟨p0, p1⟩ := place_bound g hi hj hk
      have := item_bound (size := size) p0 p1
      refine ⟨by omega, fun h' c hd' hs' hL => ?_⟩
      exact copyPoint_eq g q hsz hi hi hj hk hd' hs' hL (by omega))
  refine ⟨dc', r1, ?_⟩
  rw [Nat.mul_zero, length_selection z g.sane] at r3
  unfold window Zone.chosen
  rw [r3]
  unfold selectedBytes
  apply List.flatMap_congr
  rintro ⟨i, j, k⟩ hm
  obtain ⟨hi, hj, hk⟩ := mem_selection.mp hm
  obtain ⟨p0, p1⟩ := place_bound g hi hj hk
  exact (item_window sc (item_bound p0 p1)).symm

theorem row_bytes {z : Zone} (g : z.Geo) (hx : (z.sel 0).skip = 1) {size o : Nat} {sc : Nat → Option Byte} {j k : Int}
    (hj : j ∈ (z.sel 1).picks) (hk : k ∈ (z.sel 2).picks) :
    window sc (o + size * (place (z.sel 0) (z.sel 1) ((z.sel 0).head, j, k)).toNat) ((z.sel 0).count.toNat * size) =
      (z.sel 0).picks.flatMap fun i => item size (window sc o (z.total size)) (place (z.sel 0) (z.sel 1) (i, j, k)) := by
  have s0 := g.sane 0 (by decide)
  rw [window_flat, ← sel_map s0, List.flatMap_map]
  apply List.flatMap_congr
  intro i hi
  obtain ⟨p0, p1⟩ := place_bound g hi hj hk
  obtain ⟨q0, q1⟩ := place_bound g (head_mem s0 (g.acc 0 (by decide))) hj hk
  rw [item_window sc (item_bound p0 p1)]
  obtain ⟨a, ea, la, ia⟩ := sel_index s0 hi
  rw [ia]
  rw [hx, Int.one_mul] at ea
  have : (place (z.sel 0) (z.sel 1) (i, j, k)).toNat = (place (z.sel 0) (z.sel 1) ((z.sel 0).head, j, k)).toNat + a := by
    unfold place at *; simp only at *; omega
  rw [this, Nat.mul_add, Nat.add_assoc]

theorem fillRows_ok {z : Zone} (g : z.Geo) (t1 : StepFits (z.sel 1)) (t2 : StepFits (z.sel 2))
    (q : PlacesFit (z.sel 0) (z.sel 1) (z.sel 2) [(z.sel 0).head]) (hx : (z.sel 0).skip = 1) {size d s o sl : Nat}
    (hsz : z.Max.x * z.Max.y * z.Max.z * size < 18446744073709551616)
    {h : Heap Byte} {dc sc : Nat → Option Byte} (hne : d ≠ s) (hd : h.blk d = some (.vals (z.chosen size) dc))
    (hs : h.blk s = some (.vals sl sc)) (hsl : o + z.total size ≤ sl) :
    ∃ dc', fillRows z size (.at d 0) (.at s o) h = .ok () (h.upd d (some (.vals (z.chosen size) dc'))) ∧
      window dc' 0 (z.chosen size) = selectedBytes (z.sel 0) (z.sel 1) (z.sel 2) size (window sc o (z.total size)) := by
  rw [fillRows_run g t1 t2]
  have hw : (z.sel 0).count.toNat * size * ((z.sel 1).count.toNat * (z.sel 2).count.toNat) = z.chosen size := by
    unfold Zone.chosen; ring
  have bound : ∀ j k, j ∈ (z.sel 1).picks → k ∈ (z.sel 2).picks →
      size * (place (z.sel 0) (z.sel 1) ((z.sel 0).head, j, k)).toNat + (z.sel 0).count.toNat * size ≤ z.total size := by
    intro j k hj hk
    have s0 := g.sane 0 (by decide)
    have cp := Sane.count_pos s0 (g.acc 0 (by decide))
    obtain ⟨q0, q1⟩ := place_bound g (head_mem s0 (g.acc 0 (by decide))) hj hk
    -- the last point of the row
    have hlast : (z.sel 0).head + ((z.sel 0).count - 1) ∈ (z.sel 0).picks := by
      have ce := Sane.count_eq s0 (g.acc 0 (by decide))
      rw [hx] at ce
      simp only [Int.tdiv_one, Int.tmod_one] at ce
      unfold DimSel.picks
      rw [mem_picks, hx, Int.emod_one]
      have := g.acc 0 (by decide); unfold DimSel.Accepted at this
      simp at ce
      omega
    obtain ⟨p0, p1⟩ := place_bound g hlast hj hk
    have := item_bound (size := size) p0 p1
    have e : (place (z.sel 0) (z.sel 1) ((z.sel 0).head + ((z.sel 0).count - 1), j, k)).toNat =
        (place (z.sel 0) (z.sel 1) ((z.sel 0).head, j, k)).toNat + ((z.sel 0).count.toNat - 1) := by
      unfold place at *; simp only at *; omega
    rw [e] at this
    obtain ⟨n, hn⟩ : ∃ n, (z.sel 0).count.toNat = n + 1 := ⟨(z.sel 0).count.toNat - 1, by omega⟩
    rw [hn] at this ⊢
    simp only [Nat.add_sub_cancel] at this
    nlinarith
  obtain ⟨dc', r1, -, r3⟩ := runAll_fill (w := (z.sel 0).count.toNat * size) (fun p => copyRow z size (.at d 0) (.at s o) p.1 p.2) z.rowPos
    (fun p => o + size * (place (z.sel 0) (z.sel 1) ((z.sel 0).head, p.1, p.2)).toNat) hne (rows (z.sel 1) (z.sel 2)) 0 h dc
    (by rw [rows_pos g.sane, length_rows z g.sane, List.range_eq_range']) hd hs
    (by rw [length_rows z g.sane, Nat.zero_add, hw])
    (by
      rintro ⟨j, k⟩ hm
      obtain ⟨hj, hk⟩ := mem_rows.mp hm
      have := bound j k hj hk
      refine ⟨by simp only; omega, fun h' c hd' hs' hL => ?_⟩
      exact copyRow_eq g q (List.mem_singleton.mpr rfl) hsz hj hk hd' hs' hL (by omega))
  refine ⟨dc', r1, ?_⟩
  rw [Nat.mul_zero, length_rows z g.sane, hw] at r3
  unfold window
  rw [r3]
  unfold selectedBytes
  have es : selection (z.sel 0) (z.sel 1) (z.sel 2) = (rows (z.sel 1) (z.sel 2)).flatMap fun p => (z.sel 0).picks.map fun i => (i, p.1, p.2) := by
    unfold selection rows
    rw [List.flatMap_assoc]
    simp only [List.flatMap_map]
  rw [es, List.flatMap_assoc]
  apply List.flatMap_congr
  rintro ⟨j, k⟩ hm
  obtain ⟨hj, hk⟩ := mem_rows.mp hm
  rw [List.flatMap_map]
  exact row_bytes g hx hj hk

end Verif.Tec
