import Verif.Proof.Tec4
/-!
# Lemmas about `make_buf` and `realise_buf`
-/
namespace Verif.Tec
open Spec

theorem Kept.refl (h : Heap Byte) : Kept h h := ⟨fun _ _ => rfl, le_refl _, rfl⟩
theorem Kept.trans {a b c : Heap Byte} (x : Kept a b) (y : Kept b c) : Kept a c :=
  ⟨fun n hn => by rw [y.blk n (by have := x.next; omega), x.blk n hn], x.next.trans y.next, y.mem.trans x.mem⟩

theorem Holds.kept {h h' : Heap Byte} (k : Kept h h') (f : Fresh h) {p : Ptr} {l : List (Option Byte)} (H : Holds h p l) : Holds h' p l := by
  obtain ⟨b, o, len, c, e1, e2, e3, e4⟩ := H
  refine ⟨b, o, len, c, e1, ?_, e3, e4⟩
  rw [k.blk b ?_, e2]
  rcases Nat.lt_or_ge b h.next with hb | hb
  · exact hb
  · rw [f b hb] at e2; cases e2

theorem Copyable.points {x y z : DimSel} (q : Copyable x y z) : x.count * y.count * z.count ≤ 2147483647 := by
  rcases q with ⟨-, -, ⟨-, q⟩ | ⟨-, -, q⟩⟩ <;> exact q.points

theorem Zone.Geo.mono {z : Zone} (g : z.Geo) (D : List TecData) : ({ z with Data := D } : Zone).Geo :=
  ⟨g.sane, g.acc, g.real⟩

theorem Zone.Geo.realProd {z : Zone} (g : z.Geo) (hp : (z.sel 0).count * (z.sel 1).count * (z.sel 2).count ≤ 2147483647) :
    z.realProd = .ok ((z.sel 0).count * (z.sel 1).count * (z.sel 2).count) ∧
      0 ≤ (z.sel 0).count * (z.sel 1).count * (z.sel 2).count ∧
      (z.sel 0).count * (z.sel 1).count * (z.sel 2).count ≤ z.Max.x * z.Max.y * z.Max.z := by
  have s0 := g.sane 0 (by decide); have s1 := g.sane 1 (by decide); have s2 := g.sane 2 (by decide)
  have l0 := Sane.count_le s0; have l1 := Sane.count_le s1; have l2 := Sane.count_le s2
  have p0 := Sane.count_pos s0 (g.acc 0 (by decide)); have p1 := Sane.count_pos s1 (g.acc 1 (by decide))
  have p2 := Sane.count_pos s2 (g.acc 2 (by decide))
  unfold Zone.realProd
  rw [g.real]
  simp only [Zone.sel] at *
  generalize DimSel.count _ = R0 at *
  generalize DimSel.count _ = R1 at *
  generalize DimSel.count _ = R2 at *
  have m1 := Int.mul_nonneg (by omega : 0 ≤ R0) (by omega : 0 ≤ R1)
  have m2 : R0 * R1 ≤ z.Max.x * z.Max.y := Int.mul_le_mul (by omega) (by omega) (by omega) (by omega)
  have m3 := Int.mul_nonneg m1 (by omega : 0 ≤ R2)
  have m4 : R0 * R1 * R2 ≤ z.Max.x * z.Max.y * z.Max.z := Int.mul_le_mul m2 (by omega) (by omega) (by omega)
  have m5 : R0 * R1 ≤ R0 * R1 * R2 := by nlinarith
  rw [i32_ok (by unfold InI32; omega)]
  simp only [Out.ok_bind]
  rw [i32_ok (by unfold InI32; omega)]
  exact ⟨rfl, m3, m4⟩

theorem Zone.Geo.chosen_eq {z : Zone} (g : z.Geo) (hp : (z.sel 0).count * (z.sel 1).count * (z.sel 2).count ≤ 2147483647) {size : Nat} (hsz : z.Max.x * z.Max.y * z.Max.z * size < 18446744073709551616) :
    u64 (toU64 ((z.sel 0).count * (z.sel 1).count * (z.sel 2).count) * size) = z.chosen size := by
  obtain ⟨-, h0, h1⟩ := g.realProd hp
  have q : (z.sel 0).count * (z.sel 1).count * (z.sel 2).count * size ≤ z.Max.x * z.Max.y * z.Max.z * size :=
    Int.mul_le_mul_of_nonneg_right h1 (by omega)
  have p0 := Sane.count_pos (g.sane 0 (by decide)) (g.acc 0 (by decide))
  have p1 := Sane.count_pos (g.sane 1 (by decide)) (g.acc 1 (by decide))
  have p2 := Sane.count_pos (g.sane 2 (by decide)) (g.acc 2 (by decide))
  rw [toU64_ok h0 (by omega)]
  unfold Zone.chosen
  generalize (z.sel 0).count = R0 at *
  generalize (z.sel 1).count = R1 at *
  generalize (z.sel 2).count = R2 at *
  have e : (R0 * R1 * R2).toNat = R0.toNat * R1.toNat * R2.toNat := by
    zify
    rw [Int.toNat_of_nonneg h0, Int.toNat_of_nonneg (by omega), Int.toNat_of_nonneg (by omega), Int.toNat_of_nonneg (by omega)]
  rw [Nat.mul_comm size, ← e]
  apply Nat.mod_eq_of_lt
  zify; rw [Int.toNat_of_nonneg h0]; omega

/-- what the user has to provide for a variable -/
structure Zone.VarOk (z : Zone) (h : Heap Byte) (d : TecData) (data : List (Option Byte)) : Prop where
  size : z.Max.x * z.Max.y * z.Max.z * d.size < 18446744073709551616
  len : data.length = z.total d.size
  holds : Holds h d.DataP data

theorem modify_mid {α : Type} (a : List α) (x : α) (b : List α) (f : α → α) :
    (a ++ x :: b).modify a.length f = a ++ f x :: b := by
  induction a with
  | nil => rfl
  | cons y a ih => simp [ih]

theorem Zone.setBuf_mid (z : Zone) (h : Heap Byte) (done l : List TecData) (d : TecData) (p : Ptr) :
    Zone.setBuf done.length p ⟨h, { z with Data := done ++ d :: l }⟩ =
      .ok () ⟨h, { z with Data := (done ++ [{ d with buf := p }]) ++ l }⟩ := by
  unfold Zone.setBuf
  rw [St.modObj_run]
  simp only [modify_mid, List.append_assoc, List.cons_append, List.nil_append]

/-- the buffer of a variable: block and content -/
theorem Zone.fillBuf_ok {z : Zone} (g : z.Geo) (hx : z.noskip = true ↔ ByRows (z.sel 0) (z.sel 1) (z.sel 2))
    (q : Copyable (z.sel 0) (z.sel 1) (z.sel 2)) {h : Heap Byte} (f : Fresh h)
    {done l : List TecData} {d : TecData} {data : List (Option Byte)} (v : z.VarOk h d data)
    (hm : h.mem h.next (z.chosen d.size) = true) :
    ∃ h', Zone.fillBuf done.length d ⟨h, { z with Data := done ++ d :: l }⟩ =
        .ok () ⟨h', { z with Data := (done ++ [{ d with buf := .at h.next 0 }]) ++ l }⟩ ∧
      Kept h h' ∧ Fresh h' ∧ h'.next = h.next + 1 ∧
      Holds h' (.at h.next 0) (selectedBytes (z.sel 0) (z.sel 1) (z.sel 2) d.size data) := by
  obtain ⟨s, o, sl, sc, e1, e2, e3, e4⟩ := v.holds
  have hp := q.points
  have hs : s < h.next := by
    rcases Nat.lt_or_ge s h.next with hb | hb
    · exact hb
    · rw [f s hb] at e2; cases e2
  unfold Zone.fillBuf Zone.newBuf
  simp only [bind_assoc, pure_bind]
  rw [M.bind_ok (St.obj_run _), ((g.mono _).realProd (by exact hp)).1]
  simp only [M.liftM_eq, M.lift_ok, pure_bind]
  have ec := (g.mono (done ++ d :: l)).chosen_eq (by exact hp) (size := d.size) v.size
  have ez : ({ z with Data := done ++ d :: l } : Zone).chosen d.size = z.chosen d.size := rfl
  rw [ez] at ec
  rw [ec]
  have en : M.catchAs (fun _ => true) (fun _ => Err.text (lit "maybe out of memory: std::bad_alloc"))
      (St.heap (Heap.newVals (z.chosen d.size))) (⟨h, { z with Data := done ++ d :: l }⟩ : St Byte Zone) =
      .ok (.at h.next 0) ⟨h.push (.vals (z.chosen d.size) fun _ => none), { z with Data := done ++ d :: l }⟩ := by
    unfold M.catchAs
    rw [St.heap_ok (s := ⟨h, _⟩) (Heap.newVals_ok hm)]
  rw [M.bind_ok en, M.bind_ok (Zone.setBuf_mid _ _ _ _ _ _), M.bind_ok (St.obj_run _)]
  generalize hD : done ++ [{ d with buf := Ptr.at h.next 0 }] ++ l = D
  have g' := g.mono D
  have hne : h.next ≠ s := by omega
  have eb := Heap.push_blk_same h (.vals (z.chosen d.size) fun _ => none)
  have es : (h.push (.vals (z.chosen d.size) fun _ => none)).blk s = some (.vals sl sc) := by
    rw [Heap.push_blk_ne _ _ (by omega), e2]
  rw [v.len] at e3 e4
  have fin : ∀ m : M (Heap Byte) Unit, (∃ dc', m (h.push (.vals (z.chosen d.size) fun _ => none)) =
        .ok () ((h.push (.vals (z.chosen d.size) fun _ => none)).upd h.next (some (.vals (z.chosen d.size) dc'))) ∧
        window dc' 0 (z.chosen d.size) = selectedBytes (z.sel 0) (z.sel 1) (z.sel 2) d.size (window sc o (z.total d.size))) →
      ∃ h', St.heap m ⟨h.push (.vals (z.chosen d.size) fun _ => none), { z with Data := D }⟩ = .ok () ⟨h', { z with Data := D }⟩ ∧
      Kept h h' ∧ Fresh h' ∧ h'.next = h.next + 1 ∧
      Holds h' (.at h.next 0) (selectedBytes (z.sel 0) (z.sel 1) (z.sel 2) d.size data) := by
    rintro m ⟨dc', r1, r2⟩
    rw [e4] at r2
    have hl : (selectedBytes (z.sel 0) (z.sel 1) (z.sel 2) d.size data).length = z.chosen d.size := by
      rw [← r2]; simp [window]
    refine ⟨_, St.heap_ok r1, ⟨?_, by simp, by simp⟩, ?_, by simp, ?_⟩
    · intro c hc; rw [Heap.upd_blk_ne _ _ (by omega), Heap.push_blk_ne _ _ (by omega)]
    · intro c hc
      simp only [Heap.upd_next, Heap.push_next] at hc
      rw [Heap.upd_blk_ne _ _ (by omega), Heap.push_blk_ne _ _ (by omega), f c (by omega)]
    · exact ⟨h.next, 0, z.chosen d.size, dc', rfl, Heap.upd_blk_same _ _ _, by rw [hl]; omega, by rw [hl, r2]⟩
  rw [e1]
  by_cases hns : z.noskip = true
  · rw [if_pos (by exact hns)]
    rcases q with ⟨t1, t2, ⟨r, q⟩ | ⟨r, -⟩⟩
    swap; · exact (r (hx.mp hns)).elim
    exact fin _ (fillRows_ok g' t1 t2 q r.1 v.size hne eb es (by exact e3))
  · rw [if_neg (by exact hns)]
    rcases q with ⟨t1, t2, ⟨r, -⟩ | ⟨-, t0, q⟩⟩
    · exact (hns (hx.mpr r)).elim
    exact fin _ (fillPoints_ok g' t0 t1 t2 q v.size hne eb es (by exact e3))

theorem Zone.fillBuf_fail {z : Zone} (g : z.Geo) (hp : (z.sel 0).count * (z.sel 1).count * (z.sel 2).count ≤ 2147483647) {h : Heap Byte} {done l : List TecData} {d : TecData}
    (hsz : z.Max.x * z.Max.y * z.Max.z * d.size < 18446744073709551616) (hm : h.mem h.next (z.chosen d.size) = false) :
    Zone.fillBuf done.length d ⟨h, { z with Data := done ++ d :: l }⟩ =
      .err (.text (lit "maybe out of memory: std::bad_alloc")) ⟨h.skip, { z with Data := done ++ d :: l }⟩ := by
  unfold Zone.fillBuf Zone.newBuf
  simp only [bind_assoc, pure_bind]
  rw [M.bind_ok (St.obj_run _), ((g.mono _).realProd (by exact hp)).1]
  simp only [M.liftM_eq, M.lift_ok, pure_bind]
  have ec := (g.mono (done ++ d :: l)).chosen_eq (by exact hp) (size := d.size) hsz
  have ez : ({ z with Data := done ++ d :: l } : Zone).chosen d.size = z.chosen d.size := rfl
  rw [ez] at ec
  rw [ec]
  have en : M.catchAs (fun _ => true) (fun _ => Err.text (lit "maybe out of memory: std::bad_alloc"))
      (St.heap (Heap.newVals (z.chosen d.size))) (⟨h, { z with Data := done ++ d :: l }⟩ : St Byte Zone) =
      .err (.text (lit "maybe out of memory: std::bad_alloc")) ⟨h.skip, { z with Data := done ++ d :: l }⟩ := by
    unfold M.catchAs
    rw [St.heap_err (s := ⟨h, _⟩) (Heap.newVals_fail hm)]; rfl
  rw [M.bind_err en]

theorem Zone.VarOk.kept {z : Zone} {h h' : Heap Byte} (k : Kept h h') (f : Fresh h) {d : TecData} {data : List (Option Byte)}
    (v : z.VarOk h d data) : z.VarOk h' d data := ⟨v.size, v.len, v.holds.kept k f⟩

/-- all variables of a zone -/
theorem Zone.fill_all {z : Zone} (g : z.Geo) (hx : z.noskip = true ↔ ByRows (z.sel 0) (z.sel 1) (z.sel 2))
    (q : Copyable (z.sel 0) (z.sel 1) (z.sel 2)) (data : Nat → List (Option Byte)) (l : List TecData) :
    ∀ (done : List TecData) (h : Heap Byte), Fresh h →
      (∀ i d, l[i]? = some d → z.VarOk h d (data (done.length + i))) →
      ((∀ i d, l[i]? = some d → h.mem (h.next + i) (z.chosen d.size) = true) ∧
        ∃ l' h', eachIdx Zone.fillBuf done.length l ⟨h, { z with Data := done ++ l }⟩ = .ok () ⟨h', { z with Data := done ++ l' }⟩ ∧
          Kept h h' ∧ Fresh h' ∧ h'.next = h.next + l.length ∧ l'.length = l.length ∧
          ∀ i d, l[i]? = some d → l'[i]? = some { d with buf := .at (h.next + i) 0 } ∧
            Holds h' (.at (h.next + i) 0) (selectedBytes (z.sel 0) (z.sel 1) (z.sel 2) d.size (data (done.length + i)))) ∨
      ((∃ i d, l[i]? = some d ∧ h.mem (h.next + i) (z.chosen d.size) = false) ∧
        ∃ D h', eachIdx Zone.fillBuf done.length l ⟨h, { z with Data := done ++ l }⟩ =
          .err (.text (lit "maybe out of memory: std::bad_alloc")) ⟨h', { z with Data := D }⟩ ∧ Kept h h' ∧ Fresh h') := by
  induction l with
  | nil =>
    intro done h f _
    exact .inl ⟨fun i d hi => by simp at hi, [], h, rfl, Kept.refl h, f, rfl, rfl, fun i d hi => by simp at hi⟩
  | cons d l ih =>
    intro done h f hv
    have v0 := hv 0 d rfl
    unfold eachIdx
    cases hm : h.mem h.next (z.chosen d.size) with
    | false =>
      refine .inr ⟨⟨0, d, rfl, hm⟩, _, _, M.bind_err (Zone.fillBuf_fail g q.points v0.size hm), ⟨fun _ _ => rfl, by simp, rfl⟩, ?_⟩
      intro c hc; exact f c (by simp at hc; omega)
    | true =>
      obtain ⟨h1, r1, k1, f1, n1, H1⟩ := Zone.fillBuf_ok g hx q f (done := done) (l := l) v0 hm
      rw [M.bind_ok r1]
      have hlen : done.length + 1 = (done ++ [{ d with buf := Ptr.at h.next 0 }]).length := by simp
      rw [hlen]
      rcases ih (done ++ [{ d with buf := Ptr.at h.next 0 }]) h1 f1 (by
        intro i e hi
        have := (hv (i + 1) e hi).kept k1 f
        rw [← hlen, show done.length + 1 + i = done.length + (i + 1) by omega]; exact this) with
        ⟨a1, l', h', r, k, f', n, len, H⟩ | ⟨⟨i, e, hi, b⟩, D, h', r, k, f'⟩
      · refine .inl ⟨?_, { d with buf := Ptr.at h.next 0 } :: l', h', ?_, k1.trans k, f', by simp; omega, by simp [len], ?_⟩
        · intro i e hi
          cases i with
          | zero => cases hi; exact hm
          | succ i =>
            have := a1 i e hi
            rw [n1, k1.mem] at this
            rw [show h.next + (i + 1) = h.next + 1 + i by omega]; exact this
        · rw [r]; simp
        · intro i e hi
          cases i with
          | zero => cases hi; exact ⟨rfl, H1.kept k f1⟩
          | succ i =>
            have := H i e hi
            rw [n1, ← hlen, show h.next + 1 + i = h.next + (i + 1) by omega,
              show done.length + 1 + i = done.length + (i + 1) by omega] at this
            exact this
      · refine .inr ⟨⟨i + 1, e, hi, ?_⟩, D, h', r, k1.trans k, f'⟩
        rw [n1, k1.mem] at b
        rw [show h.next + (i + 1) = h.next + 1 + i by omega]; exact b

/-- without skips and exclusions everything is selected -/
theorem selected_all {z : Zone} (g : z.Geo) (h1 : ∀ i < 3, (z.sel i).skip = 1) (h2 : ∀ i < 3, (z.sel i).head = 0 ∧ (z.sel i).tail = 0)
    {size : Nat} {data : List (Option Byte)} (hl : data.length = z.total size) :
    selectedBytes (z.sel 0) (z.sel 1) (z.sel 2) size data = data := by
  have cm : ∀ i < 3, (z.sel i).count = (z.sel i).max := by
    intro i hi
    have := Sane.count_eq (g.sane i hi) (g.acc i hi)
    rw [this, h1 i hi, (h2 i hi).1, (h2 i hi).2]; simp
  have c0 : (z.sel 0).count = z.Max.x := cm 0 (by decide)
  have c1 : (z.sel 1).count = z.Max.y := cm 1 (by decide)
  have c2 : (z.sel 2).count = z.Max.z := cm 2 (by decide)
  have hp : ∀ p ∈ selection (z.sel 0) (z.sel 1) (z.sel 2), (place (z.sel 0) (z.sel 1) p).toNat = z.bufPos p := by
    rintro ⟨i, j, k⟩ hm
    obtain ⟨hi, hj, hk⟩ := mem_selection.mp hm
    obtain ⟨b0, b1, b2, -, -, -⟩ := g.nums hi hj hk
    unfold Zone.bufPos
    rw [h1 0 (by decide), h1 1 (by decide), h1 2 (by decide), (h2 0 (by decide)).1, (h2 1 (by decide)).1, (h2 2 (by decide)).1,
      c0, c1]
    unfold place
    simp only [Int.ediv_one, Int.sub_zero]
    obtain ⟨i, rfl⟩ : ∃ n : Nat, i = n := ⟨i.toNat, by omega⟩
    obtain ⟨j, rfl⟩ : ∃ n : Nat, j = n := ⟨j.toNat, by omega⟩
    obtain ⟨k, rfl⟩ : ∃ n : Nat, k = n := ⟨k.toNat, by omega⟩
    have mx : (z.sel 0).max = z.Max.x.toNat := by rw [Int.toNat_of_nonneg (by omega)]; rfl
    have my : (z.sel 1).max = z.Max.y.toNat := by rw [Int.toNat_of_nonneg (by omega)]; rfl
    rw [mx, my]
    norm_cast
  obtain ⟨c, hc⟩ : ∃ c : Nat → Option Byte, window c 0 (z.total size) = data := by
    refine ⟨fun k => (data[k]?).getD none, ?_⟩
    unfold window
    apply List.ext_getElem
    · simp [hl]
    · intro n a b; simp [List.getElem?_eq_getElem b]
  have tot : z.total size = ((z.sel 0).count.toNat * (z.sel 1).count.toNat * (z.sel 2).count.toNat) * size := by
    have p0 := Sane.count_pos (g.sane 0 (by decide)) (g.acc 0 (by decide))
    have p1 := Sane.count_pos (g.sane 1 (by decide)) (g.acc 1 (by decide))
    have p2 := Sane.count_pos (g.sane 2 (by decide)) (g.acc 2 (by decide))
    unfold Zone.total
    rw [c0] at p0 ⊢; rw [c1] at p1 ⊢; rw [c2] at p2 ⊢
    congr 1
    have := Int.mul_nonneg (Int.mul_nonneg (by omega : 0 ≤ z.Max.x) (by omega : 0 ≤ z.Max.y)) (by omega : 0 ≤ z.Max.z)
    zify
    rw [Int.toNat_of_nonneg this, Int.toNat_of_nonneg (by omega), Int.toNat_of_nonneg (by omega), Int.toNat_of_nonneg (by omega)]
  unfold selectedBytes
  rw [← hc]
  conv_rhs => rw [tot, window_flat, ← selection_pos g.sane, List.flatMap_map]
  apply List.flatMap_congr
  rintro ⟨i, j, k⟩ hm
  obtain ⟨hi, hj, hk⟩ := mem_selection.mp hm
  obtain ⟨p0, p1⟩ := place_bound g hi hj hk
  rw [item_window c (item_bound p0 p1), hp _ hm]

theorem Zone.setBuf_all (z : Zone) (h : Heap Byte) (F : TecData → Ptr) (l : List TecData) :
    ∀ done, eachIdx (fun i d => Zone.setBuf i (F d)) done.length l ⟨h, { z with Data := done ++ l }⟩ =
      .ok () ⟨h, { z with Data := done ++ l.map fun d => { d with buf := F d } }⟩ := by
  induction l with
  | nil => intro done; rfl
  | cons d l ih =>
    intro done
    unfold eachIdx
    rw [M.bind_ok (Zone.setBuf_mid z h done l d (F d))]
    have := ih (done ++ [{ d with buf := F d }])
    rw [List.length_append, List.length_singleton] at this
    rw [this]; simp

/-- settings and products of a zone are inside `int` -/
structure Zone.Fits (z : Zone) : Prop where
  sane : ∀ i < 3, (z.sel i).Sane
  acc : ∀ i < 3, (z.sel i).Accepted
  prod : z.Max.x * z.Max.y * z.Max.z ≤ 2147483647
  last : ∀ i < 3, ∀ s ∈ (z.sel i).picks, InI32 (s + (z.sel i).skip)

theorem Zone.Fits.geo {z : Zone} (f : z.Fits) : z.gathered.Geo := ⟨f.sane, f.acc, rfl⟩

theorem Zone.Fits.copyable {z : Zone} (f : z.Fits) : Copyable (z.sel 0) (z.sel 1) (z.sel 2) := by
  have st : ∀ i < 3, StepFits (z.sel i) := fun i hi s hs => (f.last i hi s hs).2
  have s0 := f.sane 0 (by decide); have s1 := f.sane 1 (by decide); have s2 := f.sane 2 (by decide)
  have p0 := Sane.count_pos s0 (f.acc 0 (by decide)); have p1 := Sane.count_pos s1 (f.acc 1 (by decide))
  have p2 := Sane.count_pos s2 (f.acc 2 (by decide))
  have l0 := Sane.count_le s0; have l1 := Sane.count_le s1; have l2 := Sane.count_le s2
  have h0 := s0.head; have h1 := s1.head; have h2 := s2.head
  have hp := f.prod
  have key : ∀ fs : List Int, (∀ i ∈ fs, i ∈ (z.sel 0).picks) → PlacesFit (z.sel 0) (z.sel 1) (z.sel 2) fs := by
    intro fs hfs
    have hm := head_mem s0 (f.acc 0 (by decide))
    have hm1 := head_mem s1 (f.acc 1 (by decide))
    have hm2 := head_mem s2 (f.acc 2 (by decide))
    have big := f.geo.nums hm hm1 hm2
    obtain ⟨-, -, -, -, -, c3⟩ := big
    have c3' : (z.sel 0).max * (z.sel 1).max ≤ (z.sel 0).max * (z.sel 1).max * (z.sel 2).max := c3
    have hp' : (z.sel 0).max * (z.sel 1).max * (z.sel 2).max ≤ 2147483647 := hp
    have m2 : (z.sel 0).count * (z.sel 1).count ≤ (z.sel 0).max * (z.sel 1).max :=
      Int.mul_le_mul (by omega) (by omega) (by omega) (by omega)
    refine ⟨?_, ?_, ?_, by omega, ?_⟩
    · have : (z.sel 0).count * (z.sel 1).count * (z.sel 2).count ≤ (z.sel 0).max * (z.sel 1).max * (z.sel 2).max :=
        Int.mul_le_mul m2 (by omega) (by omega) (Int.mul_nonneg (by omega) (by omega))
      omega
    · intro j hj
      obtain ⟨-, b1, -⟩ := f.geo.nums hm hj hm2
      have b1' : 0 ≤ j ∧ j < (z.sel 1).max := b1
      have b3 : (z.sel 1).head ≤ j := by unfold DimSel.picks at hj; rw [mem_picks] at hj; omega
      have : (z.sel 0).count * (j - (z.sel 1).head) ≤ (z.sel 0).max * (z.sel 1).max :=
        Int.mul_le_mul (by omega) (by omega) (by omega) (by omega)
      omega
    · intro k hk
      obtain ⟨-, -, b1, -⟩ := f.geo.nums hm hm1 hk
      have b1' : 0 ≤ k ∧ k < (z.sel 2).max := b1
      have b3 : (z.sel 2).head ≤ k := by unfold DimSel.picks at hk; rw [mem_picks] at hk; omega
      have : (z.sel 0).count * (z.sel 1).count * (k - (z.sel 2).head) ≤ (z.sel 0).max * (z.sel 1).max * (z.sel 2).max :=
        Int.mul_le_mul m2 (by omega) (by omega) (Int.mul_nonneg (by omega) (by omega))
      omega
    · intro i hi j hj k hk
      obtain ⟨-, -, -, -, c, -⟩ := f.geo.nums (hfs i hi) hj hk
      have c' : i + (z.sel 0).max * j + (z.sel 0).max * (z.sel 1).max * k < (z.sel 0).max * (z.sel 1).max * (z.sel 2).max := c.2
      omega
  refine ⟨st 1 (by decide), st 2 (by decide), ?_⟩
  by_cases hr : ByRows (z.sel 0) (z.sel 1) (z.sel 2)
  · refine .inl ⟨hr, key _ ?_⟩
    intro i hi
    rw [List.mem_singleton.mp hi]; exact head_mem s0 (f.acc 0 (by decide))
  · exact .inr ⟨hr, st 0 (by decide), key _ fun _ h => h⟩

theorem Zone.gathered_noskip {z : Zone} (h : z.gathered.noskip = true) : ∀ i < 3, (z.sel i).skip = 1 := by
  simp only [Zone.gathered, Bool.and_eq_true, beq_iff_eq] at h
  obtain ⟨⟨h0, h1⟩, h2⟩ := h
  intro i hi
  match i, hi with
  | 0, _ => exact h0
  | 1, _ => exact h1
  | 2, _ => exact h2

theorem Zone.gathered_noexc {z : Zone} (h : z.gathered.noexc = true) : ∀ i < 3, (z.sel i).head = 0 ∧ (z.sel i).tail = 0 := by
  simp only [Zone.gathered, Bool.and_eq_true, beq_iff_eq] at h
  obtain ⟨⟨h0, h1⟩, h2⟩ := h
  intro i hi
  match i, hi with
  | 0, _ => exact h0
  | 1, _ => exact h1
  | 2, _ => exact h2

/-- the buffers after `make_buf` -/
structure Zone.Bufs (z : Zone) (h h' : Heap Byte) (data : Nat → List (Option Byte)) (D : List TecData) (nr : Bool) : Prop where
  kept : Kept h h'
  fresh : Fresh h'
  len : D.length = z.Data.length
  holds : ∀ i d, z.Data[i]? = some d → ∃ p, D[i]? = some { d with buf := p } ∧
    Holds h' p (selectedBytes (z.sel 0) (z.sel 1) (z.sel 2) d.size (data i))
  own : if nr then h'.next = h.next + z.Data.length ∧ ∀ (i : Nat) (d : TecData), D[i]? = some d → d.buf = Ptr.at (h.next + i) 0
    else h' = h

theorem Zone.gathered_rows {z : Zone} : z.gathered.noskip = true ↔ ByRows (z.sel 0) (z.sel 1) (z.sel 2) := by
  simp only [Zone.gathered, Bool.and_eq_true, beq_iff_eq, ByRows, Zone.sel]
  tauto

/-- the settings of a zone are good, and the selected points can be copied if they have to be -/
structure Zone.Makes (z : Zone) : Prop where
  sane : ∀ i < 3, (z.sel i).Sane
  acc : ∀ i < 3, (z.sel i).Accepted
  copy : ¬(z.gathered.noskip = true ∧ z.gathered.noexc = true) → Copyable (z.sel 0) (z.sel 1) (z.sel 2)

theorem Zone.Makes.geo {z : Zone} (f : z.Makes) : z.gathered.Geo := ⟨f.sane, f.acc, rfl⟩
theorem Zone.Fits.makes {z : Zone} (f : z.Fits) : z.Makes := ⟨f.sane, f.acc, fun _ => f.copyable⟩

theorem Zone.make_buf_run {z : Zone} (f : z.Makes) {h : Heap Byte} (fr : Fresh h) (data : Nat → List (Option Byte))
    (hv : ∀ i d, z.Data[i]? = some d → z.VarOk h d (data i)) :
    (((z.gathered.noskip = true ∧ z.gathered.noexc = true) ∨
        ∀ i d, z.Data[i]? = some d → h.mem (h.next + i) (z.chosen d.size) = true) ∧
      ∃ D h' nr, Zone.make_buf ⟨h, z.gathered⟩ = .ok () ⟨h', { z.gathered with Data := D, needreal := nr }⟩ ∧ z.Bufs h h' data D nr) ∨
    (¬(z.gathered.noskip = true ∧ z.gathered.noexc = true) ∧ (∃ i d, z.Data[i]? = some d ∧ h.mem (h.next + i) (z.chosen d.size) = false) ∧
      ∃ D h', Zone.make_buf ⟨h, z.gathered⟩ = .err (.text (lit "maybe out of memory: std::bad_alloc")) ⟨h', { z.gathered with Data := D }⟩ ∧
        Kept h h' ∧ Fresh h') := by
  unfold Zone.make_buf
  rw [M.bind_ok (St.obj_run _)]
  by_cases hc : (z.gathered.noskip && z.gathered.noexc) = true
  · rw [if_pos hc]
    rw [Bool.and_eq_true] at hc
    have e := Zone.setBuf_all z.gathered h (fun d => d.DataP) z.Data []
    simp only [List.nil_append, List.length_nil] at e
    refine .inl ⟨.inl hc, z.Data.map fun d => { d with buf := d.DataP }, h, false, ?_, Kept.refl h, fr, by simp, ?_, rfl⟩
    · rw [M.bind_ok (show eachIdx (fun i d => Zone.setBuf i d.DataP) 0 z.gathered.Data ⟨h, z.gathered⟩ = _ from e), St.modObj_run]
    · intro i d hi
      refine ⟨d.DataP, by rw [List.getElem?_map, hi]; rfl, ?_⟩
      have v := hv i d hi
      have := selected_all f.geo (Zone.gathered_noskip hc.1) (Zone.gathered_noexc hc.2) (size := d.size) (data := data i) v.len
      change selectedBytes (z.sel 0) (z.sel 1) (z.sel 2) d.size (data i) = data i at this
      rw [this]; exact v.holds
  · rw [if_neg hc]
    rcases Zone.fill_all f.geo Zone.gathered_rows (f.copy (by rw [← Bool.and_eq_true]; exact hc)) data z.Data [] h fr
      (by intro i d hi
          rw [List.length_nil, Nat.zero_add]
          exact ⟨(hv i d hi).size, (hv i d hi).len, (hv i d hi).holds⟩) with
      ⟨hm, l', h', r, k, f', n, len, H⟩ | ⟨hm, D, h', r, k, f'⟩
    · simp only [List.nil_append, List.length_nil, Nat.zero_add] at r H
      refine .inl ⟨.inr hm, l', h', true, ?_, k, f', len, fun i d hi => ⟨_, (H i d hi).1, (H i d hi).2⟩, n, ?_⟩
      · rw [M.bind_ok (show eachIdx (fun i d => Zone.fillBuf i d) 0 z.gathered.Data ⟨h, z.gathered⟩ = _ from r), St.modObj_run]
      · intro i d hi
        have : i < z.Data.length := by
          rw [← len]; exact (List.getElem?_eq_some_iff.mp hi).1
        have := (H i z.Data[i] (List.getElem?_eq_getElem this)).1
        rw [hi] at this
        cases this; rfl
    · simp only [List.nil_append, List.length_nil] at r
      rw [Bool.and_eq_true] at hc
      refine .inr ⟨hc, hm, D, h', ?_, k, f'⟩
      rw [M.bind_err (show eachIdx (fun i d => Zone.fillBuf i d) 0 z.gathered.Data ⟨h, z.gathered⟩ = _ from r)]

theorem Zone.make_buf_ok {z : Zone} (f : z.Fits) {h : Heap Byte} (fr : Fresh h) (data : Nat → List (Option Byte))
    (hv : ∀ i d, z.Data[i]? = some d → z.VarOk h d (data i)) :
    (((z.gathered.noskip = true ∧ z.gathered.noexc = true) ∨
        ∀ i d, z.Data[i]? = some d → h.mem (h.next + i) (z.chosen d.size) = true) ∧
      ∃ D h' nr, Zone.make_buf ⟨h, z.gathered⟩ = .ok () ⟨h', { z.gathered with Data := D, needreal := nr }⟩ ∧ z.Bufs h h' data D nr) ∨
    (¬(z.gathered.noskip = true ∧ z.gathered.noexc = true) ∧ (∃ i d, z.Data[i]? = some d ∧ h.mem (h.next + i) (z.chosen d.size) = false) ∧
      ∃ D h', Zone.make_buf ⟨h, z.gathered⟩ = .err (.text (lit "maybe out of memory: std::bad_alloc")) ⟨h', { z.gathered with Data := D }⟩ ∧
        Kept h h' ∧ Fresh h') := Zone.make_buf_run f.makes fr data hv

/-- releasing buffers that are consecutive blocks -/
theorem del_all {z : Zone} (l : List TecData) : ∀ (n : Nat) (h : Heap Byte), h.next = n + l.length →
    (∀ i d, l[i]? = some d → d.buf = .at (n + i) 0 ∧ (h.blk (n + i)).isSome) →
    ∃ h', each l (fun d => St.heap (Heap.delArr d.buf)) ⟨h, z⟩ = .ok () (⟨h', z⟩ : St Byte Zone) ∧
      (∀ c, h'.blk c = if n ≤ c ∧ c < n + l.length then none else h.blk c) ∧ h'.next = h.next ∧ h'.mem = h.mem := by
  induction l with
  | nil => intro n h _ _; exact ⟨h, rfl, fun c => by rw [if_neg (by simp)], rfl, rfl⟩
  | cons d l ih =>
    intro n h hn hl
    obtain ⟨e, hs⟩ := hl 0 d rfl
    obtain ⟨B, hB⟩ := Option.isSome_iff_exists.mp hs
    unfold each
    rw [e, Nat.add_zero] at *
    rw [M.bind_ok (St.heap_ok (Heap.delArr_at hB))]
    obtain ⟨h', r, hb, hn', hm'⟩ := ih (n + 1) (h.upd n none) (by simp at hn ⊢; omega) (by
      intro i d' hi
      have := hl (i + 1) d' hi
      rw [show n + 1 + i = n + (i + 1) by omega, Heap.upd_blk_ne _ _ (by omega)]; exact this)
    refine ⟨h', r, ?_, hn', hm'⟩
    intro c
    rw [hb c]
    simp only [List.length_cons]
    by_cases hc : c = n
    · subst hc; simp
    · rw [Heap.upd_blk_ne _ _ hc]
      by_cases h1 : n + 1 ≤ c ∧ c < n + 1 + l.length
      · rw [if_pos h1, if_pos (by omega)]
      · rw [if_neg h1, if_neg (by omega)]

/-- a variable without its buffer -/
def TecData.core (d : TecData) : TecData := { d with buf := .null }

/-- `realise_buf` frees exactly the buffers -/
theorem Zone.realise_ok {z : Zone} {h h' : Heap Byte} {data : Nat → List (Option Byte)} {D : List TecData} {nr : Bool}
    (fr : Fresh h) (b : z.Bufs h h' data D nr) (z' : Zone) (hD : z'.Data = D) (hnr : z'.needreal = nr) :
    ∃ h'' D', Zone.realise_buf ⟨h', z'⟩ = .ok () ⟨h'', { z' with Data := D', needreal := false }⟩ ∧
      h''.blk = h.blk ∧ h''.next = h'.next ∧ h''.mem = h.mem ∧ D'.map TecData.core = D.map TecData.core := by
  unfold Zone.realise_buf
  rw [M.bind_ok (St.obj_run _)]
  cases nr with
  | false =>
    have e := b.own; rw [if_neg (by simp)] at e; subst e
    rw [if_neg (by simp [hnr])]
    have := Zone.setBuf_all z' h' (fun _ => Ptr.null) z'.Data []
    simp only [List.nil_append, List.length_nil] at this
    refine ⟨h', z'.Data.map fun d => { d with buf := .null }, ?_, rfl, rfl, rfl, by rw [hD, List.map_map]; rfl⟩
    rw [show ({ z' with Data := z'.Data.map fun d => { d with buf := .null }, needreal := false } : Zone) =
      { z' with Data := z'.Data.map fun d => { d with buf := .null } } by rw [← hnr]]
    exact this
  | true =>
    have e := b.own; rw [if_pos rfl] at e
    rw [if_pos (by exact hnr)]
    subst hD
    obtain ⟨h'', r, hb, hn, hm⟩ := del_all (z := z') z'.Data h.next h' (by rw [b.len]; exact e.1) (by
      intro i d hi
      refine ⟨e.2 i d hi, ?_⟩
      have hlt : i < z.Data.length := by rw [← b.len]; exact (List.getElem?_eq_some_iff.mp hi).1
      obtain ⟨p, hp1, b', o, len, c, q1, q2, -, -⟩ := b.holds i z.Data[i] (List.getElem?_eq_getElem hlt)
      rw [hi] at hp1
      cases hp1
      have := e.2 i _ hi
      simp only at this
      rw [this] at q1; cases q1
      rw [q2]; rfl)
    refine ⟨h'', z'.Data, ?_, ?_, hn, hm.trans b.kept.mem, rfl⟩
    · rw [M.bind_ok r, St.modObj_run]
    · funext c
      rw [hb c]
      split
      · rename_i hc; exact (fr c hc.1).symm
      · rename_i hc
        rcases Nat.lt_or_ge c h.next with h1 | h1
        · exact b.kept.blk c h1
        · rw [fr c h1, b.fresh c (by rw [e.1, ← b.len]; omega)]

end Verif.Tec
