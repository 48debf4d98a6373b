import Verif.Proof.Tec2
import Verif.Spec.TecCalc
/-!
# Lemmas about filling zone buffers
-/
namespace Verif.Tec
open Spec

/-- the settings of the zone are good and `gather_real_size` has been called -/
structure Zone.Geo (z : Zone) : Prop where
  sane : ∀ i < 3, (z.sel i).Sane
  acc : ∀ i < 3, (z.sel i).Accepted
  real : z.Real_Max = ⟨(z.sel 0).count, (z.sel 1).count, (z.sel 2).count⟩

theorem flat_lt {i j X Y : Int} (h0 : 0 ≤ i) (h1 : i < X) (h2 : 0 ≤ j) (h3 : j < Y) : 0 ≤ X * j ∧ i + X * j < X * Y := by
  have := Int.mul_nonneg (by omega : 0 ≤ X) h2
  have := Int.mul_le_mul_of_nonneg_left (by omega : j + 1 ≤ Y) (by omega : 0 ≤ X)
  rw [Int.mul_add] at this
  omega

theorem sel_index {d : DimSel} (s : d.Sane) {v : Int} (h : v ∈ d.picks) :
    ∃ a : Nat, v = d.head + d.skip * a ∧ a < d.count ∧ ((v - d.head) / d.skip).toNat = a := by
  have hk := s.pos
  unfold DimSel.picks at h
  obtain ⟨a, ha, rfl⟩ := List.mem_iff_getElem.mp h
  refine ⟨a, picks_getElem hk ha, by unfold DimSel.count DimSel.picks; omega, ?_⟩
  rw [picks_getElem hk ha, show d.head + d.skip * (a : Int) - d.head = a * d.skip by rw [Int.mul_comm]; omega,
    Int.mul_ediv_cancel _ (by omega)]
  simp

theorem mul_tdiv {r k b : Int} (hk : 0 < k) : (r * (k * b)).tdiv k = r * b := by
  rw [show r * (k * b) = r * b * k by rw [Int.mul_assoc, Int.mul_comm k b]]
  exact Int.mul_tdiv_cancel _ (by omega)

theorem cdiv_ok {a b : Int} (hb : b ≠ 0) (h : InI32 (a.tdiv b)) : cdiv a b = .ok (a.tdiv b) := by
  unfold cdiv; rw [if_neg hb, i32_ok h]

theorem toU64_ok {a : Int} (h0 : 0 ≤ a) (h1 : a < 18446744073709551616) : toU64 a = a.toNat := by
  unfold toU64; rw [Int.emod_eq_of_lt h0 h1]

/-- place of a point in the buffer -/
def Zone.bufPos (z : Zone) (p : Int × Int × Int) : Nat :=
  ((p.1 - (z.sel 0).head) / (z.sel 0).skip).toNat + (z.sel 0).count.toNat *
    (((p.2.1 - (z.sel 1).head) / (z.sel 1).skip).toNat + (z.sel 1).count.toNat * ((p.2.2 - (z.sel 2).head) / (z.sel 2).skip).toNat)

/-- the numbers of a good zone -/
theorem Zone.Geo.nums {z : Zone} (g : z.Geo) {si sj sk : Int} (hi : si ∈ (z.sel 0).picks) (hj : sj ∈ (z.sel 1).picks)
    (hk : sk ∈ (z.sel 2).picks) :
    (0 ≤ si ∧ si < z.Max.x) ∧ (0 ≤ sj ∧ sj < z.Max.y) ∧ (0 ≤ sk ∧ sk < z.Max.z) ∧
    (0 ≤ z.Max.x * sj ∧ si + z.Max.x * sj < z.Max.x * z.Max.y) ∧
    (0 ≤ z.Max.x * z.Max.y * sk ∧ si + z.Max.x * sj + z.Max.x * z.Max.y * sk < z.Max.x * z.Max.y * z.Max.z) ∧
    z.Max.x * z.Max.y ≤ z.Max.x * z.Max.y * z.Max.z := by
  have s0 := g.sane 0 (by decide); have s1 := g.sane 1 (by decide); have s2 := g.sane 2 (by decide)
  unfold DimSel.picks at hi hj hk
  rw [mem_picks] at hi hj hk
  have := s0.head; have := s1.head; have := s2.head
  have := s0.tail; have := s1.tail; have := s2.tail
  simp only [Zone.sel] at *
  have b0 : 0 ≤ si ∧ si < z.Max.x := by omega
  have b1 : 0 ≤ sj ∧ sj < z.Max.y := by omega
  have b2 : 0 ≤ sk ∧ sk < z.Max.z := by omega
  have c1 := flat_lt b0.1 b0.2 b1.1 b1.2
  have c2 := flat_lt (X := z.Max.x * z.Max.y) (by omega) c1.2 b2.1 b2.2
  refine ⟨b0, b1, b2, c1, c2, ?_⟩
  have := Int.mul_le_mul_of_nonneg_left (by omega : 1 ≤ z.Max.z) (by omega : 0 ≤ z.Max.x * z.Max.y)
  omega

theorem copyPoint_eq {z : Zone} (g : z.Geo) {fs : List Int} (q : PlacesFit (z.sel 0) (z.sel 1) (z.sel 2) fs) {size d s o L sl : Nat} (hsz : z.Max.x * z.Max.y * z.Max.z * size < 18446744073709551616)
    {si sj sk : Int} (hf : si ∈ fs) (hi : si ∈ (z.sel 0).picks) (hj : sj ∈ (z.sel 1).picks) (hk : sk ∈ (z.sel 2).picks)
    {h : Heap Byte} {dc sc : Nat → Option Byte} (hd : h.blk d = some (.vals L dc)) (hs : h.blk s = some (.vals sl sc))
    (hL : size * z.bufPos (si, sj, sk) + size ≤ L)
    (hsl : o + size * (place (z.sel 0) (z.sel 1) (si, sj, sk)).toNat + size ≤ sl) :
    copyPoint z size (.at d 0) (.at s o) si sj sk h =
      memcpy (.at d (size * z.bufPos (si, sj, sk))) (.at s (o + size * (place (z.sel 0) (z.sel 1) (si, sj, sk)).toNat)) size h := by
  obtain ⟨b0, b1, b2, c1, c2, c3⟩ := g.nums hi hj hk
  have s0 := g.sane 0 (by decide); have s1 := g.sane 1 (by decide); have s2 := g.sane 2 (by decide)
  have k0 := s0.pos; have k1 := s1.pos; have k2 := s2.pos
  have l0 := Sane.count_le s0; have l1 := Sane.count_le s1; have l2 := Sane.count_le s2
  have p0 := Sane.count_pos s0 (g.acc 0 (by decide)); have p1 := Sane.count_pos s1 (g.acc 1 (by decide))
  have p2 := Sane.count_pos s2 (g.acc 2 (by decide))
  have u1 := q.points; have u2 := q.rows _ hj; have u3 := q.planes _ hk; have u4 := q.plane
  have u5 := q.places _ hf _ hj _ hk
  have w0 := s0.max; have w1 := s1.max; have w2 := s2.max
  unfold InI32 at w0 w1 w2
  obtain ⟨a, ea, la, ia⟩ := sel_index s0 hi
  obtain ⟨b, eb, lb, ib⟩ := sel_index s1 hj
  obtain ⟨c, ec, lc, ic⟩ := sel_index s2 hk
  have h0 := s0.head; have h1 := s1.head; have h2 := s2.head
  have ep : z.bufPos (si, sj, sk) = a + (z.sel 0).count.toNat * (b + (z.sel 1).count.toNat * c) := by
    unfold Zone.bufPos; simp only [ia, ib, ic]
  rw [ep] at hL ⊢
  have epl : place (z.sel 0) (z.sel 1) (si, sj, sk) = si + z.Max.x * sj + z.Max.x * z.Max.y * sk := by
    unfold place; simp only [Zone.sel]; ring
  rw [epl] at hsl ⊢
  have hr := g.real
  have r0 := Int.natCast_nonneg (z.sel 0).picks.length
  have r1 := Int.natCast_nonneg (z.sel 1).picks.length
  change 0 ≤ (z.sel 0).count at r0
  change 0 ≤ (z.sel 1).count at r1
  unfold copyPoint
  simp only [hr]
  simp only [Zone.sel] at *
  generalize DimSel.count _ = R0 at *
  generalize DimSel.count _ = R1 at *
  generalize DimSel.count _ = R2 at *
  clear ia ib ic hf hi hj hk s0 s1 s2 hr ep epl q
  generalize z.Max.x = X at *; generalize z.Max.y = Y at *; generalize z.Max.z = Z at *
  generalize z.Begin.x = B0 at *; generalize z.Begin.y = B1 at *; generalize z.Begin.z = B2 at *
  generalize z.Skip.x = K0 at *; generalize z.Skip.y = K1 at *; generalize z.Skip.z = K2 at *
  have f0 : si - B0 = K0 * a := by omega
  have f1 : sj - B1 = K1 * b := by omega
  have f2 : sk - B2 = K2 * c := by omega
  have z0 := Int.mul_nonneg k0.le (Int.natCast_nonneg a)
  have z1 := Int.mul_nonneg k1.le (Int.natCast_nonneg b)
  have z2 := Int.mul_nonneg k2.le (Int.natCast_nonneg c)
  rw [f1] at u2; rw [f2] at u3
  -- bounds of the products
  have m1 : 0 ≤ R0 * (K1 * b) ∧ R0 * (K1 * b) ≤ X * Y := by
    refine ⟨Int.mul_nonneg r0 (by omega), ?_⟩
    exact Int.mul_le_mul (by omega) (by omega) (by omega) (by omega)
  have m2 : 0 ≤ R0 * R1 ∧ R0 * R1 ≤ X * Y :=
    ⟨Int.mul_nonneg r0 r1, Int.mul_le_mul (by omega) (by omega) r1 (by omega)⟩
  have m3 : 0 ≤ R0 * R1 * (K2 * c) ∧ R0 * R1 * (K2 * c) ≤ X * Y * Z :=
    ⟨Int.mul_nonneg m2.1 (by omega), Int.mul_le_mul m2.2 (by omega) (by omega) (by omega)⟩
  have n1 := flat_lt (i := (a : Int)) (by omega) la (j := (b : Int)) (by omega) lb
  have n2 := flat_lt (i := (a : Int) + R0 * b) (X := R0 * R1) (by omega) n1.2 (j := (c : Int)) (by omega) lc
  have n3 : R0 * R1 * R2 ≤ X * Y * Z := Int.mul_le_mul m2.2 (by omega) (by omega) (by omega)
  have n4 : R0 * R1 ≤ R0 * R1 * R2 := le_mul_of_one_le_right m2.1 (by omega)
  have hpos : ((a + R0.toNat * (b + R1.toNat * c) : Nat) : Int) = a + R0 * b + R0 * R1 * c := by
    push_cast; rw [Int.toNat_of_nonneg r0, Int.toNat_of_nonneg r1]; ring
  generalize hN : a + R0.toNat * (b + R1.toNat * c) = N at *
  rw [f0, f1, f2]
  rw [i32_ok (by unfold InI32; omega), M.liftM_eq, M.lift_ok, pure_bind]
  rw [cdiv_ok (by omega) (by rw [Int.mul_tdiv_cancel_left _ (by omega)]; unfold InI32; omega), Int.mul_tdiv_cancel_left _ (by omega),
    M.liftM_eq, M.lift_ok, pure_bind]
  rw [i32_ok (by unfold InI32; omega), M.liftM_eq, M.lift_ok, pure_bind]
  rw [i32_ok (by unfold InI32; omega), M.liftM_eq, M.lift_ok, pure_bind]
  rw [cdiv_ok (by omega) (by rw [mul_tdiv k1]; unfold InI32; omega), mul_tdiv k1, M.liftM_eq, M.lift_ok, pure_bind]
  rw [i32_ok (by unfold InI32; omega), M.liftM_eq, M.lift_ok, pure_bind]
  rw [i32_ok (by unfold InI32; omega), M.liftM_eq, M.lift_ok, pure_bind]
  rw [i32_ok (by unfold InI32; omega), M.liftM_eq, M.lift_ok, pure_bind]
  rw [i32_ok (by unfold InI32; omega), M.liftM_eq, M.lift_ok, pure_bind]
  rw [cdiv_ok (by omega) (by rw [mul_tdiv k2]; unfold InI32; omega), mul_tdiv k2, M.liftM_eq, M.lift_ok, pure_bind]
  rw [i32_ok (by unfold InI32; omega), M.liftM_eq, M.lift_ok, pure_bind, ← hpos]
  have q1 : ((N : Nat) : Int) * size ≤ X * Y * Z * size := Int.mul_le_mul_of_nonneg_right (by omega) (by omega)
  have e1 : u64 (toU64 (N : Int) * size) = size * N := by
    rw [toU64_ok (by omega) (by omega), Int.toNat_natCast, Nat.mul_comm]
    apply Nat.mod_eq_of_lt
    rw [Nat.mul_comm]; zify; omega
  rw [e1, M.bind_ok (Heap.padd_at (r := size * N) hd (by omega) (by show _ ≤ L; omega))]
  rw [i32_ok (by unfold InI32; omega), M.liftM_eq, M.lift_ok, pure_bind]
  rw [i32_ok (by unfold InI32; omega), M.liftM_eq, M.lift_ok, pure_bind]
  rw [i32_ok (by unfold InI32; omega), M.liftM_eq, M.lift_ok, pure_bind]
  rw [i32_ok (by unfold InI32; omega), M.liftM_eq, M.lift_ok, pure_bind]
  rw [i32_ok (by unfold InI32; omega), M.liftM_eq, M.lift_ok, pure_bind]
  generalize hS : si + X * sj + X * Y * sk = S at *
  obtain ⟨S, rfl⟩ : ∃ n : Nat, S = n := ⟨S.toNat, by omega⟩
  have q2 : ((S : Nat) : Int) * size ≤ X * Y * Z * size := Int.mul_le_mul_of_nonneg_right (by omega) (by omega)
  have e2 : u64 (toU64 (S : Int) * size) = size * S := by
    rw [toU64_ok (by omega) (by omega), Int.toNat_natCast, Nat.mul_comm]
    apply Nat.mod_eq_of_lt
    rw [Nat.mul_comm]; zify; omega
  rw [Int.toNat_natCast] at hsl ⊢
  rw [e2, M.bind_ok (Heap.padd_at (r := o + size * S) hs (by omega) (by show _ ≤ sl; omega))]

/-- place of a row in the buffer -/
def Zone.rowPos (z : Zone) (p : Int × Int) : Nat :=
  ((p.1 - (z.sel 1).head) / (z.sel 1).skip).toNat + (z.sel 1).count.toNat * ((p.2 - (z.sel 2).head) / (z.sel 2).skip).toNat

theorem head_mem {d : DimSel} (_ : d.Sane) (a : d.Accepted) : d.head ∈ d.picks := by
  unfold DimSel.picks; rw [mem_picks]; unfold DimSel.Accepted at a
  exact ⟨le_refl _, by omega, by simp⟩

theorem copyRow_eq {z : Zone} (g : z.Geo) {fs : List Int} (q : PlacesFit (z.sel 0) (z.sel 1) (z.sel 2) fs) (hf : (z.sel 0).head ∈ fs) {size d s o L sl : Nat} (hsz : z.Max.x * z.Max.y * z.Max.z * size < 18446744073709551616)
    {sj sk : Int} (hj : sj ∈ (z.sel 1).picks) (hk : sk ∈ (z.sel 2).picks)
    {h : Heap Byte} {dc sc : Nat → Option Byte} (hd : h.blk d = some (.vals L dc)) (hs : h.blk s = some (.vals sl sc))
    (hL : (z.sel 0).count.toNat * size * z.rowPos (sj, sk) + (z.sel 0).count.toNat * size ≤ L)
    (hsl : o + size * (place (z.sel 0) (z.sel 1) ((z.sel 0).head, sj, sk)).toNat + (z.sel 0).count.toNat * size ≤ sl) :
    copyRow z size (.at d 0) (.at s o) sj sk h =
      memcpy (.at d ((z.sel 0).count.toNat * size * z.rowPos (sj, sk)))
        (.at s (o + size * (place (z.sel 0) (z.sel 1) ((z.sel 0).head, sj, sk)).toNat)) ((z.sel 0).count.toNat * size) h := by
  have hi : (z.sel 0).head ∈ (z.sel 0).picks := head_mem (g.sane 0 (by decide)) (g.acc 0 (by decide))
  obtain ⟨b0, b1, b2, c1, c2, c3⟩ := g.nums hi hj hk
  have s0 := g.sane 0 (by decide); have s1 := g.sane 1 (by decide); have s2 := g.sane 2 (by decide)
  have k0 := s0.pos; have k1 := s1.pos; have k2 := s2.pos
  have l0 := Sane.count_le s0; have l1 := Sane.count_le s1; have l2 := Sane.count_le s2
  have p0 := Sane.count_pos s0 (g.acc 0 (by decide)); have p1 := Sane.count_pos s1 (g.acc 1 (by decide))
  have p2 := Sane.count_pos s2 (g.acc 2 (by decide))
  have u1 := q.points; have u2 := q.rows _ hj; have u3 := q.planes _ hk; have u4 := q.plane
  have u5 := q.places _ hf _ hj _ hk
  have w0 := s0.max; have w1 := s1.max; have w2 := s2.max
  unfold InI32 at w0 w1 w2
  have la := Sane.count_pos s0 (g.acc 0 (by decide))
  obtain ⟨b, eb, lb, ib⟩ := sel_index s1 hj
  obtain ⟨c, ec, lc, ic⟩ := sel_index s2 hk
  have h0 := s0.head; have h1 := s1.head; have h2 := s2.head
  have ep : z.rowPos (sj, sk) = b + (z.sel 1).count.toNat * c := by
    unfold Zone.rowPos; simp only [ib, ic]
  rw [ep] at hL ⊢
  have epl : place (z.sel 0) (z.sel 1) ((z.sel 0).head, sj, sk) = z.Begin.x + z.Max.x * sj + z.Max.x * z.Max.y * sk := by
    unfold place; simp only [Zone.sel]; ring
  rw [epl] at hsl ⊢
  have hr := g.real
  have r0 := Int.natCast_nonneg (z.sel 0).picks.length
  have r1 := Int.natCast_nonneg (z.sel 1).picks.length
  change 0 ≤ (z.sel 0).count at r0
  change 0 ≤ (z.sel 1).count at r1
  unfold copyRow
  simp only [hr]
  simp only [Zone.sel] at *
  generalize DimSel.count _ = R0 at *
  generalize DimSel.count _ = R1 at *
  generalize DimSel.count _ = R2 at *
  clear ib ic hf hi hj hk s0 s1 s2 hr ep epl q
  generalize z.Max.x = X at *; generalize z.Max.y = Y at *; generalize z.Max.z = Z at *
  generalize z.Begin.x = B0 at *; generalize z.Begin.y = B1 at *; generalize z.Begin.z = B2 at *
  generalize z.Skip.x = K0 at *; generalize z.Skip.y = K1 at *; generalize z.Skip.z = K2 at *
  have f1 : sj - B1 = K1 * b := by omega
  have f2 : sk - B2 = K2 * c := by omega
  have z1 := Int.mul_nonneg k1.le (Int.natCast_nonneg b)
  have z2 := Int.mul_nonneg k2.le (Int.natCast_nonneg c)
  rw [f1] at u2; rw [f2] at u3
  -- bounds of the products
  have m1 : 0 ≤ R0 * (K1 * b) ∧ R0 * (K1 * b) ≤ X * Y := by
    refine ⟨Int.mul_nonneg r0 (by omega), ?_⟩
    exact Int.mul_le_mul (by omega) (by omega) (by omega) (by omega)
  have m2 : 0 ≤ R0 * R1 ∧ R0 * R1 ≤ X * Y :=
    ⟨Int.mul_nonneg r0 r1, Int.mul_le_mul (by omega) (by omega) r1 (by omega)⟩
  have m3 : 0 ≤ R0 * R1 * (K2 * c) ∧ R0 * R1 * (K2 * c) ≤ X * Y * Z :=
    ⟨Int.mul_nonneg m2.1 (by omega), Int.mul_le_mul m2.2 (by omega) (by omega) (by omega)⟩
  have n1 := flat_lt (i := (0 : Int)) (X := R0) (by omega) (by omega) (j := (b : Int)) (by omega) lb
  have n2 := flat_lt (i := (0 : Int) + R0 * b) (X := R0 * R1) (by omega) n1.2 (j := (c : Int)) (by omega) lc
  have n3 : R0 * R1 * R2 ≤ X * Y * Z := Int.mul_le_mul m2.2 (by omega) (by omega) (by omega)
  have n4 : R0 * R1 ≤ R0 * R1 * R2 := le_mul_of_one_le_right m2.1 (by omega)
  have hpos : ((R0.toNat * (b + R1.toNat * c) : Nat) : Int) = R0 * b + R0 * R1 * c := by
    push_cast; rw [Int.toNat_of_nonneg r0, Int.toNat_of_nonneg r1]; ring
  rw [show R0.toNat * size * (b + R1.toNat * c) = size * (R0.toNat * (b + R1.toNat * c)) by
    rw [Nat.mul_comm R0.toNat size, Nat.mul_assoc]] at hL ⊢
  generalize hN : R0.toNat * (b + R1.toNat * c) = N at *
  rw [f1, f2]
  rw [i32_ok (by unfold InI32; omega), M.liftM_eq, M.lift_ok, pure_bind]
  rw [i32_ok (by unfold InI32; omega), M.liftM_eq, M.lift_ok, pure_bind]
  rw [cdiv_ok (by omega) (by rw [mul_tdiv k1]; unfold InI32; omega), mul_tdiv k1, M.liftM_eq, M.lift_ok, pure_bind]
  rw [i32_ok (by unfold InI32; omega), M.liftM_eq, M.lift_ok, pure_bind]
  rw [i32_ok (by unfold InI32; omega), M.liftM_eq, M.lift_ok, pure_bind]
  rw [i32_ok (by unfold InI32; omega), M.liftM_eq, M.lift_ok, pure_bind]
  rw [cdiv_ok (by omega) (by rw [mul_tdiv k2]; unfold InI32; omega), mul_tdiv k2, M.liftM_eq, M.lift_ok, pure_bind]
  rw [i32_ok (by unfold InI32; omega), M.liftM_eq, M.lift_ok, pure_bind, ← hpos]
  have q1 : ((N : Nat) : Int) * size ≤ X * Y * Z * size := Int.mul_le_mul_of_nonneg_right (by omega) (by omega)
  have e1 : u64 (toU64 (N : Int) * size) = size * N := by
    rw [toU64_ok (by omega) (by omega), Int.toNat_natCast, Nat.mul_comm]
    apply Nat.mod_eq_of_lt
    rw [Nat.mul_comm]; zify; omega
  rw [e1, M.bind_ok (Heap.padd_at (r := size * N) hd (by omega) (by show _ ≤ L; omega))]
  rw [i32_ok (by unfold InI32; omega), M.liftM_eq, M.lift_ok, pure_bind]
  rw [i32_ok (by unfold InI32; omega), M.liftM_eq, M.lift_ok, pure_bind]
  rw [i32_ok (by unfold InI32; omega), M.liftM_eq, M.lift_ok, pure_bind]
  rw [i32_ok (by unfold InI32; omega), M.liftM_eq, M.lift_ok, pure_bind]
  rw [i32_ok (by unfold InI32; omega), M.liftM_eq, M.lift_ok, pure_bind]
  generalize hS : B0 + X * sj + X * Y * sk = S at *
  obtain ⟨S, rfl⟩ : ∃ n : Nat, S = n := ⟨S.toNat, by omega⟩
  have q2 : ((S : Nat) : Int) * size ≤ X * Y * Z * size := Int.mul_le_mul_of_nonneg_right (by omega) (by omega)
  have e2 : u64 (toU64 (S : Int) * size) = size * S := by
    rw [toU64_ok (by omega) (by omega), Int.toNat_natCast, Nat.mul_comm]
    apply Nat.mod_eq_of_lt
    rw [Nat.mul_comm]; zify; omega
  rw [Int.toNat_natCast] at hsl ⊢
  rw [e2, M.bind_ok (Heap.padd_at (r := o + size * S) hs (by omega) (by show _ ≤ sl; omega))]
  have e3 : u64 (toU64 R0 * size) = R0.toNat * size := by
    have n5 : R0 ≤ R0 * R1 := le_mul_of_one_le_right r0 (by omega)
    have : R0 * size ≤ X * Y * Z * size := Int.mul_le_mul_of_nonneg_right (by omega) (by omega)
    rw [toU64_ok (by omega) (by omega)]
    apply Nat.mod_eq_of_lt
    zify; rw [Int.toNat_of_nonneg r0]; omega
  rw [e3]

end Verif.Tec
