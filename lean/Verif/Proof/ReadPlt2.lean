import Verif.Proof.ReadPlt
import Verif.Proof.CopyRun
/-!
# `read_plt` in terms of the points of the file
-/
set_option linter.unusedSimpArgs false
namespace Verif
open Spec Tec
variable {V : Type}

/-- the points of the file in the order of the loops -/
def grid : List Int → List (List Nat)
  | [] => [[]]
  | r :: rs => (nats 0 r.toNat).flatMap fun x => (grid rs).map fun xs => x :: xs

/-- position of a point in the file -/
def rowIdx : List Int → List Nat → Nat
  | _ :: rs, x :: xs => x * prod rs + rowIdx rs xs
  | _, _ => 0

/-- the indices are those of a point of the file -/
def InGrid : List Int → List Nat → Prop
  | r :: rs, x :: xs => x < r.toNat ∧ InGrid rs xs
  | [], [] => True
  | _, _ => False

theorem mem_grid {rs : List Int} {xs : List Nat} : xs ∈ grid rs ↔ InGrid rs xs := by
  induction rs generalizing xs with
  | nil => cases xs <;> simp [grid, InGrid]
  | cons r rs ih =>
    cases xs with
    | nil => simp [grid, InGrid]
    | cons x xs =>
      simp only [grid, InGrid, List.mem_flatMap, List.mem_map, List.cons.injEq, mem_nats, ← ih]
      constructor
      · rintro ⟨a, ha, b, hb, rfl, rfl⟩; exact ⟨by omega, hb⟩
      · rintro ⟨h1, h2⟩; exact ⟨x, by omega, xs, h2, rfl, rfl⟩

theorem nodup_grid (rs : List Int) : (grid rs).Nodup := by
  induction rs with
  | nil => simp [grid]
  | cons r rs ih =>
    simp only [grid]
    have hs := nats_nodup 0 r.toNat
    revert hs
    generalize nats 0 r.toNat = l
    intro hs
    induction l with
    | nil => simp
    | cons a l ihl =>
      rw [List.nodup_cons] at hs
      rw [List.flatMap_cons, List.nodup_append]
      refine ⟨?_, ihl hs.2, ?_⟩
      · refine List.Pairwise.map _ ?_ ih
        intro x y hxy h; exact hxy (List.cons.inj h).2
      · intro p hp q hq
        simp only [List.mem_map, List.mem_flatMap] at hp hq
        obtain ⟨x, -, rfl⟩ := hp
        obtain ⟨b, hb, y, -, rfl⟩ := hq
        intro h
        exact hs.1 ((List.cons.inj h).1 ▸ hb)

theorem rowIdx_lt {rs : List Int} {xs : List Nat} (h : InGrid rs xs) : rowIdx rs xs < prod rs := by
  induction rs generalizing xs with
  | nil => cases xs <;> simp_all [InGrid, rowIdx, prod]
  | cons r rs ih =>
    match xs, h with
    | x :: xs, h =>
      have h1 := ih h.2
      have h2 := Nat.mul_le_mul_right (prod rs) (show x + 1 ≤ r.toNat from h.1)
      simp only [rowIdx, prod]
      rw [Nat.add_mul, Nat.one_mul] at h2
      omega

theorem runAll_congr {σ α : Type} {f g : α → M σ Unit} {l : List α} (h : ∀ a ∈ l, f a = g a) : runAll f l = runAll g l := by
  induction l with
  | nil => rfl
  | cons a l ih => rw [runAll_cons, runAll_cons, h a (by simp), ih fun b hb => h b (by simp [hb])]

theorem within_prod {rs is : List Int} (h : Within rs is) : prod rs ≤ prod is := by
  induction rs generalizing is with
  | nil => cases is <;> simp_all [Within, prod]
  | cons r rs ih =>
    match is, h with
    | i :: is, h =>
      obtain ⟨h1, h2, h3⟩ := h
      exact Nat.mul_le_mul (by omega) (ih h3)

theorem prod_points {es : List Ext} {ls : List Loc} (hl : es.length = ls.length) :
    prod (es.map fun e => (e.i : Int)) ≤ points (mkShape es ls) := by
  induction es generalizing ls with
  | nil => cases ls <;> simp_all [prod, mkShape, points]
  | cons e es ih =>
    match ls, hl with
    | l :: ls, hl =>
      simp only [List.map_cons, prod, mkShape, points]
      refine Nat.mul_le_mul ?_ (ih (by simpa using hl))
      simp only [Dim.width, Int.toNat_natCast]; omega

/-- the test of one dimension -/
theorem fileSize_test {r i : Int} (hr : InI32 r) (h0 : 0 ≤ i) (h1 : i < 2147483648) :
    (toU32 r > toU32 i ∨ toU32 r = 0) ↔ ¬ (0 < r ∧ r ≤ i) := by
  unfold InI32 at hr
  unfold toU32
  omega

theorem zoneLog_mem {A : ReadArgs} {z : ZoneLog} (h : A.zoneLog = .ok z) : A.log.Zones[A.zone]? = some z ∧ z ∈ A.log.Zones := by
  unfold ReadArgs.zoneLog at h
  split at h
  · cases h
  · split at h
    · rename_i z' hz
      cases h
      exact ⟨hz, List.mem_of_getElem? hz⟩
    · cases h

theorem load_congr {A : ReadArgs} {z : ZoneLog} {n : Nat} {f g : Ptr → Bool → M (RSt V) Unit} (h : ∀ p d, f p d = g p d) :
    A.load z n f = A.load z n g := by
  rw [show f = g from funext fun p => funext fun d => h p d]

/-- body of the loops -/
def Obj.readAt (k : Kind) (C : Num V) (nn : Nat) (o : Obj) (buf : Ptr) (dbl : Bool) (rs : List Int) (xs : List Nat) : M (RSt V) Unit := do
  let v ← tempVal C dbl buf (rowIdx rs xs)
  let p ← RSt.arr (o.elem k nn (xs.map Int.ofNat))
  RSt.arr (Heap.storeV p (some v))

theorem mul_lt_of_idx {a A n P : Nat} (ha : a < A) (h : A * n ≤ P) : a * n + n ≤ P := by
  have := Nat.mul_le_mul_right n (show a + 1 ≤ A from ha)
  rw [Nat.add_mul, Nat.one_mul] at this
  omega

theorem Obj.read_eq {chk : Bool} {k : Kind} {C : Num V} {A : ReadArgs} {nn : Nat} {o : Obj} {ins : List Int}
    (hi : o.sizes.map (fun s => s.2.1) = ins) (fits : ∀ i ∈ ins, 0 ≤ i ∧ i < 2147483648) (pf : prod ins < 4294967296)
    (ok : LogOk A.log) :
    o.read_plt chk k C A nn = (do
      liftM (if chk = true ∧ k.N ≤ nn then .err (.nRange nn k.N) else .ok () : Out Unit)
      let z ← (liftM A.zoneLog : M (RSt V) ZoneLog)
      if ¬ Within (fileSizes ins.length z) ins then
        M.throw (.text (lit "N_file is bigger than N_in or equal to 0"))
      else
        A.load z (prod (fileSizes ins.length z)) fun buf dbl =>
          runAll (o.readAt k C nn buf dbl (fileSizes ins.length z)) (grid (fileSizes ins.length z))) := by
  cases o with
  | d1 o =>
    subst hi
    simp only [Obj.sizes, List.map_cons, List.map_nil, List.mem_cons, List.not_mem_nil, or_false, forall_eq] at fits pf
    unfold Obj.read_plt D1.PD.read_plt
    simp only [Obj.sizes, List.map_cons, List.map_nil, List.length_cons, List.length_nil, Nat.zero_add]
    refine bind_congr (m := M (RSt V)) fun _ => ?_
    cases hz : A.zoneLog with
    | err e => rfl
    | ub u => rfl
    | ok z =>
      have hm := (zoneLog_mem hz).2
      obtain ⟨i0, i1, i2⟩ := ok.ints z hm
      have e0 : z.Real_Max_C D1.D 0 = .ok z.Real_Max.x := rfl
      simp only [e0, M.monadLift_eq, M.liftM_eq, M.lift_ok, pure_bind, fileSizes]
      have t0 := fileSize_test i0 fits.1 fits.2
      by_cases hw : Within [z.Real_Max.x] [o.size.in_]
      · have h1 := within_prod hw
        obtain ⟨a0, b0, -⟩ := hw
        rw [if_neg (by rw [t0]; simp [a0, b0]), if_neg (by simp [Within, a0, b0])]
        have n0 : toU32 z.Real_Max.x = z.Real_Max.x.toNat := toU32_of_nonneg (by omega) (by omega)
        rw [n0]
        simp only [prod, Nat.mul_one] at h1 pf ⊢
        refine load_congr fun buf dbl => ?_
        rw [forU_eq _ _ (Nat.zero_le _) (by omega)]
        simp only [grid, runAll_flatMap, List.map_cons, List.map_nil, Nat.sub_zero]
        refine runAll_congr fun x hx => ?_
        rw [runAll_cons, runAll_nil]
        refine Eq.trans ?_ bind_pure_unit.symm
        unfold D1.PD.readPt Obj.readAt
        simp only [rowIdx, prod, Nat.mul_one, Nat.add_zero, Obj.elem, List.map_cons, List.map_nil]
        rfl
      · rw [if_pos (by rw [t0]; simpa [Within] using hw), if_pos hw]
  | d2 o =>
    subst hi
    simp only [Obj.sizes, List.map_cons, List.map_nil, List.mem_cons, List.not_mem_nil, or_false, forall_eq_or_imp, forall_eq] at fits pf
    unfold Obj.read_plt D2.PD.read_plt
    simp only [Obj.sizes, List.map_cons, List.map_nil, List.length_cons, List.length_nil, Nat.zero_add]
    refine bind_congr (m := M (RSt V)) fun _ => ?_
    cases hz : A.zoneLog with
    | err e => rfl
    | ub u => rfl
    | ok z =>
      have hm := (zoneLog_mem hz).2
      obtain ⟨i0, i1, i2⟩ := ok.ints z hm
      have e0 : z.Real_Max_C D2.D 0 = .ok z.Real_Max.y := rfl
      have e1 : z.Real_Max_C D2.D 1 = .ok z.Real_Max.x := rfl
      simp only [e0, e1, M.monadLift_eq, M.liftM_eq, M.lift_ok, pure_bind, fileSizes]
      have t0 := fileSize_test i1 fits.1.1 fits.1.2
      have t1 := fileSize_test i0 fits.2.1 fits.2.2
      by_cases hw : Within [z.Real_Max.y, z.Real_Max.x] [o.size.in0, o.size.in1]
      · have h1 := within_prod hw
        obtain ⟨a0, b0, a1, b1, -⟩ := hw
        rw [if_neg (by rw [← or_assoc, t0, t1]; simp [a0, b0, a1, b1]), if_neg (by simp [Within, a0, b0, a1, b1])]
        have n0 : toU32 z.Real_Max.y = z.Real_Max.y.toNat := toU32_of_nonneg (by omega) (by omega)
        have n1 : toU32 z.Real_Max.x = z.Real_Max.x.toNat := toU32_of_nonneg (by omega) (by omega)
        rw [n0, n1]
        simp only [prod, Nat.mul_one] at h1 pf ⊢
        rw [u32_of_lt (by omega)]
        refine load_congr fun buf dbl => ?_
        rw [forU_eq _ _ (Nat.zero_le _) (by omega)]
        simp only [grid, runAll_flatMap, runAll_map, List.map_cons, List.map_nil, Nat.sub_zero]
        refine runAll_congr fun x hx => ?_
        rw [mem_nats] at hx
        rw [forU_eq _ _ (Nat.zero_le _) (by omega), Nat.sub_zero]
        refine runAll_congr fun y hy => ?_
        rw [mem_nats] at hy
        rw [runAll_cons, runAll_nil]
        refine Eq.trans ?_ bind_pure_unit.symm
        have := mul_lt_of_idx (show x < z.Real_Max.y.toNat by omega) (Nat.le_refl (z.Real_Max.y.toNat * z.Real_Max.x.toNat))
        unfold D2.PD.readPt Obj.readAt
        rw [u32_of_lt (x := x * z.Real_Max.x.toNat) (by omega), u32_of_lt (by omega)]
        simp only [rowIdx, prod, Nat.mul_one, Nat.add_zero, Obj.elem, List.map_cons, List.map_nil]
        rfl
      · rw [if_pos (by rw [← or_assoc, t0, t1]; simp only [Within, and_true] at hw; omega), if_pos hw]
  | d3 o =>
    subst hi
    simp only [Obj.sizes, List.map_cons, List.map_nil, List.mem_cons, List.not_mem_nil, or_false, forall_eq_or_imp, forall_eq] at fits pf
    unfold Obj.read_plt D3.PD.read_plt
    simp only [Obj.sizes, List.map_cons, List.map_nil, List.length_cons, List.length_nil, Nat.zero_add]
    refine bind_congr (m := M (RSt V)) fun _ => ?_
    cases hz : A.zoneLog with
    | err e => rfl
    | ub u => rfl
    | ok z =>
      have hm := (zoneLog_mem hz).2
      obtain ⟨i0, i1, i2⟩ := ok.ints z hm
      have e0 : z.Real_Max_C D3.D 0 = .ok z.Real_Max.z := rfl
      have e1 : z.Real_Max_C D3.D 1 = .ok z.Real_Max.y := rfl
      have e2 : z.Real_Max_C D3.D 2 = .ok z.Real_Max.x := rfl
      simp only [e0, e1, e2, M.monadLift_eq, M.liftM_eq, M.lift_ok, pure_bind, fileSizes]
      have t0 := fileSize_test i2 fits.1.1 fits.1.2
      have t1 := fileSize_test i1 fits.2.1.1 fits.2.1.2
      have t2 := fileSize_test i0 fits.2.2.1 fits.2.2.2
      have tt : (toU32 z.Real_Max.z > toU32 o.size.in0 ∨ toU32 z.Real_Max.z = 0 ∨ toU32 z.Real_Max.y > toU32 o.size.in1 ∨ toU32 z.Real_Max.y = 0
          ∨ toU32 z.Real_Max.x > toU32 o.size.in2 ∨ toU32 z.Real_Max.x = 0) ↔
          ¬ Within [z.Real_Max.z, z.Real_Max.y, z.Real_Max.x] [o.size.in0, o.size.in1, o.size.in2] := by
        rw [← or_assoc, t0, ← or_assoc (a := toU32 z.Real_Max.y > _), t1, t2]
        simp only [Within, and_true]; omega
      by_cases hw : Within [z.Real_Max.z, z.Real_Max.y, z.Real_Max.x] [o.size.in0, o.size.in1, o.size.in2]
      · rw [if_neg (by rw [tt]; exact not_not_intro hw), if_neg (not_not_intro hw)]
        have h1 := within_prod hw
        obtain ⟨a0, b0, a1, b1, a2, b2, -⟩ := hw
        have n0 : toU32 z.Real_Max.z = z.Real_Max.z.toNat := toU32_of_nonneg (by omega) (by omega)
        have n1 : toU32 z.Real_Max.y = z.Real_Max.y.toNat := toU32_of_nonneg (by omega) (by omega)
        have n2 : toU32 z.Real_Max.x = z.Real_Max.x.toNat := toU32_of_nonneg (by omega) (by omega)
        rw [n0, n1, n2]
        simp only [prod, Nat.mul_one] at h1 pf ⊢
        have q0 : 1 ≤ z.Real_Max.z.toNat := by omega
        have q1 : 1 ≤ z.Real_Max.y.toNat := by omega
        have q2 : 1 ≤ z.Real_Max.x.toNat := by omega
        have l0 : z.Real_Max.z.toNat < 4294967296 := by omega
        have l1 : z.Real_Max.y.toNat < 4294967296 := by omega
        have l2 : z.Real_Max.x.toNat < 4294967296 := by omega
        have pf' := Nat.lt_of_le_of_lt h1 pf
        have p1 : z.Real_Max.z.toNat * z.Real_Max.y.toNat ≤ z.Real_Max.z.toNat * (z.Real_Max.y.toNat * z.Real_Max.x.toNat) := Nat.mul_le_mul_left _ (Nat.le_mul_of_pos_right _ q2)
        rw [u32_of_lt (x := z.Real_Max.z.toNat * z.Real_Max.y.toNat) (by omega), u32_of_lt (x := z.Real_Max.z.toNat * z.Real_Max.y.toNat * z.Real_Max.x.toNat) (by rw [Nat.mul_assoc]; exact pf'), Nat.mul_assoc]
        refine load_congr fun buf dbl => ?_
        rw [forU_eq _ _ (Nat.zero_le _) l0]
        simp only [grid, runAll_flatMap, runAll_map, List.map_cons, List.map_nil, Nat.sub_zero]
        refine runAll_congr fun x hx => ?_
        rw [mem_nats] at hx
        rw [forU_eq _ _ (Nat.zero_le _) l1, Nat.sub_zero]
        refine runAll_congr fun y hy => ?_
        rw [mem_nats] at hy
        rw [forU_eq _ _ (Nat.zero_le _) l2, Nat.sub_zero]
        refine runAll_congr fun w hw' => ?_
        rw [mem_nats] at hw'
        rw [runAll_cons, runAll_nil]
        refine Eq.trans ?_ bind_pure_unit.symm
        have g1 := mul_lt_of_idx (show x < z.Real_Max.z.toNat by omega) (Nat.le_refl (z.Real_Max.z.toNat * (z.Real_Max.y.toNat * z.Real_Max.x.toNat)))
        have g2 := mul_lt_of_idx (show y < z.Real_Max.y.toNat by omega) (Nat.le_refl (z.Real_Max.y.toNat * z.Real_Max.x.toNat))
        have g3 : x * z.Real_Max.y.toNat ≤ x * (z.Real_Max.y.toNat * z.Real_Max.x.toNat) := Nat.mul_le_mul_left _ (Nat.le_mul_of_pos_right _ q2)
        unfold D3.PD.readPt Obj.readAt
        rw [u32_of_lt (x := x * z.Real_Max.y.toNat) (by omega), u32_of_lt (x := x * z.Real_Max.y.toNat * z.Real_Max.x.toNat) (by rw [Nat.mul_assoc]; omega),
          u32_of_lt (x := y * z.Real_Max.x.toNat) (by omega), u32_of_lt (x := x * z.Real_Max.y.toNat * z.Real_Max.x.toNat + y * z.Real_Max.x.toNat) (by rw [Nat.mul_assoc]; omega),
          u32_of_lt (x := x * z.Real_Max.y.toNat * z.Real_Max.x.toNat + y * z.Real_Max.x.toNat + w) (by rw [Nat.mul_assoc]; omega)]
        simp only [rowIdx, prod, Nat.mul_one, Nat.add_zero, Obj.elem, List.map_cons, List.map_nil, Nat.mul_assoc, Nat.add_assoc]
        rfl
      · rw [if_pos (by rw [tt]; exact hw), if_pos hw]

end Verif
