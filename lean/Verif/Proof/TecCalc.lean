import Verif.Proof.Tec5
import Verif.Proof.Quiet
/-!
# What a successful `make_buf` has computed
-/
namespace Verif.Tec
open Spec

section
variable {σ α β : Type}

theorem bind_done {m : M σ α} {f : α → M σ β} {s s' : σ} {b : β} (h : (m >>= f) s = .ok b s') :
    ∃ a t, m s = .ok a t ∧ f a t = .ok b s' := by
  rw [M.bind_run] at h
  cases hm : m s with
  | ok a t => rw [hm] at h; exact ⟨a, t, rfl, h⟩
  | err e t => rw [hm] at h; cases h
  | ub u => rw [hm] at h; cases h

theorem i32_done {x : Int} {f : Int → M σ β} {s s' : σ} {b : β} (h : (liftM (i32 x) >>= f) s = .ok b s') :
    InI32 x ∧ f x s = .ok b s' := by
  by_cases hx : InI32 x
  · rw [i32_ok hx, M.liftM_eq, M.lift_ok, pure_bind] at h; exact ⟨hx, h⟩
  · rw [i32_bad' hx, M.liftM_eq, M.lift_ub, M.undef_bind, M.undef_run] at h; cases h

theorem cdiv_done {x y : Int} {f : Int → M σ β} {s s' : σ} {b : β} (h : (liftM (cdiv x y) >>= f) s = .ok b s') :
    f (x.tdiv y) s = .ok b s' := by
  unfold cdiv at h
  split at h
  · rw [M.liftM_eq, M.lift_ub, M.undef_bind, M.undef_run] at h; cases h
  · exact (i32_done h).2

theorem loopS_done {body : Int → M σ Unit} {e k : Int} (hk : 0 < k) : ∀ (f : Nat) (b : Int) (s s' : σ),
    loopS body e k f b s = .ok () s' → ∀ p ∈ picks b e k, (∃ t t', body p t = .ok () t') ∧ InI32 (p + k) := by
  intro f
  induction f with
  | zero => intro b s s' h; cases h
  | succ f ih =>
    intro b s s' h p hp
    unfold loopS at h
    by_cases hb : b < e
    · rw [if_pos hb] at h
      rw [picks_cons hk hb] at hp
      obtain ⟨_, t, h1, h2⟩ := bind_done h
      obtain ⟨h3, h4⟩ := i32_done h2
      rcases List.mem_cons.mp hp with rfl | hp
      · exact ⟨⟨s, t, h1⟩, h3⟩
      · exact ih _ _ _ h4 p hp
    · rw [picks_nil (by omega)] at hp; cases hp

theorem Quiet.cdiv (x y : Int) : Quiet (liftM (cdiv x y) : M σ Int) := by
  intro s e s' h
  unfold Tec.cdiv Verif.i32 at h
  split at h
  · exact nomatch h
  · split at h <;> exact nomatch h

theorem Quiet.loopS {body : Int → M σ Unit} (h : ∀ i, Quiet (body i)) (e k : Int) (f : Nat) (b : Int) : Quiet (loopS body e k f b) := by
  induction f generalizing b with
  | zero => exact Quiet.undef _
  | succ f ih =>
    unfold Tec.loopS
    split
    · exact (h b).bind fun _ => (Quiet.i32 _).bind fun _ => ih _
    · exact Quiet.pure ()
end

theorem Quiet.padd (p : Ptr) (n : Int) : Quiet (Heap.padd p n : M (Heap Byte) Ptr) := by
  intro s e s' h
  unfold Heap.padd at h
  split at h <;> (try split at h) <;> (try split at h) <;> exact nomatch h

theorem Quiet.memcpy (p q : Ptr) (n : Nat) : Quiet (memcpy p q n) := by
  intro s e s' h
  unfold Tec.memcpy at h
  split at h
  · split at h <;> (try split at h) <;> exact nomatch h
  · exact nomatch h

theorem Quiet.copyRow (z : Zone) (size : Nat) (b d : Ptr) (sj sk : Int) : Quiet (copyRow z size b d sj sk) := by
  unfold Tec.copyRow
  exact (Quiet.i32 _).bind fun _ => (Quiet.i32 _).bind fun _ => (Quiet.cdiv _ _).bind fun _ => (Quiet.i32 _).bind fun _ =>
    (Quiet.i32 _).bind fun _ => (Quiet.i32 _).bind fun _ => (Quiet.cdiv _ _).bind fun _ => (Quiet.i32 _).bind fun _ =>
    (Quiet.padd _ _).bind fun _ => (Quiet.i32 _).bind fun _ => (Quiet.i32 _).bind fun _ => (Quiet.i32 _).bind fun _ =>
    (Quiet.i32 _).bind fun _ => (Quiet.i32 _).bind fun _ => (Quiet.padd _ _).bind fun _ => Quiet.memcpy _ _ _

theorem Quiet.copyPoint (z : Zone) (size : Nat) (b d : Ptr) (si sj sk : Int) : Quiet (copyPoint z size b d si sj sk) := by
  unfold Tec.copyPoint
  exact (Quiet.i32 _).bind fun _ => (Quiet.cdiv _ _).bind fun _ => (Quiet.i32 _).bind fun _ => (Quiet.i32 _).bind fun _ =>
    (Quiet.cdiv _ _).bind fun _ => (Quiet.i32 _).bind fun _ => (Quiet.i32 _).bind fun _ =>
    (Quiet.i32 _).bind fun _ => (Quiet.i32 _).bind fun _ => (Quiet.cdiv _ _).bind fun _ => (Quiet.i32 _).bind fun _ =>
    (Quiet.padd _ _).bind fun _ => (Quiet.i32 _).bind fun _ => (Quiet.i32 _).bind fun _ => (Quiet.i32 _).bind fun _ =>
    (Quiet.i32 _).bind fun _ => (Quiet.i32 _).bind fun _ => (Quiet.padd _ _).bind fun _ => Quiet.memcpy _ _ _

theorem Quiet.fillRows (z : Zone) (size : Nat) (b d : Ptr) : Quiet (fillRows z size b d) := by
  unfold Tec.fillRows
  exact (Quiet.i32 _).bind fun _ => Quiet.loopS (fun _ => (Quiet.i32 _).bind fun _ => Quiet.loopS (fun _ => Quiet.copyRow _ _ _ _ _ _) _ _ _ _) _ _ _ _

theorem Quiet.fillPoints (z : Zone) (size : Nat) (b d : Ptr) : Quiet (fillPoints z size b d) := by
  unfold Tec.fillPoints
  exact (Quiet.i32 _).bind fun _ => Quiet.loopS (fun _ => (Quiet.i32 _).bind fun _ => Quiet.loopS
    (fun _ => (Quiet.i32 _).bind fun _ => Quiet.loopS (fun _ => Quiet.copyPoint _ _ _ _ _ _ _) _ _ _ _) _ _ _ _) _ _ _ _

theorem copyRow_done {z : Zone} {size : Nat} {b d : Ptr} {sj sk : Int} {h h' : Heap Byte} (H : copyRow z size b d sj sk h = .ok () h') :
    InI32 (z.Real_Max.x * (sj - z.Begin.y)) ∧ InI32 (z.Real_Max.x * z.Real_Max.y * (sk - z.Begin.z)) ∧ InI32 (z.Max.x * z.Max.y) ∧
      InI32 (z.Begin.x + z.Max.x * sj + z.Max.x * z.Max.y * sk) := by
  unfold copyRow at H
  obtain ⟨-, H⟩ := i32_done H
  obtain ⟨a1, H⟩ := i32_done H
  have H := cdiv_done H
  obtain ⟨-, H⟩ := i32_done H
  obtain ⟨-, H⟩ := i32_done H
  obtain ⟨a2, H⟩ := i32_done H
  have H := cdiv_done H
  obtain ⟨-, H⟩ := i32_done H
  obtain ⟨_, _, -, H⟩ := bind_done H
  obtain ⟨-, H⟩ := i32_done H
  obtain ⟨-, H⟩ := i32_done H
  obtain ⟨a3, H⟩ := i32_done H
  obtain ⟨-, H⟩ := i32_done H
  obtain ⟨a4, H⟩ := i32_done H
  exact ⟨a1, a2, a3, a4⟩

theorem copyPoint_done {z : Zone} {size : Nat} {b d : Ptr} {si sj sk : Int} {h h' : Heap Byte} (H : copyPoint z size b d si sj sk h = .ok () h') :
    InI32 (z.Real_Max.x * (sj - z.Begin.y)) ∧ InI32 (z.Real_Max.x * z.Real_Max.y * (sk - z.Begin.z)) ∧ InI32 (z.Max.x * z.Max.y) ∧
      InI32 (si + z.Max.x * sj + z.Max.x * z.Max.y * sk) := by
  unfold copyPoint at H
  obtain ⟨-, H⟩ := i32_done H
  have H := cdiv_done H
  obtain ⟨-, H⟩ := i32_done H
  obtain ⟨a1, H⟩ := i32_done H
  have H := cdiv_done H
  obtain ⟨-, H⟩ := i32_done H
  obtain ⟨-, H⟩ := i32_done H
  obtain ⟨-, H⟩ := i32_done H
  obtain ⟨a2, H⟩ := i32_done H
  have H := cdiv_done H
  obtain ⟨-, H⟩ := i32_done H
  obtain ⟨_, _, -, H⟩ := bind_done H
  obtain ⟨-, H⟩ := i32_done H
  obtain ⟨-, H⟩ := i32_done H
  obtain ⟨a3, H⟩ := i32_done H
  obtain ⟨-, H⟩ := i32_done H
  obtain ⟨a4, H⟩ := i32_done H
  exact ⟨a1, a2, a3, a4⟩

theorem fillRows_done {z : Zone} (g : z.Geo) (hp : (z.sel 0).count * (z.sel 1).count * (z.sel 2).count ≤ 2147483647) {size : Nat} {b d : Ptr}
    {h h' : Heap Byte} (H : fillRows z size b d h = .ok () h') :
    StepFits (z.sel 1) ∧ StepFits (z.sel 2) ∧ PlacesFit (z.sel 0) (z.sel 1) (z.sel 2) [(z.sel 0).head] := by
  have k1 : 0 < z.Skip.y := (g.sane 1 (by decide)).pos
  have k2 : 0 < z.Skip.z := (g.sane 2 (by decide)).pos
  have m1 := head_mem (g.sane 1 (by decide)) (g.acc 1 (by decide))
  have m2 := head_mem (g.sane 2 (by decide)) (g.acc 2 (by decide))
  unfold fillRows at H
  obtain ⟨-, H⟩ := i32_done H
  have H2 := loopS_done k2 _ _ _ _ H
  have row : ∀ j ∈ (z.sel 1).picks, ∀ k ∈ (z.sel 2).picks, (∃ t t', copyRow z size b d j k t = .ok () t') ∧ InI32 (j + z.Skip.y) := by
    intro j hj k hk
    obtain ⟨⟨t, t', h1⟩, -⟩ := H2 k hk
    obtain ⟨-, h1⟩ := i32_done h1
    exact loopS_done k1 _ _ _ _ h1 j hj
  have num : ∀ j ∈ (z.sel 1).picks, ∀ k ∈ (z.sel 2).picks,
      (InI32 ((z.sel 0).count * (j - z.Begin.y)) ∧ InI32 ((z.sel 0).count * (z.sel 1).count * (k - z.Begin.z)) ∧ InI32 (z.Max.x * z.Max.y) ∧
      InI32 (z.Begin.x + z.Max.x * j + z.Max.x * z.Max.y * k)) := fun j hj k hk => by
    obtain ⟨⟨t, t', h1⟩, -⟩ := row j hj k hk
    have := copyRow_done h1
    rw [g.real] at this
    exact this
  refine ⟨fun j hj => (row j hj _ m2).2.2, fun k hk => (H2 k hk).2.2, hp, fun j hj => (num j hj _ m2).1.2,
    fun k hk => (num _ m1 k hk).2.1.2, (num _ m1 _ m2).2.2.1.2, ?_⟩
  intro i hi j hj k hk
  rw [List.mem_singleton.mp hi]
  exact (num j hj k hk).2.2.2.2

theorem fillPoints_done {z : Zone} (g : z.Geo) (hp : (z.sel 0).count * (z.sel 1).count * (z.sel 2).count ≤ 2147483647) {size : Nat} {b d : Ptr}
    {h h' : Heap Byte} (H : fillPoints z size b d h = .ok () h') :
    StepFits (z.sel 0) ∧ StepFits (z.sel 1) ∧ StepFits (z.sel 2) ∧ PlacesFit (z.sel 0) (z.sel 1) (z.sel 2) (z.sel 0).picks := by
  have k0 : 0 < z.Skip.x := (g.sane 0 (by decide)).pos
  have k1 : 0 < z.Skip.y := (g.sane 1 (by decide)).pos
  have k2 : 0 < z.Skip.z := (g.sane 2 (by decide)).pos
  have m0 := head_mem (g.sane 0 (by decide)) (g.acc 0 (by decide))
  have m1 := head_mem (g.sane 1 (by decide)) (g.acc 1 (by decide))
  have m2 := head_mem (g.sane 2 (by decide)) (g.acc 2 (by decide))
  unfold fillPoints at H
  obtain ⟨-, H⟩ := i32_done H
  have H2 := loopS_done k2 _ _ _ _ H
  have row : ∀ j ∈ (z.sel 1).picks, ∀ k ∈ (z.sel 2).picks, InI32 (j + z.Skip.y) ∧
      ∀ i ∈ (z.sel 0).picks, (∃ t t', copyPoint z size b d i j k t = .ok () t') ∧ InI32 (i + z.Skip.x) := by
    intro j hj k hk
    obtain ⟨⟨t, t', h1⟩, -⟩ := H2 k hk
    obtain ⟨-, h1⟩ := i32_done h1
    obtain ⟨⟨t, t', h2⟩, hs⟩ := loopS_done k1 _ _ _ _ h1 j hj
    obtain ⟨-, h2⟩ := i32_done h2
    exact ⟨hs, loopS_done k0 _ _ _ _ h2⟩
  have num : ∀ i ∈ (z.sel 0).picks, ∀ j ∈ (z.sel 1).picks, ∀ k ∈ (z.sel 2).picks,
      (InI32 ((z.sel 0).count * (j - z.Begin.y)) ∧ InI32 ((z.sel 0).count * (z.sel 1).count * (k - z.Begin.z)) ∧ InI32 (z.Max.x * z.Max.y) ∧
      InI32 (i + z.Max.x * j + z.Max.x * z.Max.y * k)) := fun i hi j hj k hk => by
    obtain ⟨⟨t, t', h1⟩, -⟩ := (row j hj k hk).2 i hi
    have := copyPoint_done h1
    rw [g.real] at this
    exact this
  exact ⟨fun i hi => ((row _ m1 _ m2).2 i hi).2.2, fun j hj => (row j hj _ m2).1.2, fun k hk => (H2 k hk).2.2, hp,
    fun j hj => (num _ m0 j hj _ m2).1.2, fun k hk => (num _ m0 _ m1 k hk).2.1.2, (num _ m0 _ m1 _ m2).2.2.1.2,
    fun i hi j hj k hk => (num i hi j hj k hk).2.2.2.2⟩

/-- the first variable of a zone that cannot be copied -/
theorem Zone.fillBuf_bad {z : Zone} (g : z.Geo) (hx : z.noskip = true ↔ ByRows (z.sel 0) (z.sel 1) (z.sel 2))
    (q : ¬Copyable (z.sel 0) (z.sel 1) (z.sel 2)) (hp : (z.sel 0).count * (z.sel 1).count * (z.sel 2).count ≤ 2147483647)
    {h : Heap Byte} {done l : List TecData} {d : TecData} (hsz : z.Max.x * z.Max.y * z.Max.z * d.size < 18446744073709551616)
    (hm : h.mem h.next (z.chosen d.size) = true) :
    ∃ u, Zone.fillBuf done.length d ⟨h, { z with Data := done ++ d :: l }⟩ = .ub u := by
  unfold Zone.fillBuf Zone.newBuf
  simp only [bind_assoc, pure_bind]
  rw [M.bind_ok (St.obj_run _), ((g.mono _).realProd (by exact hp)).1]
  simp only [M.liftM_eq, M.lift_ok, pure_bind]
  have ec := (g.mono (done ++ d :: l)).chosen_eq (by exact hp) (size := d.size) hsz
  have ez : ({ z with Data := done ++ d :: l } : Zone).chosen d.size = z.chosen d.size := rfl
  rw [ez] at ec
  rw [ec]
  have en : M.catchAs (fun _ => true) (fun _ => Err.text (lit "maybe out of memory: std::bad_alloc"))
      (St.heap (Heap.newVals (z.chosen d.size))) (⟨h, { z with Data := done ++ d :: l }⟩ : St Byte Zone) =
      .ok (.at h.next 0) ⟨h.push (.vals (z.chosen d.size) fun _ => none), { z with Data := done ++ d :: l }⟩ := by
    unfold M.catchAs
    rw [St.heap_ok (s := ⟨h, _⟩) (Heap.newVals_ok hm)]
  rw [M.bind_ok en, M.bind_ok (Zone.setBuf_mid _ _ _ _ _ _), M.bind_ok (St.obj_run _)]
  generalize hD : done ++ [{ d with buf := Ptr.at h.next 0 }] ++ l = D
  have g' := g.mono D
  generalize h.push (.vals (z.chosen d.size) fun _ => none) = H
  have fin : ∀ m : M (Heap Byte) Unit, Quiet m → (∀ t t', m t = .ok () t' → Copyable (z.sel 0) (z.sel 1) (z.sel 2)) →
      ∃ u, St.heap m ⟨H, { z with Data := D }⟩ = .ub u := by
    intro m qm hc
    cases hr : m H with
    | ok a t => exact (q (hc _ _ hr)).elim
    | err e t => exact (qm _ _ _ hr).elim
    | ub u => exact ⟨u, by unfold St.heap; simp only [hr]⟩
  by_cases hns : z.noskip = true
  · rw [if_pos (by exact hns)]
    refine fin _ (Quiet.fillRows _ _ _ _) fun t t' r => ?_
    obtain ⟨t1, t2, q⟩ := fillRows_done g' hp r
    exact ⟨t1, t2, .inl ⟨hx.mp hns, q⟩⟩
  · rw [if_neg (by exact hns)]
    refine fin _ (Quiet.fillPoints _ _ _ _) fun t t' r => ?_
    obtain ⟨t0, t1, t2, q⟩ := fillPoints_done g' hp r
    exact ⟨t1, t2, .inr ⟨fun c => hns (hx.mpr c), t0, q⟩⟩

end Verif.Tec
