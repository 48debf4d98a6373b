import Verif.Proof.TecCalc
import Verif.Props.TecBufAll
/-!
# C36: exactly when the buffers of a zone are made

Vocabulary (`Spec/TecCalc.lean`): `AllTaken` — no stride and nothing left out; `Copyable` — every number of type `int`
that has to be computed to copy the selected points is an `int`.
-/
namespace Verif.Props
open Spec Tec

theorem allTaken_iff {z : Zone} : (z.gathered.noskip = true ∧ z.gathered.noexc = true) ↔ AllTaken (z.sel 0) (z.sel 1) (z.sel 2) := by
  simp only [Zone.gathered, Bool.and_eq_true, beq_iff_eq, AllTaken, ByRows, Zone.sel]
  tauto

/-- the three outcomes of `make_buf` -/
theorem make_buf_cases {z : Zone} (s : ∀ i < 3, (z.sel i).Sane) (a : ∀ i < 3, (z.sel i).Accepted) {h : Heap Byte} (fr : Fresh h)
    (data : Nat → List (Option Byte)) (hv : ∀ i d, z.Data[i]? = some d → z.VarOk h d (data i)) :
    ((AllTaken (z.sel 0) (z.sel 1) (z.sel 2) ∨ z.Data = [] ∨ (Copyable (z.sel 0) (z.sel 1) (z.sel 2) ∧
        ∀ i d, z.Data[i]? = some d → h.mem (h.next + i) (z.chosen d.size) = true)) ∧
      ∃ D h' nr, Zone.make_buf ⟨h, z.gathered⟩ = .ok () ⟨h', { z.gathered with Data := D, needreal := nr }⟩ ∧ z.Bufs h h' data D nr) ∨
    ((¬AllTaken (z.sel 0) (z.sel 1) (z.sel 2) ∧ ((Copyable (z.sel 0) (z.sel 1) (z.sel 2) ∧
          ∃ i d, z.Data[i]? = some d ∧ h.mem (h.next + i) (z.chosen d.size) = false) ∨
        (¬Copyable (z.sel 0) (z.sel 1) (z.sel 2) ∧ (z.sel 0).count * (z.sel 1).count * (z.sel 2).count ≤ 2147483647 ∧
          ∃ d, z.Data[0]? = some d ∧ h.mem h.next (z.chosen d.size) = false))) ∧
      ∃ s', Zone.make_buf ⟨h, z.gathered⟩ = .err (.text (lit "maybe out of memory: std::bad_alloc")) s') ∨
    ((¬AllTaken (z.sel 0) (z.sel 1) (z.sel 2) ∧ ¬Copyable (z.sel 0) (z.sel 1) (z.sel 2) ∧ ∃ d, z.Data[0]? = some d ∧
        (2147483647 < (z.sel 0).count * (z.sel 1).count * (z.sel 2).count ∨ h.mem h.next (z.chosen d.size) = true)) ∧
      ∃ u, Zone.make_buf ⟨h, z.gathered⟩ = .ub u) := by
  by_cases hA : AllTaken (z.sel 0) (z.sel 1) (z.sel 2)
  · have hw := allTaken_iff.mpr hA
    rcases Zone.make_buf_run ⟨s, a, fun c => (c hw).elim⟩ fr data hv with ⟨-, r⟩ | ⟨c, -⟩
    · exact .inl ⟨.inl hA, r⟩
    · exact (c hw).elim
  have hw : ¬(z.gathered.noskip = true ∧ z.gathered.noexc = true) := fun c => hA (allTaken_iff.mp c)
  by_cases hC : Copyable (z.sel 0) (z.sel 1) (z.sel 2)
  · rcases Zone.make_buf_run ⟨s, a, fun _ => hC⟩ fr data hv with ⟨c, r⟩ | ⟨-, c, D, h', r, -⟩
    · exact .inl ⟨.inr (.inr ⟨hC, c.resolve_left hw⟩), r⟩
    · exact .inr (.inl ⟨⟨hA, .inl ⟨hC, c⟩⟩, _, r⟩)
  have hb : ¬(z.gathered.noskip && z.gathered.noexc) = true := by rw [Bool.and_eq_true]; exact hw
  have g : z.gathered.Geo := ⟨s, a, rfl⟩
  cases hD : z.Data with
  | nil =>
    refine .inl ⟨.inr (.inl rfl), [], h, true, ?_, Kept.refl h, fr, by rw [hD], fun i d hi => by simp [hD] at hi, ?_⟩
    · unfold Zone.make_buf
      rw [M.bind_ok (St.obj_run _), if_neg hb]
      have e : z.gathered.Data = [] := hD
      simp only [e]
      exact congrArg (fun D => Res.ok () (⟨h, { z.gathered with Data := D, needreal := true }⟩ : St Byte Zone)) e
    · rw [if_pos rfl, hD]; exact ⟨rfl, fun i d hi => by simp at hi⟩
  | cons d l =>
    have v := hv 0 d (by rw [hD]; rfl)
    have hrun : ∀ {r : Res (St Byte Zone) Unit}, Zone.fillBuf 0 d ⟨h, z.gathered⟩ = r → (∀ t, r ≠ .ok () t) →
        Zone.make_buf ⟨h, z.gathered⟩ = match r with | .ok _ t => .ok () t | .err e t => .err e t | .ub u => .ub u := by
      intro r hr hn
      unfold Zone.make_buf
      rw [M.bind_ok (St.obj_run _), if_neg hb]
      have e : z.gathered.Data = d :: l := hD
      simp only [e]
      unfold eachIdx
      cases r with
      | ok x t => exact (hn t rfl).elim
      | err x t => rw [bind_assoc, M.bind_err hr]
      | ub u => rw [bind_assoc, M.bind_ub hr]
    have ez : (⟨h, z.gathered⟩ : St Byte Zone) = ⟨h, { z.gathered with Data := [] ++ d :: l }⟩ := by
      rw [List.nil_append, ← hD]; rfl
    by_cases hp : (z.sel 0).count * (z.sel 1).count * (z.sel 2).count ≤ 2147483647
    · cases hm : h.mem h.next (z.chosen d.size) with
      | true =>
        obtain ⟨u, r⟩ := Zone.fillBuf_bad g Zone.gathered_rows hC hp (done := []) (l := l) (d := d) v.size hm
        rw [← ez] at r
        exact .inr (.inr ⟨⟨hA, hC, d, rfl, .inr hm⟩, u, hrun r (by intro t c; cases c)⟩)
      | false =>
        have r := Zone.fillBuf_fail g hp (done := []) (l := l) (d := d) v.size hm
        rw [← ez] at r
        exact .inr (.inl ⟨⟨hA, .inr ⟨hC, hp, d, rfl, hm⟩⟩, _, hrun r (by intro t c; cases c)⟩)
    · refine .inr (.inr ⟨⟨hA, hC, d, rfl, .inl (by omega)⟩, _, C36_over z h ?_ (by rw [hD]; simp) (.inr fun c => hp c.2)⟩)
      by_contra c
      have c' : ∀ i < 3, (z.sel i).skip = 1 ∧ (z.sel i).head = 0 ∧ (z.sel i).tail = 0 := by
        intro i hi; by_contra c2; exact c ⟨i, hi, c2⟩
      exact hA ⟨⟨(c' 0 (by decide)).1, (c' 1 (by decide)).1, (c' 2 (by decide)).1⟩, (c' 0 (by decide)).2, (c' 1 (by decide)).2, (c' 2 (by decide)).2⟩

/-- C36, exactly when it is defined: for a zone accepted by `gather_real_size` whose variables point to arrays of the right
size, with enough memory, `make_buf` succeeds exactly when the zone is written as it is, or has no variable, or every number
that has to be computed to copy the points is an `int`.  Otherwise it is undefined. -/
theorem C36_exact {z : Zone} (s : ∀ i < 3, (z.sel i).Sane) (a : ∀ i < 3, (z.sel i).Accepted) {h : Heap Byte} (fr : Fresh h)
    (data : Nat → List (Option Byte))
    (hv : ∀ i d, z.Data[i]? = some d →
      z.Max.x * z.Max.y * z.Max.z * d.size < 18446744073709551616 ∧
      (data i).length = (z.Max.x * z.Max.y * z.Max.z).toNat * d.size ∧ Holds h d.DataP (data i))
    (hm : ∀ k n, h.mem k n = true) :
    ((∃ s', Zone.make_buf ⟨h, z.gathered⟩ = .ok () s') ↔
      AllTaken (z.sel 0) (z.sel 1) (z.sel 2) ∨ z.Data = [] ∨ Copyable (z.sel 0) (z.sel 1) (z.sel 2)) ∧
    ((∃ u, Zone.make_buf ⟨h, z.gathered⟩ = .ub u) ↔
      ¬AllTaken (z.sel 0) (z.sel 1) (z.sel 2) ∧ z.Data ≠ [] ∧ ¬Copyable (z.sel 0) (z.sel 1) (z.sel 2)) := by
  rcases make_buf_cases s a fr data (fun i d hi => ⟨(hv i d hi).1, (hv i d hi).2.1, (hv i d hi).2.2⟩) with
    ⟨c, D, h', nr, r, -⟩ | ⟨⟨-, ⟨-, i, d, -, c⟩ | ⟨-, -, d, -, c⟩⟩, -⟩ | ⟨⟨c1, c2, d, c3, -⟩, u, r⟩
  · rw [r]
    have c' : AllTaken (z.sel 0) (z.sel 1) (z.sel 2) ∨ z.Data = [] ∨ Copyable (z.sel 0) (z.sel 1) (z.sel 2) :=
      c.imp_right fun c => c.imp_right And.left
    exact ⟨⟨fun _ => c', fun _ => ⟨_, rfl⟩⟩, ⟨fun ⟨u, e⟩ => (nomatch e), fun ⟨d1, d2, d3⟩ => (c'.elim d1 (fun c => c.elim d2 d3)).elim⟩⟩
  · rw [hm] at c; cases c
  · rw [hm] at c; cases c
  · rw [r]
    have hne : z.Data ≠ [] := by intro e; rw [e] at c3; simp at c3
    exact ⟨⟨fun ⟨s', e⟩ => (nomatch e), fun c => (c.elim c1 (fun c => c.elim hne c2)).elim⟩, ⟨fun _ => ⟨c1, hne, c2⟩, fun _ => ⟨u, rfl⟩⟩⟩

/-- C36, content: whenever `make_buf` succeeds, the buffer of every variable holds exactly the bytes of the selected points,
first index fastest, and the memory that existed before is unchanged; there is no condition on sizes or strides. -/
theorem C36_held {z : Zone} (s : ∀ i < 3, (z.sel i).Sane) (a : ∀ i < 3, (z.sel i).Accepted) {h : Heap Byte} (fr : Fresh h)
    (data : Nat → List (Option Byte))
    (hv : ∀ i d, z.Data[i]? = some d →
      z.Max.x * z.Max.y * z.Max.z * d.size < 18446744073709551616 ∧
      (data i).length = (z.Max.x * z.Max.y * z.Max.z).toNat * d.size ∧ Holds h d.DataP (data i))
    {s' : St Byte Zone} (r : Zone.make_buf ⟨h, z.gathered⟩ = .ok () s') :
    (∃ D h' nr, s' = ⟨h', { z.gathered with Data := D, needreal := nr }⟩ ∧ Kept h h' ∧ D.length = z.Data.length ∧
      ∀ i d, z.Data[i]? = some d → ∃ p, D[i]? = some { d with buf := p } ∧
        Holds h' p (selectedBytes (z.sel 0) (z.sel 1) (z.sel 2) d.size (data i))) ∧
    ∃ h'' z'', Zone.realise_buf s' = .ok () ⟨h'', z''⟩ ∧ h''.blk = h.blk ∧ z''.needreal = false := by
  rcases make_buf_cases s a fr data (fun i d hi => ⟨(hv i d hi).1, (hv i d hi).2.1, (hv i d hi).2.2⟩) with
    ⟨-, D, h', nr, r', b⟩ | ⟨-, s1, r'⟩ | ⟨-, u, r'⟩
  · rw [r'] at r; cases r
    obtain ⟨h'', D', e, hb, -⟩ := Zone.realise_ok fr b { z.gathered with Data := D, needreal := nr } rfl rfl
    exact ⟨⟨D, h', nr, rfl, b.kept, b.len, b.holds⟩, h'', _, e, hb, rfl⟩
  · rw [r'] at r; cases r
  · rw [r'] at r; cases r

/-- C36, when memory may be short: the only exception is the report of exhausted memory, and it is thrown exactly when an
allocation fails that is reached: any one if the points can be copied, the first one otherwise (if its size can be computed) -/
theorem C36_short {z : Zone} (s : ∀ i < 3, (z.sel i).Sane) (a : ∀ i < 3, (z.sel i).Accepted) {h : Heap Byte} (fr : Fresh h)
    (data : Nat → List (Option Byte))
    (hv : ∀ i d, z.Data[i]? = some d →
      z.Max.x * z.Max.y * z.Max.z * d.size < 18446744073709551616 ∧
      (data i).length = (z.Max.x * z.Max.y * z.Max.z).toNat * d.size ∧ Holds h d.DataP (data i)) (e : Err) :
    (∃ s', Zone.make_buf ⟨h, z.gathered⟩ = .err e s') ↔
      e = .text (lit "maybe out of memory: std::bad_alloc") ∧ ¬AllTaken (z.sel 0) (z.sel 1) (z.sel 2) ∧
      ∃ i d, z.Data[i]? = some d ∧
        h.mem (h.next + i) (d.size * ((z.sel 0).count.toNat * (z.sel 1).count.toNat * (z.sel 2).count.toNat)) = false ∧
        (Copyable (z.sel 0) (z.sel 1) (z.sel 2) ∨ (i = 0 ∧ (z.sel 0).count * (z.sel 1).count * (z.sel 2).count ≤ 2147483647)) := by
  rcases make_buf_cases s a fr data (fun i d hi => ⟨(hv i d hi).1, (hv i d hi).2.1, (hv i d hi).2.2⟩) with
    ⟨c, D, h', nr, r, -⟩ | ⟨⟨cA, c⟩, s1, r⟩ | ⟨⟨c1, c2, d, c3, c4⟩, u, r⟩
  · rw [r]
    refine ⟨fun ⟨_, c⟩ => (nomatch c), ?_⟩
    rintro ⟨-, h1, i, d, h2, h3, h4⟩
    rcases c with c | c | ⟨-, c⟩
    · exact (h1 c).elim
    · rw [c] at h2; simp at h2
    · have := c i d h2
      change h.mem (h.next + i) (d.size * ((z.sel 0).count.toNat * (z.sel 1).count.toNat * (z.sel 2).count.toNat)) = true at this
      rw [this] at h3; cases h3
  · rw [r]
    constructor
    · rintro ⟨s', h1⟩
      cases h1
      refine ⟨rfl, cA, ?_⟩
      rcases c with ⟨q, i, d, h2, h3⟩ | ⟨-, hp, d, h2, h3⟩
      · exact ⟨i, d, h2, h3, .inl q⟩
      · exact ⟨0, d, h2, h3, .inr ⟨rfl, hp⟩⟩
    · rintro ⟨rfl, -⟩; exact ⟨_, rfl⟩
  · rw [r]
    refine ⟨fun ⟨_, c⟩ => (nomatch c), ?_⟩
    rintro ⟨-, -, i, d', h2, h3, h4 | ⟨rfl, h4⟩⟩
    · exact (c2 h4).elim
    · rw [c3] at h2; cases h2
      rcases c4 with c4 | c4
      · omega
      · change h.mem h.next (d.size * ((z.sel 0).count.toNat * (z.sel 1).count.toNat * (z.sel 2).count.toNat)) = true at c4
        rw [Nat.add_zero, c4] at h3; cases h3

/-- A zone of 46340 x 46340 x 2 points, more than an `int` can count, of which a corner of 40 x 40 x 1 is written: the numbers fit.
With the second layer instead of the first they do not.  -/
def cornerZone : Zone := { demoZone with Max := ⟨46340, 46340, 2⟩, Skip := ⟨1, 1, 1⟩, Begin := ⟨46300, 46300, 0⟩, End := ⟨0, 0, 1⟩ }

def beyondZone : Zone := { cornerZone with Begin := ⟨46300, 46300, 1⟩, End := ⟨0, 0, 0⟩ }

instance (x y z : DimSel) : Decidable (ByRows x y z) := by unfold ByRows; infer_instance
instance (x y z : DimSel) : Decidable (AllTaken x y z) := by unfold AllTaken; infer_instance
instance (d : DimSel) : Decidable (StepFits d) := by unfold StepFits; infer_instance
instance (x y z : DimSel) (l : List Int) : Decidable (PlacesFit x y z l) :=
  decidable_of_iff (x.count * y.count * z.count ≤ 2147483647 ∧ (∀ j ∈ y.picks, x.count * (j - y.head) ≤ 2147483647) ∧
    (∀ k ∈ z.picks, x.count * y.count * (k - z.head) ≤ 2147483647) ∧ x.max * y.max ≤ 2147483647 ∧
    ∀ i ∈ l, ∀ j ∈ y.picks, ∀ k ∈ z.picks, i + x.max * j + x.max * y.max * k ≤ 2147483647)
    ⟨fun ⟨a, b, c, d, e⟩ => ⟨a, b, c, d, e⟩, fun ⟨a, b, c, d, e⟩ => ⟨a, b, c, d, e⟩⟩
instance (x y z : DimSel) : Decidable (Copyable x y z) := by unfold Copyable; infer_instance

example : Copyable (cornerZone.sel 0) (cornerZone.sel 1) (cornerZone.sel 2) ∧ 2147483647 < cornerZone.Max.x * cornerZone.Max.y * cornerZone.Max.z ∧
    ¬Copyable (beyondZone.sel 0) (beyondZone.sel 1) (beyondZone.sel 2) ∧
    ¬Copyable (strideZone.sel 0) (strideZone.sel 1) (strideZone.sel 2) ∧ ¬AllTaken (strideZone.sel 0) (strideZone.sel 1) (strideZone.sel 2) := by
  refine ⟨?_, ?_, ?_, ?_, ?_⟩ <;> decide +kernel

example : (∀ i < 3, (cornerZone.sel i).Sane) ∧ (∀ i < 3, (beyondZone.sel i).Sane) ∧ (∀ i < 3, (cornerZone.sel i).Accepted) ∧
    ∀ i < 3, (beyondZone.sel i).Accepted := by
  refine ⟨?_, ?_, ?_, ?_⟩ <;> intro i hi <;> rcases (by omega : i = 0 ∨ i = 1 ∨ i = 2) with rfl | rfl | rfl <;>
    (constructor <;> decide)

/-- hypotheses of the theorems above: the zone with two variables of `Props/TecBuf.lean` -/
example : (∀ i < 3, (demoVars.sel i).Sane) ∧ (∀ i < 3, (demoVars.sel i).Accepted) ∧ Fresh demoHeap ∧
    (∀ i d, demoVars.Data[i]? = some d → demoVars.Max.x * demoVars.Max.y * demoVars.Max.z * d.size < 18446744073709551616 ∧
      (demoData i).length = (demoVars.Max.x * demoVars.Max.y * demoVars.Max.z).toNat * d.size ∧ Holds demoHeap d.DataP (demoData i)) ∧
    Copyable (demoVars.sel 0) (demoVars.sel 1) (demoVars.sel 2) ∧ ¬ByRows (demoVars.sel 0) (demoVars.sel 1) (demoVars.sel 2) :=
  ⟨demoFits.sane, demoFits.acc, demoFresh, demoHolds, demoFits.copyable, by decide⟩

end Verif.Props
