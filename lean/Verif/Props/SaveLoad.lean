import Verif.Proof.SaveLoad
/-!
# C74: saving arrays to a file and loading them
-/
namespace Verif.Props
open Spec Tec
variable {V V' : Type} {mem : Nat → Nat → Bool} {chk : Bool} {w₀ w₁ : World V} {aw₀ aw₁ : AWorld V}

/-- C74: arrays described to a zone (C69), filled, and written by `write_plt` that returned (C70); afterwards, the
file being unchanged (other files may have changed), any of the variables, in any order, read by their names into different components of one array with at least as many interior points in each dimension — its number type, virtual points and locations may differ.  If the reader's buffer gets its memory, all calls return; the
interior of every component read is the converted interior of the source, every other element of every array reads as
before, no array changes its sizes, and all buffers have been given back. -/
theorem C74 {E : Env} {echo : Bool} {s s' : FSt} (R₀ : Reach mem chk w₀ aw₀) (R₁ : Reach mem chk w₁ aw₁) (same : w₁.objs = w₀.objs)
    {es : List Ext} {locs : List Loc} {z : Zone} (hz : ZoneFor (mkShape es locs) z) {T : CType} {t : TecType} (hT : (T, t) ∈ tecTypes)
    {vs : List (Nat × Nat)} (hv : VarsAre chk w₀ t T.size vs z.Data) {F : Nat → List Int → V} (fill : Filled aw₀ aw₁ es locs vs F)
    (pos : ∀ e ∈ es, 1 ≤ e.i) (pts : points (mkShape es locs) ≤ 2147483647)
    (one : OneZone s.f z) {enc : V → Str} (bytes : ByteView T.size enc w₁.h s.h)
    (brief : s.f.Brief E) (len : s.f.lengthOf Zone.selectedPoints < 9223372036854775808)
    (r : TecFile.write_plt E echo s = .ok () s')
    {C : Num V'} {conv : V → V'} (cd : Codec t enc C conv)
    {mem₂ : Nat → Nat → Bool} {chk₂ : Bool} {w₂ : World V'} {aw₂ : AWorld V'} (R₂ : Reach mem₂ chk₂ w₂ aw₂)
    {x : Nat} {k : Kind} {es₂ : List Ext} {val : Nat → List Int → Option V'} (hx : aw₂.arr x = some (k, .ready es₂ val))
    (sizes : List.Forall₂ (· ≤ ·) (es.map (·.i)) (es₂.map (·.i)))
    (rs : List (Str × Nat)) (hr : ∀ v ∈ rs, v.1 ∈ s.f.Variables ∧ v.2 < k.N) (nd : (rs.map Prod.snd).Nodup)
    {b : Heap Byte} (fr : Fresh b) (room : ∀ c, b.mem c (prod (es.map fun e => (e.i : Int)) * T.size) = true)
    {fs : Str → Option Str} (hfs : fs (cstr s.f.path) = s'.fs (cstr s.f.path)) (c : Bool) :
    ∃ w' b', readVars c C fs s.f.FilePath s'.f.last_log 0 x rs (w₂, b) = .ok () (w', b') ∧ b'.blk = b.blk ∧
      (∀ v ∈ rs, ∀ j, s.f.Variables.idxOf? v.1 = some j → ∀ ys gs, Valid k es₂ v.2 ys gs → point ys gs ∈ blockPts (es.map (·.i)) →
        ∀ c', exec c' (.read x v.2 ys gs) w' = .ok (.val (some (conv (F j (point ys gs))))) w') ∧
      (∀ y k' es' val', aw₂.arr y = some (k', .ready es' val') → ∀ q ys gs, Valid k' es' q ys gs →
        ¬ (y = x ∧ q ∈ rs.map Prod.snd ∧ point ys gs ∈ blockPts (es.map (·.i))) →
        ∀ c', ∃ b, exec c' (.read y q ys gs) w₂ = .ok (.val b) w₂ ∧ exec c' (.read y q ys gs) w' = .ok (.val b) w') ∧
      (∀ y k' a', aw₂.arr y = some (k', a') → ∀ c', ∃ l,
        exec c' (.size y) w₂ = .ok (.sizes l) w₂ ∧ exec c' (.size y) w' = .ok (.sizes l) w') := by
  obtain ⟨data, wr, valid, typed, hlen, hdata⟩ := export_ready (E := E) R₀ R₁ same hz hT hv fill pos pts one bytes brief len
  obtain ⟨-, -, hsize⟩ := C61 (T := ⟨T, false, false⟩) .null hT rfl
  simp only at hsize
  have zmem : ∀ y, y ∈ s.f.Zones ↔ y = z := by intro y; rw [one.zones]; simp
  have entry : ∀ j < z.Data.length, ∃ y n, vs[j]? = some (y, n) := by
    intro j hj
    exact ⟨_, _, List.getElem?_eq_getElem (by rw [← hv.1]; exact hj)⟩
  have hd : ∀ d ∈ z.Data, d.type = t ∧ d.size = t.bytes := by
    intro d hd
    obtain ⟨j, hj⟩ := List.getElem?_of_mem hd
    obtain ⟨y, n, hyn⟩ := entry j (List.getElem?_eq_some_iff.1 hj).1
    obtain ⟨p, h, -⟩ := hdata j y n hyn
    rw [hj] at h; cases h
    exact ⟨rfl, hsize⟩
  have small : t.bytes < 2147483648 := by rcases cd.known with rfl | rfl <;> decide
  obtain ⟨L, Q⟩ := R₂.rel
  obtain ⟨w', b', val', p1, p2, p3, p4, p5⟩ := read_vars (i := 0) wr.ready r
    (fun y hy d hd' => by rw [(zmem y).1 hy] at hd'; rw [(hd d hd').2]; exact small)
    (by rw [one.zones]; rfl) hd (by rw [one.names]) hlen hz (F := F) (enc := enc)
    (by
      intro j hj ys hys
      obtain ⟨y, n, hyn⟩ := entry j hj
      obtain ⟨p, -, -, -, h⟩ := hdata j y n hyn
      rw [← hsize]
      exact h ys hys) cd sizes c hfs rs hr nd Q hx fr (fun k => by rw [← hsize]; exact room k)
  have hself : (aw₂.set x (some (k, .ready es₂ val'))).arr x = some (k, .ready es₂ val') := by simp only [AWorld.set, if_pos]
  have hother : ∀ y, y ≠ x → (aw₂.set x (some (k, .ready es₂ val'))).arr y = aw₂.arr y := by
    intro y hy; simp only [AWorld.set, if_neg hy]
  refine ⟨w', b', p1, p2.1, ?_, ?_, ?_⟩
  · intro v hv' j hj ys gs hval hpt c'
    rw [p3.read c' hself hval, p4 v hv' j hj _ hpt]
  · intro y k' es' va hy q ys gs hval hn c'
    refine ⟨_, Q.read c' hy hval, ?_⟩
    by_cases e : y = x
    · subst e
      rw [hx] at hy; cases hy
      rw [p3.read c' hself hval, p5 q _ fun h => hn ⟨rfl, h⟩]
    · exact p3.read c' (by rw [hother y e]; exact hy) hval
  · intro y k' a' hy c'
    refine ⟨_, Q.size c' hy, ?_⟩
    by_cases e : y = x
    · subst e
      rw [hx] at hy; cases hy
      rw [p3.size c' hself]; rfl
    · exact p3.size c' (by rw [hother y e]; exact hy)

end Verif.Props
