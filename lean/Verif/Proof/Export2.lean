import Verif.Proof.Export1
import Verif.Proof.RoundTrip
import Verif.Proof.TecW1
import Verif.Props.TecBody
import Verif.Props.TecReport
/-!
# Arrays in a Tecplot file: loops keep the objects, the bytes of an array
-/
set_option linter.unusedSimpArgs false
namespace Verif
open Spec Tec
variable {V : Type} {mem : Nat → Nat → Bool} {chk : Bool} {w : World V} {aw : AWorld V} {L : List Nat}

/-! ## Loops keep the objects -/

/-- if the statement ends, the objects (not the numbers) are those before -/
def SameObjs {α : Type} (m : M (World V) α) : Prop := ∀ w a w', m w = .ok a w' → w'.objs = w.objs

theorem SameObjs.pure {α : Type} (a : α) : SameObjs (pure a : M (World V) α) := by
  intro w b w' h; cases h; rfl

theorem SameObjs.bind {α β : Type} {m : M (World V) α} {f : α → M (World V) β} (hm : SameObjs m) (hf : ∀ a, SameObjs (f a)) : SameObjs (m >>= f) := by
  intro w b w' h
  obtain ⟨a, w1, h1, h2⟩ := M.bind_inv h
  rw [hf a _ _ _ h2, hm _ _ _ h1]

theorem SameObjs.lift {α : Type} (o : Out α) : SameObjs (M.lift o : M (World V) α) := by
  intro w b w' h
  cases o <;> cases h
  rfl

theorem SameObjs.undef {α : Type} (u : UB) : SameObjs (M.undef u : M (World V) α) := by
  intro w b w' h; cases h

theorem SameObjs.access {α : Type} (x : Nat) (f : Kind → Obj → M (Heap V) α) : SameObjs (World.access x f) := by
  intro w a w' h
  unfold World.access at h
  split at h
  · cases h
  · split at h <;> cases h
    rfl

theorem SameObjs.loopI {body : Int → M (World V) Unit} (hb : ∀ i, SameObjs (body i)) (n : Nat) (b : Int) : SameObjs (loopI body n b) := by
  induction n generalizing b with
  | zero => exact SameObjs.pure ()
  | succ n ih => exact SameObjs.bind (hb b) fun _ => ih _

theorem SameObjs.forI {body : Int → M (World V) Unit} (hb : ∀ i, SameObjs (body i)) (b e : Int) : SameObjs (forI b e body) := by
  unfold Verif.forI
  split
  · exact SameObjs.loopI hb _ _
  · exact SameObjs.bind (SameObjs.loopI hb _ _) fun _ => SameObjs.undef _

theorem SameObjs.loopTags (chk : Bool) (o : Obj) (ts : List RA) {body : List Int → M (World V) Unit} (hb : ∀ xs, SameObjs (body xs)) :
    SameObjs (o.loopTags chk ts body) := by
  unfold Obj.loopTags
  split
  · refine SameObjs.bind (SameObjs.lift _) fun r => ?_
    exact SameObjs.bind (SameObjs.lift _) fun _ => SameObjs.bind (SameObjs.lift _) fun _ => SameObjs.forI (fun i => hb _) _ _
  · refine SameObjs.bind (SameObjs.lift _) fun r => ?_
    exact SameObjs.bind (SameObjs.lift _) fun _ => SameObjs.bind (SameObjs.lift _) fun _ => SameObjs.bind (SameObjs.lift _) fun _ => SameObjs.bind (SameObjs.lift _) fun _ =>
      SameObjs.forI (fun i => SameObjs.forI (fun j => hb _) _ _) _ _
  · refine SameObjs.bind (SameObjs.lift _) fun r => ?_
    exact SameObjs.bind (SameObjs.lift _) fun _ => SameObjs.bind (SameObjs.lift _) fun _ => SameObjs.bind (SameObjs.lift _) fun _ => SameObjs.bind (SameObjs.lift _) fun _ =>
      SameObjs.bind (SameObjs.lift _) fun _ => SameObjs.bind (SameObjs.lift _) fun _ =>
      SameObjs.forI (fun i => SameObjs.forI (fun j => SameObjs.forI (fun l => hb _) _ _) _ _) _ _
  · exact SameObjs.undef _

theorem SameObjs.idx (xs : List Int) (i : Idx) : SameObjs (i.eval chk xs : M (World V) Int) := by
  cases i with
  | plus d s => simp only [Idx.eval]; exact SameObjs.bind (SameObjs.lift _) fun _ => SameObjs.lift _
  | src y how d fl j => simp only [Idx.eval]; exact SameObjs.bind (SameObjs.lift _) fun _ => SameObjs.access _ _

theorem SameObjs.evalIdx (xs : List Int) (is : List Idx) : SameObjs (evalIdx chk xs is : M (World V) (List Int)) := by
  induction is with
  | nil => exact SameObjs.pure _
  | cons i is ih => exact SameObjs.bind (SameObjs.idx xs i) fun _ => SameObjs.bind ih fun _ => SameObjs.pure _

theorem SameObjs.read (x n : Nat) (xs : List Int) (fs : List FL) : SameObjs (exec chk (.read x n xs fs) : M (World V) (Ret V)) :=
  SameObjs.bind (SameObjs.access _ _) fun _ => SameObjs.pure _

theorem SameObjs.write (x n : Nat) (xs : List Int) (fs : List FL) (v : V) : SameObjs (exec chk (.write x n xs fs v) : M (World V) (Ret V)) :=
  SameObjs.bind (SameObjs.access _ _) fun _ => SameObjs.pure _

theorem SameObjs.expr (xs : List Int) (e : Expr V) : SameObjs (e.eval chk xs) := by
  induction e with
  | num v => exact SameObjs.pure _
  | conv d f => exact SameObjs.bind (SameObjs.lift _) fun _ => SameObjs.pure _
  | elem y n is fs =>
    refine SameObjs.bind (SameObjs.evalIdx xs is) fun ys => SameObjs.bind (SameObjs.read _ _ _ _) fun r => ?_
    split
    · exact SameObjs.pure _
    · exact SameObjs.undef _
  | un f a ih => exact SameObjs.bind ih fun _ => SameObjs.pure _
  | bin f a b ih ih' => exact SameObjs.bind ih fun _ => SameObjs.bind ih' fun _ => SameObjs.pure _

theorem SameObjs.body (body : List (Assign V)) (xs : List Int) : SameObjs (runBody chk body xs) := by
  induction body with
  | nil => exact SameObjs.pure _
  | cons a rest ih =>
    exact SameObjs.bind (SameObjs.bind (SameObjs.expr xs _) fun _ => SameObjs.bind (SameObjs.evalIdx xs _) fun _ => SameObjs.bind (SameObjs.write _ _ _ _ _) fun _ => SameObjs.pure _)
      fun _ => ih

theorem SameObjs.loop (l : Loop V) : SameObjs (l.exec chk) := by
  intro w a w' h
  unfold Loop.exec at h
  split at h
  · cases h
  · exact SameObjs.loopTags chk _ _ (SameObjs.body _) _ _ _ h

theorem SameObjs.loops (ls : List (Loop V)) : SameObjs (runLoops chk ls) := by
  induction ls with
  | nil => exact SameObjs.pure _
  | cons l ls ih => exact SameObjs.bind (SameObjs.loop l) fun _ => ih

/-! ## The order of the points -/

theorem interior_picks (d : Dim) : (interiorSel d).picks = (List.range d.ext.i).map fun (t : Nat) => (d.ext.n : Int) + t := by
  apply List.ext_getElem?
  intro t
  by_cases ht : t < d.ext.i
  · have := interiorSel_get d (y := t) (by omega) (by omega)
    rw [Int.toNat_natCast] at this
    rw [this, List.getElem?_map, List.getElem?_range ht]; rfl
  · rw [List.getElem?_eq_none (by rw [picks_length]; omega), List.getElem?_eq_none (by simp; omega)]

theorem unit_picks : unitSel.picks = [0] := by decide

theorem selection_block {sh : Shape} {z : Zone} (h : ZoneFor sh z) :
    (selection (z.sel 0) (z.sel 1) (z.sel 2)).map (place (z.sel 0) (z.sel 1)) =
      (blockPts (sh.map fun d => d.ext.i)).map fun p => (offset sh p : Int) := by
  match sh, h with
  | [d0], h =>
    rw [h.1, h.2.1, h.2.2]
    simp only [selection, unit_picks, interior_picks, List.flatMap_cons, List.flatMap_nil, List.append_nil, List.map_map, blockPts, List.map_cons,
      List.map_nil, List.map_flatMap]
    rw [← List.map_eq_flatMap]
    refine List.map_congr_left fun t _ => ?_
    simp only [Function.comp, place, offset, points, unitSel]; omega
  | [d0, d1], h =>
    rw [h.1, h.2.1, h.2.2]
    simp only [selection, unit_picks, interior_picks, List.flatMap_cons, List.flatMap_nil, List.append_nil, List.map_map, blockPts, List.map_cons,
      List.map_nil, List.map_flatMap, List.flatMap_map]
    refine List.flatMap_congr fun t _ => ?_
    rw [← List.map_eq_flatMap]
    refine List.map_congr_left fun t' _ => ?_
    simp only [Function.comp, place, offset, points, interiorSel, Nat.mul_one, Nat.add_zero, Int.mul_zero, Int.add_zero]
    rw [Int.natCast_add, Int.natCast_mul, Int.toNat_of_nonneg (by omega), Int.toNat_of_nonneg (by omega)]
    ring
  | [d0, d1, d2], h =>
    rw [h.1, h.2.1, h.2.2]
    simp only [selection, unit_picks, interior_picks, List.flatMap_cons, List.flatMap_nil, List.append_nil, List.map_map, blockPts, List.map_cons,
      List.map_nil, List.map_flatMap, List.flatMap_map]
    refine List.flatMap_congr fun t _ => ?_
    refine List.flatMap_congr fun t' _ => ?_
    rw [← List.map_eq_flatMap]
    refine List.map_congr_left fun t'' _ => ?_
    simp only [Function.comp, place, offset, points, interiorSel, Nat.mul_one, Nat.add_zero, Int.mul_zero, Int.add_zero]
    rw [Int.natCast_add, Int.natCast_add, Int.natCast_mul, Int.natCast_mul, Int.natCast_mul, Int.toNat_of_nonneg (by omega),
      Int.toNat_of_nonneg (by omega), Int.toNat_of_nonneg (by omega)]
    ring

theorem blockPts_has {es : List Ext} {ls : List Loc} (hl : es.length = ls.length) {p : List Int} (hp : p ∈ blockPts (es.map fun e => e.i)) :
    HasPt (mkShape es ls) p := by
  induction es generalizing ls p with
  | nil =>
    cases ls with
    | nil => simp [blockPts] at hp; subst hp; trivial
    | cons l ls => simp at hl
  | cons e es ih =>
    cases ls with
    | nil => simp at hl
    | cons l ls =>
      simp only [List.map_cons, blockPts, List.mem_flatMap, List.mem_range, List.mem_map] at hp
      obtain ⟨i, hi, q, hq, rfl⟩ := hp
      refine ⟨?_, ih (by simpa using hl) hq⟩
      simp only [Dim.Has]; omega

end Verif
