import Verif.Proof.Tec5
import Verif.Proof.TecMinMax
import Verif.Model.Tec.File
/-!
# Writing a zone, seen from its successful end
-/
namespace Verif

theorem M.bind_inv {σ α β : Type} {m : M σ α} {f : α → M σ β} {s t : σ} {b : β} (h : (m >>= f) s = .ok b t) :
    ∃ a s1, m s = .ok a s1 ∧ f a s1 = .ok b t := by
  rw [M.bind_run] at h
  cases hm : m s with
  | ok a s1 => rw [hm] at h; exact ⟨a, s1, rfl, h⟩
  | err e s1 => rw [hm] at h; cases h
  | ub u => rw [hm] at h; cases h

theorem M.lift_inv {σ α : Type} {o : Out α} {s t : σ} {a : α} (h : (M.lift o : M σ α) s = .ok a t) : o = .ok a ∧ t = s := by
  unfold M.lift at h
  cases o with
  | ok b => cases h; exact ⟨rfl, rfl⟩
  | err e => cases h
  | ub u => cases h

namespace Tec

/-! ## Bytes written -/

/-- bytes of an `INT32` -/
def int4 (a : Int) : Str := leBytes 4 (toU32 a)

/-- bytes of a text -/
def textBytes (a : Str) : Str := a.flatMap (fun c => int4 (charVal c)) ++ int4 0

theorem emit_run (b s : Str) : emit b s = .ok () (s ++ b) := rfl
theorem W_INT32_run (a : Int) (s : Str) : W_INT32 a s = .ok () (s ++ int4 a) := rfl
theorem W_FLOAT32_run (a : Nat) (s : Str) : W_FLOAT32 a s = .ok () (s ++ leBytes 4 a) := rfl
theorem W_FLOAT64_run (a : F64) (s : Str) : W_FLOAT64 a s = .ok () (s ++ leBytes 8 a.toNat) := rfl

theorem each_emit {α : Type} (f : α → M Str Unit) (g : α → Str) (h : ∀ a s, f a s = .ok () (s ++ g a)) (l : List α) :
    ∀ s, each l f s = .ok () (s ++ l.flatMap g) := by
  induction l with
  | nil => intro s; show Res.ok () s = _; rw [List.flatMap_nil, List.append_nil]
  | cons a l ih => intro s; rw [each, M.bind_ok (h a s), ih, List.flatMap_cons, List.append_assoc]

theorem W_STRING_run (a s : Str) : W_STRING a s = .ok () (s ++ textBytes a) := by
  unfold W_STRING textBytes
  rw [M.bind_ok (each_emit (fun c => W_INT32 (charVal c)) (fun c => int4 (charVal c)) (fun c s => W_INT32_run _ s) a s),
    W_INT32_run, List.append_assoc]

theorem leBytes_length (k n : Nat) : (leBytes k n).length = k := by
  induction k generalizing n with
  | zero => rfl
  | succ k ih => rw [leBytes, List.length_cons, ih]

/-! ## Steps that write no data -/

/-- from `s` to `s'` the bytes `b` are written, the data logs become `D`, and texts may grow -/
structure ZStep (s s' : ZSt) (b : Str) (D : List DataLog) : Prop where
  h : s'.h = s.h
  z : s'.z = s.z
  of : s'.of = s.of ++ b
  l : s'.l = { s.l with
    Data := D
    Echo_Text := s'.l.Echo_Text }

theorem ZStep.trans {s1 s2 s3 : ZSt} {b c : Str} {D E : List DataLog} (x : ZStep s1 s2 b D) (y : ZStep s2 s3 c E) :
    ZStep s1 s3 (b ++ c) E where
  h := y.h.trans x.h
  z := y.z.trans x.z
  of := by rw [y.of, x.of, List.append_assoc]
  l := by rw [y.l, x.l]

theorem ZStep.data {s s' : ZSt} {b : Str} {D : List DataLog} (x : ZStep s s' b D) : s'.l.Data = D := by rw [x.l]

/-- a statement that only changes texts -/
def Quiet {α : Type} (m : M ZSt α) : Prop := ∀ s a s', m s = .ok a s' → ZStep s s' [] s.l.Data

theorem ZStep.refl (s : ZSt) : ZStep s s [] s.l.Data := ⟨rfl, rfl, by simp, rfl⟩

namespace Quiet
variable {α β : Type}
theorem pure (a : α) : Quiet (Pure.pure a : M ZSt α) := by
  intro s a s' h; cases h; exact ZStep.refl s
theorem bind {m : M ZSt α} {f : α → M ZSt β} (hm : Quiet m) (hf : ∀ a, Quiet (f a)) : Quiet (m >>= f) := by
  intro s b s' h
  obtain ⟨a, s1, h1, h2⟩ := M.bind_inv h
  have x := hm s a s1 h1
  have y := hf a s1 b s' h2
  rw [x.data] at y
  exact x.trans y
theorem get_bind {f : ZSt → M ZSt β} (hf : ∀ a, Quiet (f a)) : Quiet (M.get >>= f) := by
  intro s b s' h
  exact hf s s b s' h
theorem lift (o : Out α) : Quiet (M.lift o) := by
  intro s a s' h
  obtain ⟨-, rfl⟩ := M.lift_inv h
  exact ZStep.refl _
theorem liftM (o : Out α) : Quiet (liftM o : M ZSt α) := lift o
theorem undef (u : UB) : Quiet (M.undef u : M ZSt α) := by intro s a s' h; cases h
theorem ifB {b : Bool} {m : M ZSt Unit} (hm : Quiet m) : Quiet (Tec.ifB b m) := by
  unfold Tec.ifB
  cases b
  · exact pure ()
  · exact hm
theorem print (echo : Bool) (t : Str) : Quiet (ZSt.print echo t) := by
  unfold ZSt.print
  cases echo
  · exact pure ()
  · intro s a s' h; cases h; exact ⟨rfl, rfl, by simp, rfl⟩
theorem push (t : Str) : Quiet (ZSt.push t) := by
  intro s a s' h; cases h; exact ⟨rfl, rfl, by simp, rfl⟩
theorem append (t : Str) : Quiet (ZSt.append t) := by
  intro s a s' h
  unfold ZSt.append at h
  split at h
  · cases h
  · cases h; exact ⟨rfl, rfl, by simp, rfl⟩
theorem each {l : List α} {f : α → M ZSt Unit} (hf : ∀ a, Quiet (f a)) : Quiet (Tec.each l f) := by
  induction l with
  | nil => exact pure ()
  | cons a l ih => exact bind (hf a) fun _ => ih
theorem loopI {f : Int → M ZSt Unit} (hf : ∀ a, Quiet (f a)) (k : Nat) : ∀ i, Quiet (Verif.loopI f k i) := by
  induction k with
  | zero => intro i; exact pure ()
  | succ k ih => intro i; exact bind (hf i) fun _ => ih _
theorem forI {b e : Int} {f : Int → M ZSt Unit} (hf : ∀ a, Quiet (f a)) : Quiet (Verif.forI b e f) := by
  unfold Verif.forI
  split
  · exact loopI hf _ _
  · exact bind (loopI hf _ _) fun _ => undef _
end Quiet

theorem quiet_echoNum (echo : Bool) (a : I3) (dd : Nat) : Quiet (Zone.echoNum echo a dd) :=
  .bind (.liftM _) fun _ => .bind (.liftM _) fun _ => .bind (.print _ _) fun _ => .append _

theorem quiet_echoInfo (le : F64 → Str) (echo : Bool) : Quiet (Zone.echoInfo le echo) := by
  unfold Zone.echoInfo
  refine .get_bind fun s => ?_
  refine .bind (.ifB ?_) fun _ => .bind (.ifB ?_) fun _ => .bind (.ifB ?_) fun _ => .bind (.ifB ?_) fun _ => .ifB ?_
  · exact .bind (.liftM _) fun _ => .bind (.print _ _) fun _ => .bind (.push _) fun _ =>
      .bind (.forI fun _ => quiet_echoNum _ _ _) fun _ => .bind (.print _ _) fun _ => .append _
  · exact .bind (.print _ _) fun _ => .bind (.push _) fun _ => .bind (.each fun _ => quiet_echoNum _ _ _) fun _ =>
      .bind (.print _ _) fun _ => .append _
  · exact .bind (.print _ _) fun _ => .bind (.push _) fun _ => .bind (.each fun _ => quiet_echoNum _ _ _) fun _ =>
      .bind (.print _ _) fun _ => .append _
  · exact .bind (.print _ _) fun _ => .bind (.push _) fun _ => .bind (.each fun _ => quiet_echoNum _ _ _) fun _ =>
      .bind (.print _ _) fun _ => .bind (.append _) fun _ => .bind (.print _ _) fun _ => .bind (.append _) fun _ =>
      .bind (.each fun _ => quiet_echoNum _ _ _) fun _ => .bind (.print _ _) fun _ => .append _
  · exact .bind (.liftM _) fun _ => .bind (.print _ _) fun _ => .push _

/-! ## Variables -/

theorem zfile_run {m : M Str Unit} {s : ZSt} {t : Str} (h : m s.of = .ok () t) : ZSt.file m s = .ok () { s with of := t } := by
  unfold ZSt.file; rw [h]

theorem minMax_inv {i : Nat} {d : TecData} {s s' : ZSt} (h : Zone.writeMinMax i d s = .ok () s') :
    ∃ mm p, s.z.realProd = .ok p ∧ d.minmax (toU64 p) s.h = .ok mm s'.h ∧ i < s.l.Data.length ∧
      ({ s' with h := s.h } = { s with
        of := s.of ++ (leBytes 8 mm.1.toNat ++ leBytes 8 mm.2.toNat)
        l := { s.l with Data := s.l.Data.modify i fun l => { l with min := some mm.1, max := some mm.2 } } }) := by
  unfold Zone.writeMinMax at h
  rw [M.get_bind_run] at h
  obtain ⟨p, s1, h1, h'⟩ := M.bind_inv h
  clear h
  rw [M.liftM_eq] at h1
  obtain ⟨hp, rfl⟩ := M.lift_inv h1
  obtain ⟨mm, s2, h2, h⟩ := M.bind_inv h'
  clear h'
  unfold ZSt.heap at h2
  cases hmm : d.minmax (toU64 p) s1.h with
  | ub u => rw [hmm] at h2; cases h2
  | err e x => rw [hmm] at h2; cases h2
  | ok a x =>
    rw [hmm] at h2; cases h2
    rw [M.bind_ok (zfile_run (W_FLOAT64_run _ _)), M.bind_ok (zfile_run (W_FLOAT64_run _ _))] at h
    obtain ⟨_, s3, h3, h⟩ := M.bind_inv h
    unfold ZSt.modData at h3 h
    simp only at h3 h
    split at h3
    · rename_i hi
      cases h3
      split at h
      · cases h
        refine ⟨mm, p, hp, hmm, hi, ?_⟩
        simp only [List.append_assoc, List.modify_modify_eq]
        rfl
      · cases h
    · cases h3

theorem loadBytes_holds {h : Heap Byte} {p : Ptr} {l : Str} (H : Holds h p (l.map some)) : loadBytes l.length p h = .ok l h := by
  obtain ⟨b, o, len, c, rfl, hb, hle, hw⟩ := H
  rw [List.length_map] at hle hw
  exact loadBytes_ok hb l o hle hw

theorem writeVar_inv {echo : Bool} {vars : List Str} {i : Nat} {d : TecData} {s s' : ZSt} {p : Int} {b : Str}
    (hp : s.z.realProd = .ok p) (hb : Holds s.h d.buf (b.map some)) (hl : b.length = d.size * toU64 p)
    (h : Zone.writeVar echo vars i d s = .ok () s') :
    i < s.l.Data.length ∧ ZStep s s' b (s.l.Data.modify i fun l => { l with file_pt := some s.of.length }) := by
  unfold Zone.writeVar at h
  rw [M.get_bind_run] at h
  obtain ⟨_, s1, h1, h⟩ := M.bind_inv h
  unfold ZSt.modData at h1
  split at h1
  · rename_i hi
    cases h1
    refine ⟨hi, ?_⟩
    rw [hp, M.liftM_eq, M.lift_ok, pure_bind] at h
    have hr : ZSt.heap (loadBytes (d.size * toU64 p) d.buf)
        { s with l := { s.l with Data := s.l.Data.modify i fun l => { l with file_pt := some s.of.length } } } =
        .ok b { s with l := { s.l with Data := s.l.Data.modify i fun l => { l with file_pt := some s.of.length } } } := by
      unfold ZSt.heap
      rw [← hl, loadBytes_holds hb]
    rw [M.bind_ok hr, M.bind_ok (zfile_run (emit_run _ _))] at h
    have q : Quiet (ifB (test s.z.Echo_Mode 2) (match vars[i]? with
        | none => M.undef .oob
        | some v => do
          ZSt.print echo (lit " <" ++ cstr v ++ lit ">")
          ZSt.append (lit " <" ++ v ++ lit ">"))) := by
      refine .ifB ?_
      split
      · exact .undef _
      · exact .bind (.print _ _) fun _ => .append _
    have := q _ _ _ h
    exact ⟨this.h, this.z, by simpa using this.of, this.l⟩
  · cases h1

end Tec
end Verif
