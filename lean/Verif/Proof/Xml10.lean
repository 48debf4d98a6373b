import Verif.Proof.Xml7
import Verif.Proof.ReadPlt
/-!
# `read_plt` with another log
-/
namespace Verif
open Spec Tec
variable {V : Type}

/-- what `read_plt` uses of the log of a zone -/
def ZoneAlike (z z' : ZoneLog) : Prop :=
  z.Real_Max = z'.Real_Max ∧ z.Data.map (fun d => (d.type, d.size, d.file_pt)) = z'.Data.map fun d => (d.type, d.size, d.file_pt)

/-- what `read_plt` uses of its arguments -/
structure ArgsAlike (A A' : ReadArgs) : Prop where
  root : A.root = A'.root
  name : A.name = A'.name
  zone : A.zone = A'.zone
  file : A.log.FileName = A'.log.FileName
  vars : A.log.Variables = A'.log.Variables
  count : A.log.Zones.length = A'.log.Zones.length
  zones : ∀ (i : Nat) (z z' : ZoneLog), A.log.Zones[i]? = some z → A'.log.Zones[i]? = some z' → ZoneAlike z z'
  fs : A.fs (cstr A.path) = A'.fs (cstr A.path)

theorem ArgsAlike.path {A A' : ReadArgs} (h : ArgsAlike A A') : A.path = A'.path := by
  unfold ReadArgs.path; rw [h.root, h.file]

theorem load_alike {A A' : ReadArgs} (h : ArgsAlike A A') {z z' : ZoneLog} (hz : ZoneAlike z z') (cnt : Nat) (loop : Ptr → Bool → M (RSt V) Unit) :
    A.load z cnt loop = A'.load z' cnt loop := by
  unfold ReadArgs.load
  have e1 : A.findVar = A'.findVar := by
    unfold ReadArgs.findVar; rw [h.vars, h.name, h.file]
  rw [e1]
  congr 1
  funext vv
  have e2 : (z.Data[vv]?).map (fun d => (d.type, d.size, d.file_pt)) = (z'.Data[vv]?).map fun d => (d.type, d.size, d.file_pt) := by
    rw [← List.getElem?_map, ← List.getElem?_map, hz.2]
  unfold ReadArgs.dataLog
  cases c : z.Data[vv]? with
  | none =>
    cases c' : z'.Data[vv]? with
    | none => rfl
    | some d' => rw [c, c'] at e2; cases e2
  | some d =>
    cases c' : z'.Data[vv]? with
    | none => rw [c, c'] at e2; cases e2
    | some d' =>
      rw [c, c'] at e2
      simp only [Option.map_some, Option.some.injEq, Prod.mk.injEq] at e2
      obtain ⟨t1, t2, t3⟩ := e2
      have e3 : A.openAt d = A'.openAt d' := by
        unfold ReadArgs.openAt; rw [t3, ← h.path, h.fs]
      have e4 : ∀ rest, A.readBuf d cnt rest = A'.readBuf d' cnt rest := by
        intro rest
        unfold ReadArgs.readBuf; rw [t2, h.path]
      have e5 : ∀ buf, byType d buf (loop buf) = byType d' buf (loop buf) := by
        intro buf
        unfold byType; rw [t1]
      simp only [M.liftM_eq, M.lift_ok, pure_bind, e3, e4, e5]

theorem zoneLog_alike {A A' : ReadArgs} (h : ArgsAlike A A') :
    (∃ z z', A.zoneLog = .ok z ∧ A'.zoneLog = .ok z' ∧ ZoneAlike z z') ∨
    (∃ e, A.zoneLog = .err e ∧ A'.zoneLog = .err e) := by
  unfold ReadArgs.zoneLog
  rw [← h.count, ← h.zone]
  by_cases c : A.log.Zones.length ≤ A.zone
  · right; rw [if_pos c, if_pos c]; exact ⟨_, rfl, rfl⟩
  · left
    have c' : A.zone < A'.log.Zones.length := by rw [← h.count]; omega
    rw [if_neg c, if_neg c, List.getElem?_eq_getElem (by omega), List.getElem?_eq_getElem c']
    exact ⟨_, _, rfl, rfl, h.zones A.zone _ _ (List.getElem?_eq_getElem (by omega)) (List.getElem?_eq_getElem c')⟩

theorem obj_read_alike {A A' : ReadArgs} (h : ArgsAlike A A') (chk : Bool) (k : Kind) (C : Num V) (nn : Nat) (o : Obj) :
    o.read_plt chk k C A nn = o.read_plt chk k C A' nn := by
  rcases zoneLog_alike h with ⟨z, z', e1, e2, hz⟩ | ⟨e, e1, e2⟩
  · have r : ∀ a b, z.Real_Max_C a b = z'.Real_Max_C a b := by
      intro a b; unfold ZoneLog.Real_Max_C; rw [hz.1]
    cases o with
    | d1 o =>
      simp only [Obj.read_plt, D1.PD.read_plt, e1, e2, M.liftM_eq, M.lift_ok, pure_bind, r, load_alike h hz]
    | d2 o =>
      simp only [Obj.read_plt, D2.PD.read_plt, e1, e2, M.liftM_eq, M.lift_ok, pure_bind, r, load_alike h hz]
    | d3 o =>
      simp only [Obj.read_plt, D3.PD.read_plt, e1, e2, M.liftM_eq, M.lift_ok, pure_bind, r, load_alike h hz]
  · cases o with
    | d1 o =>
      simp only [Obj.read_plt, D1.PD.read_plt, e1, e2, M.liftM_eq]
      congr 1
    | d2 o =>
      simp only [Obj.read_plt, D2.PD.read_plt, e1, e2, M.liftM_eq]
      congr 1
    | d3 o =>
      simp only [Obj.read_plt, D3.PD.read_plt, e1, e2, M.liftM_eq]
      congr 1

theorem read_alike {A A' : ReadArgs} (h : ArgsAlike A A') (chk : Bool) (C : Num V) (x nn : Nat) :
    World.read_plt chk C A x nn = World.read_plt chk C A' x nn := by
  funext s
  unfold World.read_plt
  cases s.1.objs x with
  | none => rfl
  | some ko =>
    obtain ⟨k, o⟩ := ko
    simp only [obj_read_alike h]

end Verif
