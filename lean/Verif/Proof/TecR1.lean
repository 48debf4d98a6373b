import Verif.Proof.TecW5
import Verif.Proof.TecText
import Verif.Spec.TecReport
/-!
# The report of a zone
-/
namespace Verif.Tec
open Spec

/-- what is printed -/
def pr (echo : Bool) (t : Str) : Str := if echo then t else []

theorem pr_nil (echo : Bool) : pr echo [] = [] := by cases echo <;> rfl
theorem pr_append (echo : Bool) (a b : Str) : pr echo a ++ pr echo b = pr echo (a ++ b) := by cases echo <;> rfl

theorem printed_append (a b : List Line) : printed (a ++ b) = printed a ++ printed b := by
  unfold printed; rw [List.flatMap_append]
theorem kept_append (a b : List Line) : keptLines (a ++ b) = keptLines a ++ keptLines b := by
  unfold keptLines; rw [List.map_append]
theorem printed_one (x : Line) : printed [x] = x.shown ++ lit "\n" := by unfold printed; simp

/-- the same state with another standard output and another report -/
def ZSt.rep (s : ZSt) (o : Str) (T : List Str) : ZSt := { s with out := o, l := { s.l with Echo_Text := T } }

theorem ZSt.rep_self (s : ZSt) : s.rep s.out s.l.Echo_Text = s := rfl

theorem zprint_run (echo : Bool) (t : Str) (s : ZSt) (o : Str) (T : List Str) :
    ZSt.print echo t (s.rep o T) = .ok () (s.rep (o ++ pr echo t) T) := by
  cases echo
  · show Res.ok () _ = _; simp [pr]
  · rfl
theorem zpush_run (t : Str) (s : ZSt) (o : Str) (T : List Str) : ZSt.push t (s.rep o T) = .ok () (s.rep o (T ++ [t])) := rfl
theorem zappend_run (t x : Str) (s : ZSt) (o : Str) (T : List Str) :
    ZSt.append t (s.rep o (T ++ [x])) = .ok () (s.rep o (T ++ [x ++ t])) := by
  unfold ZSt.append ZSt.rep
  simp only [List.reverse_append, List.reverse_cons, List.reverse_nil, List.nil_append, List.cons_append, List.reverse_reverse]

theorem echoNum_run (echo : Bool) {a : I3} {dd : Nat} {v : Int} (hv : a.get dd = .ok v) (hi : InI32 v) (s : ZSt) (o : Str) (T : List Str) (x : Str) :
    Zone.echoNum echo a dd (s.rep o (T ++ [x])) = .ok () (s.rep (o ++ pr echo (lit " " ++ dec v)) (T ++ [x ++ (lit " " ++ dec v)])) := by
  unfold Zone.echoNum
  have h := dec_i32 hi
  rw [hv, M.liftM_eq, M.lift_ok, pure_bind, sprintf_ok (by lits; omega), M.liftM_eq, M.lift_ok, pure_bind, M.bind_ok (zprint_run ..), zappend_run]

/-- numbers as they appear in brackets -/
def nums (l : List Int) : Str := l.flatMap fun v => lit " " ++ dec v

theorem bracket_eq (l : List Int) : bracket l = lit "[" ++ nums l ++ lit " ]" := rfl

theorem each3_run (echo : Bool) {a : I3} (ha : a.Fit) (s : ZSt) (o : Str) (T : List Str) (x : Str) :
    each [0, 1, 2] (fun dd => Zone.echoNum echo a dd) (s.rep o (T ++ [x])) = .ok () (s.rep (o ++ pr echo (nums a.list)) (T ++ [x ++ nums a.list])) := by
  unfold each
  rw [M.bind_ok (echoNum_run echo (v := a.x) rfl ha.1 ..)]
  unfold each
  rw [M.bind_ok (echoNum_run echo (v := a.y) rfl ha.2.1 ..)]
  unfold each
  rw [M.bind_ok (echoNum_run echo (v := a.z) rfl ha.2.2 ..)]
  show Res.ok () _ = _
  simp only [List.append_assoc, pr_append, nums, I3.list, List.flatMap_cons, List.flatMap_nil, List.append_nil]

theorem forDim_run (echo : Bool) {a : I3} (ha : a.Fit) {n : Int} (h0 : 0 ≤ n) (h3 : n ≤ 3) (s : ZSt) (o : Str) (T : List Str) (x : Str) :
    forI 0 n (fun dd => Zone.echoNum echo a dd.toNat) (s.rep o (T ++ [x])) =
      .ok () (s.rep (o ++ pr echo (nums (a.list.take n.toNat))) (T ++ [x ++ nums (a.list.take n.toNat)])) := by
  rcases (by omega : n = 0 ∨ n = 1 ∨ n = 2 ∨ n = 3) with rfl | rfl | rfl | rfl
  · show Res.ok () _ = _
    simp [nums, pr_nil]
  · show (Zone.echoNum echo a 0 >>= fun _ => pure ()) _ = _
    rw [M.bind_ok (echoNum_run echo (v := a.x) rfl ha.1 ..)]
    show Res.ok () _ = _
    simp only [nums, I3.list, List.take, Int.reduceToNat, List.flatMap_cons, List.flatMap_nil, List.append_nil]
  · show (Zone.echoNum echo a 0 >>= fun _ => Zone.echoNum echo a 1 >>= fun _ => pure ()) _ = _
    rw [M.bind_ok (echoNum_run echo (v := a.x) rfl ha.1 ..), M.bind_ok (echoNum_run echo (v := a.y) rfl ha.2.1 ..)]
    show Res.ok () _ = _
    simp only [List.append_assoc, pr_append, nums, I3.list, List.take, Int.reduceToNat, List.flatMap_cons, List.flatMap_nil, List.append_nil]
  · show (Zone.echoNum echo a 0 >>= fun _ => Zone.echoNum echo a 1 >>= fun _ => Zone.echoNum echo a 2 >>= fun _ => pure ()) _ = _
    rw [M.bind_ok (echoNum_run echo (v := a.x) rfl ha.1 ..), M.bind_ok (echoNum_run echo (v := a.y) rfl ha.2.1 ..),
      M.bind_ok (echoNum_run echo (v := a.z) rfl ha.2.2 ..)]
    show Res.ok () _ = _
    simp only [List.append_assoc, pr_append, nums, I3.list, List.take, Int.reduceToNat, List.flatMap_cons, List.flatMap_nil, List.append_nil]

/-- a statement that reports these lines and does nothing else -/
def Says (echo : Bool) (L : List Line) (m : M ZSt Unit) : Prop :=
  ∀ s o T, m (ZSt.rep s o T) = .ok () (s.rep (o ++ pr echo (printed L)) (T ++ keptLines L))

theorem Says.bind {echo : Bool} {L K : List Line} {m n : M ZSt Unit} (hm : Says echo L m) (hn : Says echo K n) :
    Says echo (L ++ K) (m >>= fun _ => n) := by
  intro s o T
  rw [M.bind_ok (hm ..), hn, printed_append, kept_append, List.append_assoc, List.append_assoc, pr_append]

theorem Says.ifB {echo : Bool} {e : List Bool} {k : Nat} {x : Line} {m : M ZSt Unit} (hm : Says echo [x] m) :
    Says echo (onFlag e k x) (ifB (test e k) m) := by
  unfold onFlag test Tec.ifB
  by_cases h : e.getD k false
  · rw [if_pos h, if_pos h]; exact hm
  · rw [if_neg h, if_neg h]
    intro s o T
    show Res.ok () _ = _
    simp [printed, keptLines, pr_nil]

theorem says_one {echo : Bool} {a b : Str} {m : M ZSt Unit} (h : ∀ s o T, m (ZSt.rep s o T) = .ok () (s.rep (o ++ pr echo (a ++ lit "\n")) (T ++ [b]))) :
    Says echo [⟨a, b⟩] m := by
  intro s o T
  rw [h, printed_one]; rfl

theorem echoInfo_says {le : F64 → Str} (hle : ∀ x, (le x).length ≤ 30) (echo : Bool) {z : Zone} (hm : z.Max.Fit) (hs : z.Skip.Fit)
    (hb : z.Begin.Fit) (he : z.End.Fit) (hr : z.Real_Max.Fit) (hd0 : 0 ≤ z.Real_Dim) (hd : z.Real_Dim ≤ 3) (hi : InI32 z.StrandId)
    (s : ZSt) (hz : s.z = z) (o : Str) (T : List Str) :
    Zone.echoInfo le echo (s.rep o T) = .ok () (s.rep
      (o ++ pr echo (printed (onFlag z.Echo_Mode 3 (.same (lit "     Dim = " ++ dec z.Real_Dim ++ lit "   Real_Max = " ++ bracket (z.Real_Max.list.take z.Real_Dim.toNat))) ++
        (onFlag z.Echo_Mode 4 (.same (lit "     Org_Max = " ++ bracket z.Max.list)) ++
        (onFlag z.Echo_Mode 5 (.same (lit "     Skip = " ++ bracket z.Skip.list)) ++
        (onFlag z.Echo_Mode 6 ⟨lit "     Begin = " ++ bracket z.Begin.list ++ lit "   End = " ++ bracket z.End.list,
          lit "     Begin = " ++ bracket z.Begin.list ++ lit " End = " ++ bracket z.End.list⟩ ++
        (if z.StrandId = -1 then [] else
          onFlag z.Echo_Mode 7 (.same (lit "     StrandId = " ++ dec z.StrandId ++ lit " SolutionTime = " ++ le z.SolutionTime)))))))))
      (T ++ keptLines (onFlag z.Echo_Mode 3 (.same (lit "     Dim = " ++ dec z.Real_Dim ++ lit "   Real_Max = " ++ bracket (z.Real_Max.list.take z.Real_Dim.toNat))) ++
        (onFlag z.Echo_Mode 4 (.same (lit "     Org_Max = " ++ bracket z.Max.list)) ++
        (onFlag z.Echo_Mode 5 (.same (lit "     Skip = " ++ bracket z.Skip.list)) ++
        (onFlag z.Echo_Mode 6 ⟨lit "     Begin = " ++ bracket z.Begin.list ++ lit "   End = " ++ bracket z.End.list,
          lit "     Begin = " ++ bracket z.Begin.list ++ lit " End = " ++ bracket z.End.list⟩ ++
        (if z.StrandId = -1 then [] else
          onFlag z.Echo_Mode 7 (.same (lit "     StrandId = " ++ dec z.StrandId ++ lit " SolutionTime = " ++ le z.SolutionTime))))))))) := by
  unfold Zone.echoInfo
  rw [M.get_bind_run]
  have hz' : (s.rep o T).z = z := hz
  simp only [hz']
  have key : ∀ (A B : Str), lit "   Real_Max = [" = lit "   Real_Max = " ++ lit "[" := fun _ _ => rfl
  have k4 : lit "     Org_Max = [" = lit "     Org_Max = " ++ lit "[" := rfl
  have k5 : lit "     Skip = [" = lit "     Skip = " ++ lit "[" := rfl
  have k6 : lit "     Begin = [" = lit "     Begin = " ++ lit "[" := rfl
  have k7 : lit "   End = [" = lit "   End = " ++ lit "[" := rfl
  have k8 : lit " End = [" = lit " End = " ++ lit "[" := rfl
  have k9 : lit " ]\n" = lit " ]" ++ lit "\n" := rfl
  refine (Says.bind (Says.ifB (says_one ?_)) (Says.bind (Says.ifB (says_one ?_)) (Says.bind (Says.ifB (says_one ?_))
    (Says.bind (Says.ifB (says_one ?_)) ?_)))) s o T
  · intro s o T
    have h1 := dec_i32 (x := z.Real_Dim) ⟨by omega, by omega⟩
    rw [sprintf_ok (by lits; omega), M.liftM_eq, M.lift_ok, pure_bind, M.bind_ok (zprint_run ..), M.bind_ok (zpush_run ..),
      M.bind_ok (forDim_run echo hr hd0 hd ..), M.bind_ok (zprint_run ..), zappend_run, k9, key [] [], bracket_eq]
    simp only [List.append_assoc, pr_append]
  · intro s o T
    rw [M.bind_ok (zprint_run ..), M.bind_ok (zpush_run ..), M.bind_ok (each3_run echo hm ..), M.bind_ok (zprint_run ..), zappend_run, k9, k4, bracket_eq]
    simp only [List.append_assoc, pr_append]
  · intro s o T
    rw [M.bind_ok (zprint_run ..), M.bind_ok (zpush_run ..), M.bind_ok (each3_run echo hs ..), M.bind_ok (zprint_run ..), zappend_run, k9, k5, bracket_eq]
    simp only [List.append_assoc, pr_append]
  · intro s o T
    rw [M.bind_ok (zprint_run ..), M.bind_ok (zpush_run ..), M.bind_ok (each3_run echo hb ..), M.bind_ok (zprint_run ..), M.bind_ok (zappend_run ..),
      M.bind_ok (zprint_run ..), M.bind_ok (zappend_run ..), M.bind_ok (each3_run echo he ..), M.bind_ok (zprint_run ..), zappend_run, k9, k6, k7, k8,
      bracket_eq, bracket_eq]
    simp only [List.append_assoc, pr_append]
  · by_cases h : z.StrandId = -1
    · rw [if_pos h]
      intro s o T
      have : (test z.Echo_Mode 7 && z.StrandId != -1) = false := by rw [h]; simp
      rw [this]
      show Res.ok () _ = _
      simp [printed, keptLines, pr_nil]
    · rw [if_neg h]
      have : (test z.Echo_Mode 7 && z.StrandId != -1) = test z.Echo_Mode 7 := by simp [h]
      rw [this]
      refine Says.ifB (says_one ?_)
      intro s o T
      have h1 := dec_i32 hi
      have h2 := hle z.SolutionTime
      rw [sprintf_ok (by lits; omega), M.liftM_eq, M.lift_ok, pure_bind, M.bind_ok (zprint_run ..), zpush_run]

end Verif.Tec
