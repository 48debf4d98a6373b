import Verif.Proof.Fast
import Verif.Proof.KernelRfl
import Verif.Spec.PointTests3
/-!
# Test_D3_PointData_H: one section after the other
-/
namespace Verif.PointTest3
open Spec Fast

/-- a plane of the table: all points or those of the first loop -/
def plane (x : Nat) (all : Bool) (f : Int → Int → Num) : List (Int × List (Int × Option Num)) :=
  (if all then J4 x else J3).map fun j => (j, (if all then K4 x else K4 0).map fun k => (k, some (f j k)))

/-- the table of one component after `q` planes of the second loop; the last plane of `x7` has its last values at the end only -/
def part (x : Nat) (n : Int) (q : Nat) : List (Int × List (Int × List (Int × Option Num))) :=
  (I3.map fun i => (i.1, plane x (decide (0 < q ∧ i.1 + 2 ≤ ((q + x / 4 % 2 : Nat) : Int))) (c0 x n i.1))) ++
  (if x / 4 % 2 = 1 ∧ 0 < q then
    [(3, plane x true fun j k => if x = 7 ∧ q < 4 then (if j = 7 ∧ k = 6 then .int 4 else .int 1) else c0 x n 3 j k)] else [])

/-- the table after `r` planes of the second loop -/
def stage (x r : Nat) : Tab Num 4 :=
  ([(0, part x 0 (min r 4)), (1, part x 1 (r - 4))] : List (Int × List (Int × List (Int × List (Int × Option Num)))))

abbrev Cell := Kind × FArr Num

def blank (x : Nat) : Cell := (kind3 x, .ready e4 (.tab 4 (Tab.empty _)))
def half (x r : Nat) : Cell := (kind3 x, .ready e4 (.tab 4 (stage x r)))
def full (x : Nat) : Cell := (kind3 x, .ready e4 (.tab 4 (stage x 8)))

/-- a small number, as a numeral -/
def numeral {R : Type} (z : Int) : List Int → (Int → R) → R
  | [], c => c z
  | a :: l, c => if a = z then c a else numeral z l c

theorem numeral_eq {R : Type} (z : Int) (l : List Int) (c : Int → R) : numeral z l c = c z := by
  induction l with
  | nil => rfl
  | cons a l ih =>
    simp only [numeral]
    split
    · rename_i h; rw [h]
    · exact ih

def small : List Int := [0, 1, 2, 3, 4, 5, 6, -1]

instance : Force Vars where
  norm s c := match s with
    | ⟨n, [i, j, k], R, ans, pt, t, max, e :: es, o :: os⟩ => numeral i small fun i => numeral j small fun j => numeral k small fun k =>
      match n with
      | 0 => c ⟨0, [i, j, k], R, ans, pt, t, max, e :: es, o :: os⟩
      | 1 => c ⟨1, [i, j, k], R, ans, pt, t, max, e :: es, o :: os⟩
      | n => c ⟨n, [i, j, k], R, ans, pt, t, max, e :: es, o :: os⟩
    | ⟨n, xs, R, ans, pt, t, max, e :: es, []⟩ => c ⟨n, xs, R, ans, pt, t, max, e :: es, []⟩
    | s => c s
  norm_eq s c := by
    split
    · simp only [numeral_eq]
      split <;> rfl
    · rfl
    · rfl

/-- the variables after a section -/
def after (pt : List Int) (caught : List Err) (out : List (List String)) : Vars :=
  { n := 1, xs := [2, 6, 5], R := [(-1, 4), (-1, 8), (-1, 7)], pt, caught, out }

theorem d3h_append (mem : Nat → Nat → Bool) (chk : Bool) (A B : List Prog) {w w' : FWorld Num} {s s' : Vars} (h : (block A).fexec mem chk w s = .done () w' s') :
    (block (A ++ B)).fexec mem chk w s = (block B).fexec mem chk w' s' := by
  induction A generalizing w s with
  | nil => cases h; rfl
  | cons p A ih =>
    replace h : ((p.fexec mem chk).andThen fun _ => (block A).fexec mem chk) w s = .done () w' s' := h
    show ((p.fexec mem chk).andThen fun _ => (block (A ++ B)).fexec mem chk) w s = _
    simp only [FM.andThen] at h ⊢
    cases hp : p.fexec mem chk w s with
    | done a w1 s1 => rw [hp] at h; exact ih h
    | throws e w1 s1 => rw [hp] at h; cases h
    | uninit => rw [hp] at h; cases h
    | fail => rw [hp] at h; cases h

theorem d3h_one {mem : Nat → Nat → Bool} {chk : Bool} {p : Prog} {w w' : FWorld Num} {s s' : Vars} (h : p.fexec mem chk w s = .done () w' s') :
    (block [p]).fexec mem chk w s = .done () w' s' := by
  show ((p.fexec mem chk).andThen fun _ => FM.ret ()) w s = _
  simp only [FM.andThen, h]
  rfl

theorem d3h_life (junk : Nat → Ptr) :
    (block (d3hLife junk)).fexec ample true FWorld.init {} =
      .done () ⟨[(0, blank 0), (1, blank 1), (2, blank 2), (3, blank 3), (4, blank 4), (5, blank 5), (6, blank 6), (7, blank 7)], 27, 0⟩
        { caught := [.sizeIn 2, .notEmpty, .isEmpty, .isEmpty] } := by kernel_rfl

/-- the points of a plane of a component -/
def chunk (r : Nat) : List (Nat × List Int) := J3.flatMap fun j => (K4 0).map fun k => (r / 4, [(r % 4 : Nat) - 1, j, k])

def R4 : List (Int × Int) := [(-1, 4), (-1, 8), (-1, 7)]

theorem chunks : loopPts ⟨some (0, 2), [], R4⟩ = chunk 0 ++ (chunk 1 ++ (chunk 2 ++ (chunk 3 ++ (chunk 4 ++ (chunk 5 ++ (chunk 6 ++ (chunk 7 ++ []))))))) := by
  decide +kernel

/-- the rounds of a loop -/
def rounds (l : List Prog) (L : List (Nat × List Int)) : FM Num Vars Unit :=
  FM.through (fun _ a w s => forced ((block l).fexec ample true) w { s with n := a.1, xs := a.2 }) () L

theorem rounds_append (l : List Prog) {L M : List (Nat × List Int)} {w w' : FWorld Num} {s s' : Vars} (h : rounds l L w s = .done () w' s') :
    rounds l (L ++ M) w s = rounds l M w' s' := by
  induction L generalizing w s with
  | nil => cases h; rfl
  | cons a L ih =>
    unfold rounds at h ⊢ ih
    simp only [FM.through, FM.andThen, List.cons_append] at h ⊢
    split at h
    · exact ih h
    · cases h
    · cases h
    · cases h

theorem over_rounds (x : Nat) (l : List Prog) {w w' : FWorld Num} {s s' : Vars}
    (hr : (Stmt.range (V := Num) x all3 fun R (s : Vars) => { s with R }).fexec ample true w s = .done () w { s with R := R4 })
    (h : rounds l (loopPts ⟨some (0, 2), [], R4⟩) w { s with R := R4 } = .done () w' s') :
    (over x all3 (some (0, 2)) [] l).fexec ample true w s = .done () w' s' := by
  show ((Stmt.range (V := Num) x all3 fun R (s : Vars) => { s with R }).fexec ample true |>.andThen fun _ => FM.andThen
    ((Stmt.loop (fun (s : Vars) => ⟨some (0, 2), [], s.R⟩) (fun n xs (s : Vars) => { s with n, xs }) (block l)).fexec ample true) fun _ => FM.ret ()) w s = _
  simp only [FM.andThen, hr]
  have ok : LoopOk ⟨some (0, 2), [], R4⟩ := by decide +kernel
  have e : (Stmt.loop (fun (s : Vars) => ⟨some (0, 2), [], s.R⟩) (fun n xs (s : Vars) => { s with n, xs }) (block l)).fexec ample true w { s with R := R4 } =
      rounds l (loopPts ⟨some (0, 2), [], R4⟩) w { s with R := R4 } := by
    simp only [Stmt.fexec, rounds]
    rw [if_pos ok]
  rw [e, h]
  rfl

end Verif.PointTest3
