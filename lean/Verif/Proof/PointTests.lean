import Verif.Spec.PointTests
/-!
# The test programs do not depend on the contents of uninitialised memory
-/
namespace Verif.PointTest
open Spec
variable {mem : Nat → Nat → Bool} {chk : Bool}

/-- null everywhere -/
def nulls : Nat → Ptr := fun _ => .null

/-- `p` and `q` do the same on the abstract machine as long as the contract is kept -/
def Alike (mem : Nat → Nat → Bool) (chk : Bool) (p q : Prog) : Prop :=
  ∀ w s, p.aexec mem chk w s = q.aexec mem chk w s ∨ ∃ w' why w'' why', p.aexec mem chk w s = .outside w' why ∧ q.aexec mem chk w s = .outside w'' why'

theorem Alike.same {p : Prog} : Alike mem chk p p := fun _ _ => .inl (Eq.refl _)

theorem Alike.make (x : Nat) (k : Kind) (junk : Nat → Ptr) : Alike mem chk (op (.make x k junk)) (op (.make x k nulls)) := fun w s => by
  simp only [op, Stmt.aexec]
  have e : astep mem chk w (.make x k junk) = astep mem chk w (.make x k nulls) := (Eq.refl _)
  rw [e]
  cases h : astep mem chk w (.make x k nulls) with
  | none => exact .inr ⟨_, _, _, _, (Eq.refl _), (Eq.refl _)⟩
  | some q => left; obtain ⟨ev, w'⟩ := q; match ev with
    | .exn _ => rfl
    | .ret (.val none) => rfl
    | .ret (.val (some _)) => rfl
    | .ret .unit => rfl
    | .ret (.sizes _) => rfl

theorem Alike.makeSized (x : Nat) (k : Kind) (junk : Nat → Ptr) (es : List Ext) :
    Alike mem chk (op (.makeSized x k junk es)) (op (.makeSized x k nulls es)) := fun w s => by
  simp only [op, Stmt.aexec]
  have e : astep mem chk w (.makeSized x k junk es) = astep mem chk w (.makeSized x k nulls es) := (Eq.refl _)
  rw [e]
  cases h : astep mem chk w (.makeSized x k nulls es) with
  | none => exact .inr ⟨_, _, _, _, (Eq.refl _), (Eq.refl _)⟩
  | some q => left; obtain ⟨ev, w'⟩ := q; match ev with
    | .exn _ => rfl
    | .ret (.val none) => rfl
    | .ret (.val (some _)) => rfl
    | .ret .unit => rfl
    | .ret (.sizes _) => rfl

theorem Alike.block {l l' : List Prog} (h : List.Forall₂ (Alike mem chk) l l') : Alike mem chk (block l) (block l') := by
  induction h with
  | nil => exact .same
  | @cons a b l l' h _ ih =>
    intro w s
    simp only [PointTest.block, List.foldr_cons, Stmt.aexec, AM.andThen]
    rcases h w s with h | ⟨w', y, w'', y', h, h'⟩
    · rw [h]
      cases b.aexec mem chk w s with
      | done a w s => exact ih w s
      | throws e w s => exact .inl (Eq.refl _)
      | uninit => exact .inl (Eq.refl _)
      | outside w y => exact .inl (Eq.refl _)
    · rw [h, h']; exact .inr ⟨_, _, _, _, (Eq.refl _), (Eq.refl _)⟩

theorem Alike.seen {p q : Prog} (h : Alike mem chk p q) (w : AWorld ℚ) (s : Vars) : (p.aexec mem chk w s).seen = (q.aexec mem chk w s).seen := by
  rcases h w s with h | ⟨w', y, w'', y', h, h'⟩
  · rw [h]
  · rw [h, h']; exact (Eq.refl _)

theorem alike_same (l : List Prog) : List.Forall₂ (Alike mem chk) l l := by
  induction l with
  | nil => exact .nil
  | cons a l ih => exact .cons .same ih

theorem alike_append {a a' b b' : List Prog} (h : List.Forall₂ (Alike mem chk) a a') (h' : List.Forall₂ (Alike mem chk) b b') :
    List.Forall₂ (Alike mem chk) (a ++ b) (a' ++ b') := by
  induction h with
  | nil => exact h'
  | cons h _ ih => exact .cons h ih

theorem alike_d1cLife (junk : Nat → Ptr) : List.Forall₂ (Alike mem chk) (d1cLife junk) (d1cLife nulls) :=
  .cons (.make _ _ _) (.cons (.make _ _ _) (.cons (.makeSized _ _ _ _) (alike_same _)))
theorem alike_d1hLife (junk : Nat → Ptr) : List.Forall₂ (Alike mem chk) (d1hLife junk) (d1hLife nulls) :=
  .cons (.make _ _ _) (.cons (.make _ _ _) (.cons (.makeSized _ _ _ _) (alike_same _)))
theorem alike_d1cConst (junk : Nat → Ptr) : List.Forall₂ (Alike mem chk) (d1cConst junk) (d1cConst nulls) := .cons (.makeSized _ _ _ _) (alike_same _)
theorem alike_d1hConst (junk : Nat → Ptr) : List.Forall₂ (Alike mem chk) (d1hConst junk) (d1hConst nulls) := .cons (.makeSized _ _ _ _) (alike_same _)
theorem alike_d2cBegin (junk : Nat → Ptr) : List.Forall₂ (Alike mem chk) (d2cBegin junk) (d2cBegin nulls) :=
  .cons (.make _ _ _) (.cons .same (.cons (.make _ _ _) (.cons (.makeSized _ _ _ _) (alike_same _))))
theorem alike_d2cConst (junk : Nat → Ptr) : List.Forall₂ (Alike mem chk) (d2cConst junk) (d2cConst nulls) := .cons (.makeSized _ _ _ _) (alike_same _)

theorem alike_d1c (junk : Nat → Ptr) : Alike mem chk (d1c junk) (d1c nulls) :=
  .block (alike_append (alike_append (alike_append (alike_d1cLife junk) (alike_same _)) (alike_d1cConst junk)) (alike_same _))
theorem alike_d1c' (junk : Nat → Ptr) : Alike mem chk (d1c' junk) (d1c' nulls) := .block (alike_append (alike_append (alike_d1cLife junk) (alike_same _)) (alike_same _))
theorem alike_d1h (junk : Nat → Ptr) : Alike mem chk (d1h junk) (d1h nulls) :=
  .block (alike_append (alike_append (alike_append (alike_d1hLife junk) (alike_same _)) (alike_d1hConst junk)) (alike_same _))
theorem alike_d1h' (junk : Nat → Ptr) : Alike mem chk (d1h' junk) (d1h' nulls) := .block (alike_append (alike_append (alike_d1hLife junk) (alike_same _)) (alike_same _))
theorem alike_d2c' (junk : Nat → Ptr) : Alike mem chk (d2c' junk) (d2c' nulls) :=
  .block (alike_append (alike_append (alike_append (alike_d2cBegin junk) (alike_same _)) (alike_same _)) (alike_same _))
theorem alike_d2cNoBig (junk : Nat → Ptr) : Alike mem chk (d2cNoBig junk) (d2cNoBig nulls) :=
  .block (alike_append (alike_append (alike_append (alike_append (alike_d2cBegin junk) (alike_same _)) (alike_same _)) (alike_d2cConst junk)) (alike_same _))

end Verif.PointTest
