import Verif.Model.Api
/-!
# Removing the checks does not change a successful access
-/
namespace Verif
variable {V σ α β : Type}

/-- whatever `m` returns normally, `m'` returns too -/
def Relax (m m' : M σ α) : Prop := ∀ s a s', m s = .ok a s' → m' s = .ok a s'

theorem Relax.refl (m : M σ α) : Relax m m := fun _ _ _ h => h

theorem Relax.bind {m m' : M σ α} {f f' : α → M σ β} (h : Relax m m') (hf : ∀ a, Relax (f a) (f' a)) :
    Relax (m >>= f) (m' >>= f') := by
  intro s b s' hb
  rw [M.bind_run] at hb ⊢
  cases h1 : m s with
  | ok a s1 => rw [h1] at hb; rw [h _ _ _ h1]; exact hf a _ _ _ hb
  | err e s1 => rw [h1] at hb; cases hb
  | ub u => rw [h1] at hb; cases hb

/-- a check that is removed -/
theorem Relax.check {o o' : Out α} (h : ∀ a, o = .ok a → o' = .ok a) : Relax (liftM o : M σ α) (liftM o') := by
  intro s a s' hs
  rw [M.liftM_eq] at hs ⊢
  cases o with
  | ok a => rw [h a rfl]; exact hs
  | err e => cases hs
  | ub u => cases hs

theorem D1.range_chk (s : D1.SizeT) (chk : Bool) (t : RA) : s.range chk t = s.range false t := by
  cases chk <;> rfl
theorem D2.range_chk (s : D2.SizeT) (chk : Bool) (t u : RA) : s.range chk t u = s.range false t u := by
  cases chk <;> rfl
theorem D3.range_chk (s : D3.SizeT) (chk : Bool) (t u v : RA) : s.range chk t u v = s.range false t u v := by
  cases chk <;> rfl

theorem D1.PD.at_relax (N : Nat) (L0 : Loc) (o : PD) (n : Nat) (i : Int) (f0 : FL) :
    Relax (σ := Heap V) (at_ true N L0 o n i f0) (at_ false N L0 o n i f0) := by
  refine .bind (.check fun _ _ => rfl) fun _ => .bind (.check fun _ _ => rfl) fun _ => .bind (.check fun _ _ => rfl) fun _ => ?_
  rw [D1.range_chk _ true]
  exact .bind (.refl _) fun _ => .bind (.check fun _ _ => rfl) fun _ => .refl _

theorem D2.PD.at_relax (N : Nat) (L0 L1 : Loc) (o : PD) (n : Nat) (i j : Int) (f0 f1 : FL) :
    Relax (σ := Heap V) (at_ true N L0 L1 o n i j f0 f1) (at_ false N L0 L1 o n i j f0 f1) := by
  refine .bind (.check fun _ _ => rfl) fun _ => .bind (.check fun _ _ => rfl) fun _ => .bind (.check fun _ _ => rfl) fun _ => ?_
  rw [D2.range_chk _ true]
  exact .bind (.refl _) fun _ => .bind (.check fun _ _ => rfl) fun _ =>
    .bind (.refl _) fun _ => .bind (.check fun _ _ => rfl) fun _ => .refl _

theorem D3.PD.at_relax (N : Nat) (L0 L1 L2 : Loc) (o : PD) (n : Nat) (i j k : Int) (f0 f1 f2 : FL) :
    Relax (σ := Heap V) (at_ true N L0 L1 L2 o n i j k f0 f1 f2) (at_ false N L0 L1 L2 o n i j k f0 f1 f2) := by
  refine .bind (.check fun _ _ => rfl) fun _ => .bind (.check fun _ _ => rfl) fun _ => .bind (.check fun _ _ => rfl) fun _ => ?_
  rw [D3.range_chk _ true]
  exact .bind (.refl _) fun _ => .bind (.check fun _ _ => rfl) fun _ =>
    .bind (.refl _) fun _ => .bind (.check fun _ _ => rfl) fun _ =>
    .bind (.refl _) fun _ => .bind (.check fun _ _ => rfl) fun _ => .refl _

theorem Obj.at_relax (k : Kind) (o : Obj) (n : Nat) (xs : List Int) (fs : List FL) :
    Relax (σ := Heap V) (Obj.at_ true k o n xs fs) (Obj.at_ false k o n xs fs) := by
  unfold Obj.at_
  split
  · exact D1.PD.at_relax _ _ _ _ _ _
  · exact D2.PD.at_relax _ _ _ _ _ _ _ _ _
  · exact D3.PD.at_relax _ _ _ _ _ _ _ _ _ _ _ _
  · exact .refl _

end Verif
