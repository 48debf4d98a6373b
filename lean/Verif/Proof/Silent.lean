import Verif.Spec.Silent
import Verif.Proof.Program
/-!
# Programs with and without checks: lemmas
-/
namespace Verif.Spec
variable {V S : Type} {mem : Nat → Nat → Bool}

/-! ## One call -/

theorem rangeErrs_fromCheck {sh : Shape} {d : Nat} {xs : List Int} {fs : List FL} {err : Err} (h : rangeErrs d sh xs fs = some err) :
    err.fromCheck = true := by
  induction sh generalizing d xs fs with
  | nil => simp [rangeErrs] at h
  | cons m sh ih =>
    cases xs with
    | nil => simp [rangeErrs] at h
    | cons x xs =>
      cases fs with
      | nil => simp [rangeErrs] at h
      | cons f fs =>
        rw [rangeErrs] at h
        split at h
        · exact ih h
        · cases h; unfold rangeErr; split <;> rfl

theorem flagErrs_fromCheck {sh : Shape} {d : Nat} {fs : List FL} {err : Err} (h : flagErrs d sh fs = some err) : err.fromCheck = true := by
  induction sh generalizing d fs with
  | nil => simp [flagErrs] at h
  | cons m sh ih =>
    cases fs with
    | nil => simp [flagErrs] at h
    | cons f fs =>
      rw [flagErrs] at h
      split at h
      · exact ih h
      · cases h; unfold flagErr; split <;> rfl

theorem accessErr_fromCheck {N : Nat} {sh : Shape} {n : Nat} {xs : List Int} {fs : List FL} {e : Err} (h : accessErr N sh n xs fs = some e) :
    e.fromCheck = true := by
  unfold accessErr at h
  split at h
  · cases h; rfl
  · split at h
    · next h1 => cases h; exact flagErrs_fromCheck h1
    · exact rangeErrs_fromCheck h

theorem astep_builds (w : AWorld V) (op : Op V) :
    astep mem false w op = astep mem true w op ∨ astep mem false w op = none ∧ ∃ e, e.fromCheck = true ∧ astep mem true w op = some (.exn e, w) := by
  cases op with
  | read x n xs fs =>
    simp only [astep, if_true, Bool.false_eq_true, if_false]
    repeat' split
    all_goals first
      | exact .inl rfl
      | exact .inr ⟨rfl, _, rfl, rfl⟩
      | exact .inr ⟨rfl, _, accessErr_fromCheck (by assumption), rfl⟩
  | write x n xs fs v =>
    simp only [astep, if_true, Bool.false_eq_true, if_false]
    repeat' split
    all_goals first
      | exact .inl rfl
      | exact .inr ⟨rfl, _, rfl, rfl⟩
      | exact .inr ⟨rfl, _, accessErr_fromCheck (by assumption), rfl⟩
  | copy x y args =>
    simp only [astep, if_true, Bool.false_eq_true, if_false]
    repeat' split
    all_goals first
      | exact .inl rfl
      | exact .inr ⟨rfl, _, rfl, rfl⟩
  | _ => exact .inl rfl

theorem astep_of_unchecked {w : AWorld V} {op : Op V} {r : Ev V × AWorld V} (h : astep mem false w op = some r) : astep mem true w op = some r := by
  obtain h1 | ⟨h1, -⟩ := astep_builds (mem := mem) w op
  · rw [← h1]; exact h
  · rw [h1] at h; cases h

/-! ## Without checks inside the contract: the same with checks -/

/-- the second result is the first one unless the first left the contract -/
def Kept {α : Type} (r r' : ARes V S α) : Prop := r.Inside → r' = r

theorem Kept.rfl {α : Type} {r : ARes V S α} : Kept r r := fun _ => Eq.refl r

theorem Kept.andThen {α β : Type} {m m' : AM V S α} {f f' : α → AM V S β} {w : AWorld V} {s : S} (h : Kept (m w s) (m' w s))
    (hf : ∀ a w s, Kept (f a w s) (f' a w s)) : Kept (m.andThen f w s) (m'.andThen f' w s) := by
  unfold AM.andThen
  intro hi
  cases hm : m w s with
  | outside w why => rw [hm] at hi; exact hi.elim
  | done a w1 s1 => rw [hm] at hi h; rw [h trivial]; exact hf a w1 s1 hi
  | throws e w1 s1 => rw [hm] at h; rw [h trivial]
  | uninit => rw [hm] at h; rw [h trivial]

theorem Kept.through {α T : Type} {f f' : T → α → AM V S T} (hf : ∀ t a w s, Kept (f t a w s) (f' t a w s)) (l : List α) (t : T) (w : AWorld V) (s : S) :
    Kept (AM.through f t l w s) (AM.through f' t l w s) := by
  induction l generalizing t w s with
  | nil => exact .rfl
  | cons a l ih => exact Kept.andThen (hf t a w s) ih

theorem Stmt.kept (p : Stmt V S) (w : AWorld V) (s : S) : Kept (p.aexec mem false w s) (p.aexec mem true w s) := by
  induction p generalizing w s with
  | skip => exact .rfl
  | set f => exact .rfl
  | throw e => exact .rfl
  | call op k =>
    intro hi
    simp only [Stmt.aexec] at hi ⊢
    cases h : astep mem false w (op s) with
    | none => rw [h] at hi; exact hi.elim
    | some r => rw [astep_of_unchecked h]
  | ask x q k =>
    intro hi
    simp only [Stmt.aexec] at hi ⊢
    cases hx : w.arr x with
    | none => rfl
    | some ka =>
      simp only [hx] at hi ⊢
      cases hd : (extents ka.1 ka.2)[(q s).dim]? with
      | none => simp only [hd] at hi; exact hi.elim
      | some e => rfl
  | range x ts k => exact .rfl
  | disp x fmt k => exact .rfl
  | seq p q ihp ihq => exact Kept.andThen (ihp w s) fun _ => ihq
  | ite c p q ihp ihq =>
    simp only [Stmt.aexec]
    split
    · exact ihp w s
    · exact ihq w s
  | rep n p ih => exact Kept.through (fun _ _ => ih) _ () w s
  | loop D ix p ih =>
    simp only [Stmt.aexec]
    split
    · exact Kept.through (fun _ _ w s => ih w _) _ () w s
    · exact .rfl
  | reduce D ans red ix p out ih =>
    simp only [Stmt.aexec]
    split
    · refine Kept.andThen (Kept.through (fun t a w s => ?_) _ _ w s) fun _ _ _ => .rfl
      exact Kept.andThen (ih w _) fun _ _ _ => .rfl
    · exact .rfl
  | attempt p k q ihp ihq =>
    intro hi
    have h := ihp w s
    simp only [Stmt.aexec] at hi ⊢
    cases hm : p.aexec mem false w s with
    | outside w why => rw [hm] at hi; exact hi.elim
    | done a w1 s1 => rw [hm] at h; rw [h trivial]
    | throws e w1 s1 => rw [hm] at h hi; rw [h trivial]; exact ihq w1 _ hi
    | uninit => rw [hm] at h; rw [h trivial]

/-! ## The flag changes nothing -/

theorem drop_andThen {α β : Type} {m : AM V (S × Bool) α} {m' : AM V S α} {f : α → AM V (S × Bool) β} {f' : α → AM V S β}
    (h : ∀ w s, (m w s).drop = m' w s.1) (hf : ∀ a w s, (f a w s).drop = f' a w s.1) (w : AWorld V) (s : S × Bool) :
    (m.andThen f w s).drop = m'.andThen f' w s.1 := by
  unfold AM.andThen
  rw [← h w s]
  cases m w s with
  | done a w1 s1 => exact hf a w1 s1
  | _ => rfl

theorem drop_through {α T : Type} {f : T → α → AM V (S × Bool) T} {f' : T → α → AM V S T} (hf : ∀ t a w s, (f t a w s).drop = f' t a w s.1) (l : List α)
    (t : T) (w : AWorld V) (s : S × Bool) : (AM.through f t l w s).drop = AM.through f' t l w s.1 := by
  induction l generalizing t w s with
  | nil => rfl
  | cons a l ih => exact drop_andThen (hf t a) ih w s

theorem Stmt.drop_watched {chk : Bool} (p : Stmt V S) (w : AWorld V) (s : S × Bool) : (p.watched.aexec mem chk w s).drop = p.aexec mem chk w s.1 := by
  induction p generalizing w s with
  | skip => rfl
  | set f => rfl
  | throw e => rfl
  | call op k =>
    simp only [Stmt.watched, Stmt.aexec]
    repeat' split
    all_goals simp_all [ARes.drop]
  | ask x q k =>
    simp only [Stmt.watched, Stmt.aexec]
    repeat' split
    all_goals simp_all [ARes.drop]
  | range x ts k =>
    simp only [Stmt.watched, Stmt.aexec]
    repeat' split
    all_goals simp_all [ARes.drop]
  | disp x fmt k =>
    simp only [Stmt.watched, Stmt.aexec]
    repeat' split
    all_goals simp_all [ARes.drop]
  | seq p q ihp ihq => exact drop_andThen ihp (fun _ => ihq) w s
  | ite c p q ihp ihq =>
    simp only [Stmt.watched, Stmt.aexec]
    split
    · exact ihp w s
    · exact ihq w s
  | rep n p ih => exact drop_through (fun _ _ => ih) _ () w s
  | loop D ix p ih =>
    simp only [Stmt.watched, Stmt.aexec]
    split
    · exact drop_through (f' := fun _ (a : Nat × List Int) w s => p.aexec mem chk w (ix a.1 a.2 s)) (fun _ _ w s => ih w _) _ () w s
    · rfl
  | reduce D ans red ix p out ih =>
    simp only [Stmt.watched, Stmt.aexec]
    split
    · refine drop_andThen (drop_through (fun t a w s => ?_) _ _) (fun _ _ _ => ?_) w s
      · exact drop_andThen (f' := fun _ w s => .done (red (out s) t) w s) ih (fun _ _ _ => rfl) w _
      · rfl
    · rfl
  | attempt p k q ihp ihq =>
    simp only [Stmt.watched, Stmt.aexec]
    rw [← ihp w s]
    cases p.watched.aexec mem chk w s with
    | throws e w1 s1 => exact ihq w1 _
    | _ => rfl

/-! ## With checks that never fail: the same without -/

/-- from flag `b` (first result) no check failed and then the second result is the same -/
def Quiet {α : Type} (b : Bool) (r : ARes V (S × Bool) α) (r' : ARes V S α) : Prop :=
  match r with
  | .done a w s => s.2 = false → b = false ∧ r' = .done a w s.1
  | .throws e w s => s.2 = false → b = false ∧ (e.fromCheck = false → r' = .throws e w s.1)
  | _ => True

theorem Quiet.weaken {α : Type} {b b' : Bool} {r : ARes V (S × Bool) α} {r' : ARes V S α} (h : Quiet b' r r') (hb : b' = false → b = false) : Quiet b r r' := by
  unfold Quiet at *
  split <;> simp_all

theorem Quiet.andThen {α β : Type} {m : AM V (S × Bool) α} {m' : AM V S α} {f : α → AM V (S × Bool) β} {f' : α → AM V S β} {w : AWorld V} {s : S × Bool}
    (h : Quiet s.2 (m w s) (m' w s.1)) (hf : ∀ a w s, Quiet s.2 (f a w s) (f' a w s.1)) : Quiet s.2 (m.andThen f w s) (m'.andThen f' w s.1) := by
  unfold AM.andThen
  cases hm : m w s with
  | done a w1 s1 =>
    rw [hm] at h
    by_cases hs : s1.2 = false
    · obtain ⟨h1, h2⟩ := h hs
      rw [h2]
      exact (hf a w1 s1).weaken fun _ => h1
    · have h3 := hf a w1 s1
      dsimp only
      generalize f a w1 s1 = r at h3 ⊢
      cases r with
      | done a2 w2 s2 => intro h4; exact (hs (h3 h4).1).elim
      | throws a2 w2 s2 => intro h4; exact (hs (h3 h4).1).elim
      | _ => trivial
  | throws e w1 s1 =>
    rw [hm] at h
    intro h1
    refine ⟨(h h1).1, fun h2 => ?_⟩
    rw [(h h1).2 h2]
  | _ => trivial

theorem Quiet.through {α T : Type} {f : T → α → AM V (S × Bool) T} {f' : T → α → AM V S T} (hf : ∀ t a w s, Quiet s.2 (f t a w s) (f' t a w s.1))
    (l : List α) (t : T) (w : AWorld V) (s : S × Bool) : Quiet s.2 (AM.through f t l w s) (AM.through f' t l w s.1) := by
  induction l generalizing t w s with
  | nil => exact fun h => ⟨h, rfl⟩
  | cons a l ih => exact Quiet.andThen (hf t a w s) ih

theorem Stmt.quiet (p : Stmt V S) (w : AWorld V) (s : S × Bool) : Quiet s.2 (p.watched.aexec mem true w s) (p.aexec mem false w s.1) := by
  induction p generalizing w s with
  | skip => exact fun h => ⟨h, rfl⟩
  | set f => exact fun h => ⟨h, rfl⟩
  | throw e => exact fun h => ⟨h, fun _ => rfl⟩
  | call op k =>
    obtain h1 | ⟨h1, e, h2, h3⟩ := astep_builds (mem := mem) w (op s.1)
    · simp only [Stmt.watched, Stmt.aexec, h1]
      repeat' split
      all_goals first | trivial | exact fun h => ⟨h, by simp_all⟩ | exact fun h => ⟨h, fun _ => by simp_all⟩
    · simp only [Stmt.watched, Stmt.aexec, h1, h3]
      exact fun h => ⟨h, fun h4 => by rw [h2] at h4; cases h4⟩
  | ask x q k =>
    simp only [Stmt.watched, Stmt.aexec]
    cases hx : w.arr x with
    | none => trivial
    | some ka =>
      dsimp only
      cases hd : (extents ka.1 ka.2)[(q s.1).dim]? with
      | none => exact fun h => ⟨h, fun h4 => by cases h4⟩
      | some e =>
        dsimp only
        cases answer e (q s.1) with
        | none => trivial
        | some i => exact fun h => ⟨h, rfl⟩
  | range x ts k =>
    simp only [Stmt.watched, Stmt.aexec]
    repeat' split
    all_goals first | trivial | exact fun h => ⟨h, by simp_all⟩
  | disp x fmt k =>
    simp only [Stmt.watched, Stmt.aexec]
    repeat' split
    all_goals first | trivial | exact fun h => ⟨h, by simp_all⟩
  | seq p q ihp ihq => exact Quiet.andThen (ihp w s) fun _ => ihq
  | ite c p q ihp ihq =>
    simp only [Stmt.watched, Stmt.aexec]
    split
    · exact ihp w s
    · exact ihq w s
  | rep n p ih => exact Quiet.through (fun _ _ => ih) _ () w s
  | loop D ix p ih =>
    simp only [Stmt.watched, Stmt.aexec]
    split
    · exact Quiet.through (f' := fun _ (a : Nat × List Int) w s => p.aexec mem false w (ix a.1 a.2 s)) (fun _ _ w s => ih w (_, _)) _ () w s
    · trivial
  | reduce D ans red ix p out ih =>
    simp only [Stmt.watched, Stmt.aexec]
    split
    · refine Quiet.andThen (Quiet.through (fun t a w s => ?_) _ _ w s) fun _ _ _ => ?_
      · exact Quiet.andThen (s := (_, s.2)) (f' := fun _ w s => .done (red (out s) t) w s) (ih w (_, _)) (fun _ _ _ h => ⟨h, rfl⟩)
      · exact fun h => ⟨h, rfl⟩
    · trivial
  | attempt p k q ihp ihq =>
    have h := ihp w s
    simp only [Stmt.watched, Stmt.aexec]
    cases hm : p.watched.aexec mem true w s with
    | done a w1 s1 =>
      rw [hm] at h
      exact fun hs => ⟨(h hs).1, by rw [(h hs).2]⟩
    | throws e w1 s1 =>
      rw [hm] at h
      have h3 := ihq w1 (k e s1.1, s1.2 || e.fromCheck)
      dsimp only
      by_cases hs : (s1.2 || e.fromCheck) = false
      · have hs' : s1.2 = false ∧ e.fromCheck = false := by simpa using hs
        obtain ⟨h1, h2⟩ := h hs'.1
        rw [h2 hs'.2]
        exact h3.weaken fun _ => h1
      · generalize q.watched.aexec mem true w1 (k e s1.1, s1.2 || e.fromCheck) = r at h3 ⊢
        cases r with
        | done a2 w2 s2 => intro h4; exact (hs (h3 h4).1).elim
        | throws a2 w2 s2 => intro h4; exact (hs (h3 h4).1).elim
        | _ => trivial
    | _ => trivial

/-! ## Without checks inside the contract: no check fails -/

/-- a result with the flag -/
def ARes.flagged {α : Type} (b : Bool) : ARes V S α → ARes V (S × Bool) α
  | .done a w s => .done a w (s, b)
  | .throws e w s => .throws e w (s, b)
  | .uninit => .uninit
  | .outside w why => .outside w why

/-- the first result is inside the contract only if the second one is the same and shows no exception of a check -/
def Calm {α : Type} (b : Bool) (r : ARes V S α) (r' : ARes V (S × Bool) α) : Prop :=
  r.Inside → r' = r.flagged b ∧ ∀ e w s, r = .throws e w s → e.fromCheck = false

theorem Calm.andThen {α β : Type} {m : AM V S α} {m' : AM V (S × Bool) α} {f : α → AM V S β} {f' : α → AM V (S × Bool) β} {w : AWorld V} {s : S} {b : Bool}
    (h : Calm b (m w s) (m' w (s, b))) (hf : ∀ a w s, Calm b (f a w s) (f' a w (s, b))) : Calm b (m.andThen f w s) (m'.andThen f' w (s, b)) := by
  unfold AM.andThen
  intro hi
  cases hm : m w s with
  | outside w why => rw [hm] at hi; exact hi.elim
  | done a w1 s1 => rw [hm] at hi h; rw [(h trivial).1]; exact hf a w1 s1 hi
  | throws e w1 s1 =>
    rw [hm] at h; rw [(h trivial).1]
    refine ⟨rfl, fun e' w' s' h1 => ?_⟩
    cases h1; exact (h trivial).2 _ _ _ rfl
  | uninit => rw [hm] at h; rw [(h trivial).1]; exact ⟨rfl, fun e' w' s' h1 => by cases h1⟩

theorem Calm.done {α : Type} {b : Bool} {a : α} {w : AWorld V} {s : S} : Calm b (.done a w s) (.done a w (s, b)) :=
  fun _ => ⟨rfl, fun _ _ _ h => by cases h⟩

theorem Calm.through {α T : Type} {f : T → α → AM V S T} {f' : T → α → AM V (S × Bool) T} {b : Bool}
    (hf : ∀ t a w s, Calm b (f t a w s) (f' t a w (s, b))) (l : List α) (t : T) (w : AWorld V) (s : S) :
    Calm b (AM.through f t l w s) (AM.through f' t l w (s, b)) := by
  induction l generalizing t w s with
  | nil => exact .done
  | cons a l ih => exact Calm.andThen (hf t a w s) ih

theorem fromCheck_evOf {o : Option Err} (h : ∀ e, o = some e → e.fromCheck = false) {e : Err} (he : (evOf o : Ev V) = .exn e) : e.fromCheck = false := by
  cases o with
  | none => cases he
  | some e' => cases he; exact h _ rfl

theorem sizeErrs_fromCheck {es : List Ext} {d : Nat} {e : Err} (h : sizeErrs d es = some e) : e.fromCheck = false := by
  induction es generalizing d with
  | nil => cases h
  | cons x es ih =>
    rw [sizeErrs] at h
    split at h
    · cases h; rfl
    · exact ih h

theorem allocEmpty_fromCheck {next : Nat} {k : Kind} {es : List Ext} {e : Err} (h : (allocEmpty mem next k es : LRes V).err = some e) :
    e.fromCheck = false := by
  unfold allocEmpty at h
  split at h
  · next h1 => cases h; exact sizeErrs_fromCheck h1
  · dsimp only at h
    split at h
    · cases h
    · split at h
      · cases h
      · split at h <;> cases h <;> rfl

theorem astep_unchecked_fromCheck {w w' : AWorld V} {op : Op V} {e : Err} (h : astep mem false w op = some (.exn e, w')) : e.fromCheck = false := by
  cases op with
  | make x k j =>
    simp only [astep] at h
    repeat' split at h
    all_goals first | cases h; rfl | cases h
  | makeSized x k j es =>
    simp only [astep] at h
    repeat' split at h
    all_goals first | (cases h; rfl) | (cases h; apply allocEmpty_fromCheck; assumption) | cases h
  | alloc x es =>
    simp only [astep] at h
    split at h
    · cases h
    · split at h
      · simp only [Option.some.injEq, Prod.mk.injEq] at h
        refine fromCheck_evOf (fun e he => ?_) h.1
        unfold allocStep at he
        split at he
        · exact allocEmpty_fromCheck he
        · cases he; rfl
      · cases h
  | realloc x es =>
    simp only [astep] at h
    split at h
    · cases h
    · split at h
      · simp only [Option.some.injEq, Prod.mk.injEq] at h
        refine fromCheck_evOf (fun e he => ?_) h.1
        unfold reallocStep at he
        split at he
        · next h1 => cases he; exact sizeErrs_fromCheck h1
        · split at he
          · cases he; rfl
          · exact allocEmpty_fromCheck he
      · cases h
  | clear x =>
    simp only [astep] at h
    split at h
    · cases h
    · simp only [Option.some.injEq, Prod.mk.injEq] at h
      refine fromCheck_evOf (fun e he => ?_) h.1
      unfold clearStep at he
      split at he <;> cases he
      rfl
  | size x => simp only [astep] at h; split at h <;> cases h
  | read x n xs fs => simp only [astep, Bool.false_eq_true, if_false] at h; repeat' split at h
                      all_goals cases h
  | write x n xs fs v => simp only [astep, Bool.false_eq_true, if_false] at h; repeat' split at h
                         all_goals cases h
  | copy x y args => simp only [astep, Bool.false_eq_true, if_false] at h; repeat' split at h
                     all_goals cases h
  | destroy x => simp only [astep] at h; split at h <;> cases h

theorem Stmt.calm (p : Stmt V S) (hp : p.Honest) (w : AWorld V) (s : S) (b : Bool) :
    Calm b (p.aexec mem false w s) (p.watched.aexec mem true w (s, b)) := by
  induction p generalizing w s b with
  | skip => exact .done
  | set f => exact .done
  | throw e => exact fun _ => ⟨rfl, fun e' _ _ h => by cases h; exact hp s⟩
  | call op k =>
    intro hi
    simp only [Stmt.aexec, Stmt.watched] at hi ⊢
    cases h : astep mem false w (op s) with
    | none => rw [h] at hi; exact hi.elim
    | some r =>
      rw [astep_of_unchecked h]
      obtain ⟨ev, w'⟩ := r
      cases ev with
      | exn e => exact ⟨rfl, fun e' _ _ h1 => by cases h1; exact astep_unchecked_fromCheck h⟩
      | ret r =>
        cases r with
        | val v =>
          cases v with
          | none => exact ⟨rfl, fun e' _ _ h1 => by cases h1⟩
          | some v => exact ⟨rfl, fun e' _ _ h1 => by cases h1⟩
        | _ => exact ⟨rfl, fun e' _ _ h1 => by cases h1⟩
  | ask x q k =>
    intro hi
    simp only [Stmt.aexec, Stmt.watched] at hi ⊢
    cases hx : w.arr x with
    | none => simp only [hx] at hi; exact hi.elim
    | some ka =>
      simp only [hx] at hi ⊢
      cases hd : (extents ka.1 ka.2)[(q s).dim]? with
      | none => simp only [hd] at hi; exact hi.elim
      | some e =>
        simp only [hd] at hi
        dsimp only
        cases ha : answer e (q s) with
        | none => simp only [ha] at hi; exact hi.elim
        | some i => exact ⟨rfl, fun e' _ _ h1 => by cases h1⟩
  | range x ts k =>
    intro hi
    simp only [Stmt.aexec, Stmt.watched] at hi ⊢
    cases hx : w.arr x with
    | none => simp only [hx] at hi; exact hi.elim
    | some ka =>
      simp only [hx] at hi ⊢
      split
      · exact ⟨rfl, fun e' _ _ h1 => by cases h1⟩
      · next h => rw [if_neg h] at hi; exact hi.elim
  | disp x fmt k =>
    intro hi
    simp only [Stmt.aexec, Stmt.watched] at hi ⊢
    repeat' split
    all_goals simp_all [ARes.Inside, ARes.flagged]
  | seq p q ihp ihq => exact Calm.andThen (ihp hp.1 w s b) fun _ w s => ihq hp.2 w s b
  | ite c p q ihp ihq =>
    simp only [Stmt.aexec, Stmt.watched]
    split
    · exact ihp hp.1 w s b
    · exact ihq hp.2 w s b
  | rep n p ih => exact Calm.through (fun _ _ w s => ih hp w s b) _ () w s
  | loop D ix p ih =>
    simp only [Stmt.aexec, Stmt.watched]
    split
    · exact Calm.through (f := fun _ (a : Nat × List Int) w s => p.aexec mem false w (ix a.1 a.2 s)) (fun _ _ w s => ih hp w _ b) _ () w s
    · exact fun h => h.elim
  | reduce D ans red ix p out ih =>
    simp only [Stmt.aexec, Stmt.watched]
    split
    · refine Calm.andThen (Calm.through (fun t a w s => ?_) _ _ w s) fun _ _ _ => .done
      exact Calm.andThen (f := fun _ w s => .done (red (out s) t) w s) (ih hp w _ b) fun _ _ _ => .done
    · exact fun h => h.elim
  | attempt p k q ihp ihq =>
    intro hi
    have h := ihp hp.1 w s b
    simp only [Stmt.aexec, Stmt.watched] at hi ⊢
    cases hm : p.aexec mem false w s with
    | outside w why => rw [hm] at hi; exact hi.elim
    | done a w1 s1 => rw [hm] at h; rw [(h trivial).1]; exact ⟨rfl, fun e' _ _ h1 => by cases h1⟩
    | throws e w1 s1 =>
      rw [hm] at h hi
      obtain ⟨h1, h2⟩ := h trivial
      rw [h1]
      have h3 := ihq hp.2 w1 (k e s1) b hi
      simp only [ARes.flagged, h2 _ _ _ rfl, Bool.or_false]
      exact h3
    | uninit => rw [hm] at h; rw [(h trivial).1]; exact ⟨rfl, fun e' _ _ h1 => by cases h1⟩

end Verif.Spec
