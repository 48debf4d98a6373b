import Verif.Spec.Program
/-!
# Programs on tables

An evaluator of programs that keeps the values of an array in a table.  What it computes is what happens on the abstract machine (`fexec_aexec`).
-/
namespace Verif.Fast
open Spec
variable {V S α β T : Type}

/-- look a key up -/
def find [DecidableEq α] (k : α) : List (α × T) → Option T
  | [] => none
  | (a, t) :: l => if a = k then some t else find k l

/-- replace or add in order -/
def store [DecidableEq α] [LT α] [DecidableLT α] (k : α) (t : T) : List (α × T) → List (α × T)
  | [] => [(k, t)]
  | (a, u) :: l => if a = k then (a, t) :: l else if k < a then (k, t) :: (a, u) :: l else (a, u) :: store k t l

theorem find_store [DecidableEq α] [LT α] [DecidableLT α] (k k' : α) (t : T) (l : List (α × T)) : find k' (store k t l) = if k' = k then some t else find k' l := by
  induction l with
  | nil =>
    by_cases h : k' = k
    · subst h; simp [store, find]
    · simp [store, find, h, Ne.symm h]
  | cons x l ih =>
    obtain ⟨a, u⟩ := x
    by_cases ha : a = k
    · subst ha
      by_cases h : k' = a
      · subst h; simp [store, find]
      · simp [store, find, h, Ne.symm h]
    · by_cases hl : k < a
      · by_cases h : k' = k
        · subst h; simp [store, find, ha, hl]
        · simp [store, find, ha, hl, h, Ne.symm h]
      · by_cases h : a = k'
        · subst h; simp [store, find, ha, hl]
        · simp [store, find, ha, hl, h, ih]

/-- `store`, with the list evaluated before it is used -/
def storeK [DecidableEq α] [LT α] [DecidableLT α] (k : α) (t : T) : List (α × T) → (List (α × T) → β) → β
  | [], c => c [(k, t)]
  | (a, u) :: l, c => if a = k then c ((a, t) :: l) else if k < a then c ((k, t) :: (a, u) :: l) else storeK k t l fun l => c ((a, u) :: l)

theorem storeK_eq [DecidableEq α] [LT α] [DecidableLT α] (k : α) (t : T) (l : List (α × T)) : ∀ c : List (α × T) → β, storeK k t l c = c (store k t l) := by
  induction l with
  | nil => exact fun _ => (Eq.refl _)
  | cons x l ih =>
    intro c
    simp only [storeK, store]
    split
    · rfl
    · split
      · rfl
      · exact ih _

/-- a table of `d` indices -/
def Tab (V : Type) : Nat → Type
  | 0 => Option V
  | d + 1 => List (Int × Tab V d)

def Tab.empty : (d : Nat) → Tab V d
  | 0 => (none : Option V)
  | d + 1 => ([] : List (Int × Tab V d))

/-- what to do with the first index -/
def head1 (o : Option V) (f : Int → List Int → Option V) : List Int → Option V
  | [] => o
  | k :: ks => f k ks

def Tab.get : (d : Nat) → Tab V d → List Int → Option V
  | 0 => fun (t : Option V) ks => head1 t (fun _ _ => none) ks
  | d + 1 => fun (t : List (Int × Tab V d)) ks => head1 none (fun k ks => (find k t).bind fun u => Tab.get d u ks) ks

def Tab.put (v : V) : (d : Nat) → Tab V d → List Int → Option (Tab V d)
  | 0 => fun _ ks => head1 (some (some v : Option V)) (fun _ _ => none) ks
  | d + 1 => fun (t : List (Int × Tab V d)) ks =>
    head1 none (fun k ks => (Tab.put v d ((find k t).getD (Tab.empty d)) ks).bind fun u => some (store k u t)) ks

/-- `put`, with the table evaluated before it is used -/
def Tab.putK (v : V) : (d : Nat) → Tab V d → List Int → (Option (Tab V d) → β) → β
  | 0 => fun _ ks c => match ks with
    | [] => c (some (some v : Option V))
    | _ :: _ => c none
  | d + 1 => fun (t : List (Int × Tab V d)) ks c => match ks with
    | [] => c none
    | k :: ks => match find k t with
      | none => Tab.putK v d (Tab.empty d) ks fun o => match o with
        | none => c none
        | some u => storeK k u t fun t => c (some t)
      | some u => Tab.putK v d u ks fun o => match o with
        | none => c none
        | some u => storeK k u t fun t => c (some t)

theorem Tab.putK_eq (v : V) : ∀ (d : Nat) (t : Tab V d) (ks : List Int) (c : Option (Tab V d) → β), Tab.putK v d t ks c = c (Tab.put v d t ks) := by
  intro d
  induction d with
  | zero =>
    intro t ks c
    cases ks with
    | nil => rfl
    | cons k ks => rfl
  | succ d ih =>
    intro (t : List (Int × Tab V d)) ks c
    cases ks with
    | nil => rfl
    | cons k ks =>
      show (match find k t with
        | none => Tab.putK v d (Tab.empty d) ks fun o => match o with
          | none => c none
          | some u => storeK k u t fun t => c (some t)
        | some u => Tab.putK v d u ks fun o => match o with
          | none => c none
          | some u => storeK k u t fun t => c (some t)) = c ((Tab.put v d ((find k t).getD (Tab.empty d)) ks).bind fun u => some (store k u t))
      cases find k t with
      | none =>
        simp only [Option.getD_none, ih]
        cases Tab.put v d (Tab.empty d) ks with
        | none => rfl
        | some u => exact storeK_eq _ _ _ _
      | some u =>
        simp only [Option.getD_some, ih]
        cases Tab.put v d u ks with
        | none => rfl
        | some u => exact storeK_eq _ _ _ _

theorem Tab.get_empty (d : Nat) (ks : List Int) : Tab.get d (Tab.empty d : Tab V d) ks = none := by
  match d, ks with
  | 0, [] => rfl
  | 0, _ :: _ => rfl
  | _ + 1, [] => rfl
  | _ + 1, _ :: _ => rfl

theorem Tab.get_put {v : V} : ∀ (d : Nat) (t t' : Tab V d) (ks : List Int), Tab.put v d t ks = some t' →
    ∀ ks', Tab.get d t' ks' = if ks' = ks then some v else Tab.get d t ks' := by
  intro d
  induction d with
  | zero =>
    intro t t' ks h ks'
    cases ks with
    | nil =>
      have e : (some v : Option V) = t' := Option.some.inj h
      subst e
      cases ks' with
      | nil => rfl
      | cons a l => rfl
    | cons k ks => exact absurd (show (none : Option (Tab V 0)) = some t' from h) (by simp)
  | succ d ih =>
    intro (t : List (Int × Tab V d)) (t' : List (Int × Tab V d)) ks h ks'
    cases ks with
    | nil => exact absurd (show (none : Option (Tab V (d + 1))) = some t' from h) (by simp)
    | cons k ks =>
      replace h : (Tab.put v d ((find k t).getD (Tab.empty d)) ks).bind (fun u => some (store k u t)) = some t' := h
      cases hu : Tab.put v d ((find k t).getD (Tab.empty d)) ks with
      | none => rw [hu] at h; exact absurd (show (none : Option (Tab V (d + 1))) = some t' from h) (by simp)
      | some u =>
        rw [hu] at h
        have e : store k u t = t' := Option.some.inj h
        subst e
        cases ks' with
        | nil => rfl
        | cons a l =>
          have ih := ih _ _ _ hu l
          show (find a (store k u t)).bind (fun u => Tab.get d u l) = if a :: l = k :: ks then some v else (find a t).bind (fun u => Tab.get d u l)
          rw [find_store]
          by_cases ha : a = k
          · subst ha
            rw [if_pos (Eq.refl _)]
            simp only [List.cons.injEq, true_and, Option.bind_some, ih]
            cases hf : find a t with
            | none => simp only [Option.getD_none, Tab.get_empty, Option.bind_none]
            | some w => simp only [Option.getD_some, Option.bind_some]
          · rw [if_neg ha, if_neg (fun e => ha (List.cons.inj e).1)]

/-- the values of an array: a table, or a copy into another array -/
inductive Vals (V : Type)
  | tab (d : Nat) (t : Tab V d)
  | moved (ds : List CopyDim) (src base : Vals V)

def Vals.get : Vals V → Nat → List Int → Option V
  | .tab d t, n, ys => Tab.get d t ((n : Int) :: ys)
  | .moved ds s b, n, ys => if Writes ds ys then s.get n (image ds ys) else b.get n ys

def Vals.put (n : Nat) (ys : List Int) (v : V) : Vals V → Option (Vals V)
  | .tab d t =>
    match Tab.put v d t ((n : Int) :: ys) with
    | none => none
    | some t => some (.tab d t)
  | .moved _ _ _ => none

def Vals.putK (n : Nat) (ys : List Int) (v : V) : Vals V → (Option (Vals V) → β) → β
  | .tab d t, c => Tab.putK v d t ((n : Int) :: ys) fun o => match o with
    | none => c none
    | some t => c (some (.tab d t))
  | .moved _ _ _, c => c none

theorem Vals.putK_eq (n : Nat) (ys : List Int) (v : V) (a : Vals V) (c : Option (Vals V) → β) : a.putK n ys v c = c (a.put n ys v) := by
  cases a with
  | moved _ _ _ => rfl
  | tab d t =>
    simp only [Vals.putK, Vals.put, Tab.putK_eq]
    cases Tab.put v d t ((n : Int) :: ys) with
    | none => rfl
    | some t => rfl

theorem Vals.get_put {n : Nat} {ys : List Int} {v : V} {a a' : Vals V} (h : a.put n ys v = some a') :
    a'.get = fun m zs => if m = n ∧ zs = ys then some v else a.get m zs := by
  cases a with
  | moved _ _ _ => cases h
  | tab d t =>
    simp only [Vals.put] at h
    split at h
    · cases h
    · rename_i t' ht
      cases h
      funext m zs
      simp only [Vals.get, Tab.get_put _ _ _ _ ht, List.cons.injEq, Int.ofNat_inj]

inductive FArr (V : Type)
  | empty
  | ready (es : List Ext) (val : Vals V)
  | broken (es : List Ext) (g : Nat)

def FArr.abs : FArr V → AArr V
  | .empty => .empty
  | .ready es val => .ready es val.get
  | .broken es g => .broken es g

structure FWorld (V : Type) where
  arr : List (Nat × Kind × FArr V)
  next : Nat
  leaked : Nat

def FWorld.init : FWorld V := ⟨[], 0, 0⟩

def FWorld.abs (w : FWorld V) : AWorld V := ⟨fun x => (find x w.arr).map fun a => (a.1, a.2.abs), w.next, w.leaked⟩

def FWorld.set (w : FWorld V) (x : Nat) (k : Kind) (a : FArr V) : FWorld V := { w with arr := store x (k, a) w.arr }

def FWorld.setK (w : FWorld V) (x : Nat) (k : Kind) (a : FArr V) (c : FWorld V → β) : β :=
  match w with
  | ⟨arr, next, leaked⟩ => storeK x (k, a) arr fun arr => c ⟨arr, next, leaked⟩

theorem FWorld.setK_eq (w : FWorld V) (x : Nat) (k : Kind) (a : FArr V) (c : FWorld V → β) : w.setK x k a c = c (w.set x k a) := storeK_eq _ _ _ _

theorem FWorld.abs_init : (FWorld.init : FWorld V).abs = AWorld.init := rfl

theorem FWorld.abs_set (w : FWorld V) (x : Nat) (k : Kind) (a : FArr V) : (w.set x k a).abs = w.abs.set x (some (k, a.abs)) := by
  simp only [FWorld.abs, FWorld.set, AWorld.set, find_store]
  congr 1
  funext y
  split <;> rfl

theorem FWorld.abs_arr (w : FWorld V) (x : Nat) : w.abs.arr x = (find x w.arr).map fun a => (a.1, a.2.abs) := rfl

/-- outcome of a call on the life of an array -/
structure FL' (V : Type) where
  err : Option Err
  arr : FArr V
  used : Nat

def FL'.abs (r : FL' V) : LRes V := ⟨r.err, r.arr.abs, r.used⟩

def fallocEmpty (mem : Nat → Nat → Bool) (next : Nat) (k : Kind) (es : List Ext) : FL' V :=
  match sizeErrs 0 es with
  | some e => ⟨some e, .empty, 0⟩
  | none =>
    let sh := mkShape es k.locs
    if points sh = 0 then ⟨none, .empty, 0⟩
    else
      let rs := requests k.N sh
      let g := granted mem next rs
      if g = rs.length then ⟨none, .ready es (.tab (k.locs.length + 1) (Tab.empty _)), g⟩
      else if g = 0 then ⟨some .noMemory, .empty, 1⟩
      else ⟨some .noMemory, .broken es g, g + 1⟩

theorem fallocEmpty_abs (mem : Nat → Nat → Bool) (next : Nat) (k : Kind) (es : List Ext) :
    (fallocEmpty mem next k es : FL' V).abs = allocEmpty mem next k es := by
  unfold fallocEmpty allocEmpty
  cases sizeErrs 0 es with
  | some e => rfl
  | none =>
    simp only
    split
    · rfl
    · split
      · simp only [FL'.abs, FArr.abs, LRes.mk.injEq, AArr.ready.injEq, true_and, and_true]
        funext n ys
        exact Tab.get_empty _ _
      · split <;> rfl

def fallocStep (mem : Nat → Nat → Bool) (next : Nat) (k : Kind) (es : List Ext) : FArr V → FL' V
  | .empty => fallocEmpty mem next k es
  | a => ⟨some .notEmpty, a, 0⟩

theorem fallocStep_abs (mem : Nat → Nat → Bool) (next : Nat) (k : Kind) (es : List Ext) (a : FArr V) :
    (fallocStep mem next k es a).abs = allocStep mem next k es a.abs := by
  cases a with
  | empty => exact fallocEmpty_abs _ _ _ _
  | ready _ _ => rfl
  | broken _ _ => rfl

def fclearStep : FArr V → FL' V
  | .empty => ⟨some .isEmpty, .empty, 0⟩
  | _ => ⟨none, .empty, 0⟩

theorem fclearStep_abs (a : FArr V) : (fclearStep a).abs = clearStep a.abs := by cases a <;> rfl

def freallocStep (mem : Nat → Nat → Bool) (next : Nat) (k : Kind) (es : List Ext) (a : FArr V) : FL' V :=
  match sizeErrs 0 es with
  | some e => ⟨some e, a, 0⟩
  | none =>
    match a with
    | .empty => ⟨some .isEmpty, .empty, 0⟩
    | _ => fallocEmpty mem next k es

theorem freallocStep_abs (mem : Nat → Nat → Bool) (next : Nat) (k : Kind) (es : List Ext) (a : FArr V) :
    (freallocStep mem next k es a).abs = reallocStep mem next k es a.abs := by
  unfold freallocStep reallocStep
  cases sizeErrs 0 es with
  | some e => rfl
  | none =>
    cases a with
    | empty => rfl
    | ready _ _ => exact fallocEmpty_abs _ _ _ _
    | broken _ _ => exact fallocEmpty_abs _ _ _ _

/-- one call; `none`: not done here -/
def fstep (mem : Nat → Nat → Bool) (chk : Bool) (w : FWorld V) : Op V → Option (Ev V × FWorld V)
  | .make x k _ =>
    if (find x w.arr).isNone ∧ KindOk k then
      if k.N = 0 then some (.exn .nZero, w)
      else some (.ret .unit, w.set x k .empty)
    else none
  | .makeSized x k _ es =>
    if (find x w.arr).isNone ∧ KindOk k ∧ SizesOk k es then
      if k.N = 0 then none
      else
        let r : FL' V := fallocEmpty mem w.next k es
        match r.err with
        | none => some (.ret .unit, { w.set x k r.arr with next := w.next + r.used })
        | some _ => none
    else none
  | .alloc x es =>
    match find x w.arr with
    | none => none
    | some (k, a) =>
      if SizesOk k es then
        let r := fallocStep mem w.next k es a
        some (evOf r.err, { w.set x k r.arr with next := w.next + r.used })
      else none
  | .realloc x es =>
    match find x w.arr with
    | none => none
    | some (k, a) =>
      if SizesOk k es then
        let r := freallocStep mem w.next k es a
        some (evOf r.err, { w.set x k r.arr with next := w.next + r.used })
      else none
  | .clear x =>
    match find x w.arr with
    | none => none
    | some (k, a) =>
      let r := fclearStep a
      some (evOf r.err, w.set x k r.arr)
  | .read x n xs fs =>
    match find x w.arr with
    | none => none
    | some (k, a) =>
      if xs.length = k.locs.length ∧ fs.length = k.locs.length then
        match a with
        | .broken _ _ => none
        | .empty => if chk then some (.exn .noData, w) else none
        | .ready es val =>
          match accessErr k.N (mkShape es k.locs) n xs fs with
          | none => some (.ret (.val (val.get n (point xs fs))), w)
          | some e => if chk then some (.exn e, w) else none
      else none
  | .write x n xs fs v =>
    match find x w.arr with
    | none => none
    | some (k, a) =>
      if xs.length = k.locs.length ∧ fs.length = k.locs.length then
        match a with
        | .broken _ _ => none
        | .empty => if chk then some (.exn .noData, w) else none
        | .ready es val =>
          match accessErr k.N (mkShape es k.locs) n xs fs with
          | none =>
            val.putK n (point xs fs) v fun o => match o with
            | none => none
            | some val => w.setK x k (.ready es val) fun w => some (.ret .unit, w)
          | some e => if chk then some (.exn e, w) else none
      else none
  | .copy x y args =>
    match find x w.arr, find y w.arr with
    | some (k, .ready es val), some (k', .ready es' val') =>
      if k' = k ∧ CopyOk k es es' args then
        let ds := (copyPlan es es' args).dims k
        if ∀ d ∈ ds, d.Over then
          if x = y ∧ ∀ d ∈ ds, d.Clash then if chk then some (.exn .copyOverlap, w) else none
          else some (.ret .unit, w.set x k (.ready es (.moved ds val' val)))
        else if chk then some (.exn .overlapNotFound, w) else none
      else none
    | _, _ => none
  | _ => none

theorem fstep_astep {mem : Nat → Nat → Bool} {chk : Bool} {w : FWorld V} {op : Op V} {ev : Ev V} {w' : FWorld V} (h : fstep mem chk w op = some (ev, w')) :
    astep mem chk w.abs op = some (ev, w'.abs) := by
  cases op with
  | make x k j =>
    simp only [fstep] at h
    simp only [astep, FWorld.abs_arr, Option.isNone_map]
    split at h
    · rename_i hc
      rw [if_pos hc]
      split at h <;> cases h
      · rename_i h0; rw [if_pos h0]
      · rename_i h0; rw [if_neg h0, FWorld.abs_set]; rfl
    · cases h
  | makeSized x k j es =>
    simp only [fstep] at h
    simp only [astep, FWorld.abs_arr, Option.isNone_map]
    split at h
    · rename_i hc
      rw [if_pos hc]
      split at h
      · cases h
      · rename_i h0
        rw [if_neg h0]
        have e := fallocEmpty_abs (V := V) mem w.next k es
        revert h e
        cases hr : (fallocEmpty mem w.next k es : FL' V) with
        | mk er ar us =>
          intro h e
          have e' : (allocEmpty mem w.abs.next k es : LRes V) = ⟨er, ar.abs, us⟩ := e.symm
          rw [e']
          cases er with
          | none => cases h; exact congrArg (fun z : AWorld V => some (Ev.ret Ret.unit, { z with next := w.next + us })) (FWorld.abs_set w x k ar).symm
          | some _ => cases h
    · cases h
  | alloc x es =>
    simp only [fstep] at h
    simp only [astep, FWorld.abs_arr]
    cases hx : find x w.arr with
    | none => rw [hx] at h; cases h
    | some ka =>
      obtain ⟨k, a⟩ := ka
      rw [hx] at h
      simp only [Option.map_some] at h ⊢
      split at h
      · rename_i hc
        rw [if_pos hc]
        have e := fallocStep_abs mem w.next k es a
        have e1 : (allocStep mem w.abs.next k es a.abs) = (fallocStep mem w.next k es a).abs := e.symm
        rw [e1]
        cases h
        exact congrArg (fun z : AWorld V => some (evOf (fallocStep mem w.next k es a).err, { z with next := w.next + (fallocStep mem w.next k es a).used })) (FWorld.abs_set w x k _).symm
      · cases h
  | realloc x es =>
    simp only [fstep] at h
    simp only [astep, FWorld.abs_arr]
    cases hx : find x w.arr with
    | none => rw [hx] at h; cases h
    | some ka =>
      obtain ⟨k, a⟩ := ka
      rw [hx] at h
      simp only [Option.map_some] at h ⊢
      split at h
      · rename_i hc
        rw [if_pos hc]
        have e := freallocStep_abs mem w.next k es a
        have e1 : (reallocStep mem w.abs.next k es a.abs) = (freallocStep mem w.next k es a).abs := e.symm
        rw [e1]
        cases h
        exact congrArg (fun z : AWorld V => some (evOf (freallocStep mem w.next k es a).err, { z with next := w.next + (freallocStep mem w.next k es a).used })) (FWorld.abs_set w x k _).symm
      · cases h
  | clear x =>
    simp only [fstep] at h
    simp only [astep, FWorld.abs_arr]
    cases hx : find x w.arr with
    | none => rw [hx] at h; cases h
    | some ka =>
      obtain ⟨k, a⟩ := ka
      rw [hx] at h
      simp only [Option.map_some] at h ⊢
      cases h
      rw [← fclearStep_abs, FWorld.abs_set]
      rfl
  | size x => cases h
  | destroy x => cases h
  | read x n xs fs =>
    simp only [fstep] at h
    simp only [astep, FWorld.abs_arr]
    cases hx : find x w.arr with
    | none => rw [hx] at h; cases h
    | some ka =>
      obtain ⟨k, a⟩ := ka
      rw [hx] at h
      simp only [Option.map_some] at h ⊢
      split at h
      · rename_i hc
        rw [if_pos hc]
        cases a with
        | broken _ _ => cases h
        | empty => cases chk <;> cases h; rfl
        | ready es val =>
          simp only [FArr.abs] at h ⊢
          cases he : accessErr k.N (mkShape es k.locs) n xs fs with
          | none => rw [he] at h; cases h; rfl
          | some e => rw [he] at h; cases chk <;> cases h; rfl
      · cases h
  | write x n xs fs v =>
    simp only [fstep] at h
    simp only [astep, FWorld.abs_arr]
    cases hx : find x w.arr with
    | none => rw [hx] at h; cases h
    | some ka =>
      obtain ⟨k, a⟩ := ka
      rw [hx] at h
      simp only [Option.map_some] at h ⊢
      split at h
      · rename_i hc
        rw [if_pos hc]
        cases a with
        | broken _ _ => cases h
        | empty => cases chk <;> cases h; rfl
        | ready es val =>
          simp only [FArr.abs] at h ⊢
          cases he : accessErr k.N (mkShape es k.locs) n xs fs with
          | none =>
            rw [he] at h
            simp only [Vals.putK_eq] at h ⊢
            split at h
            · cases h
            · rename_i val' hv
              rw [FWorld.setK_eq] at h
              cases h
              rw [FWorld.abs_set]
              simp only [FArr.abs, Vals.get_put hv]
          | some e => rw [he] at h; cases chk <;> cases h; rfl
      · cases h
  | copy x y args =>
    simp only [fstep] at h
    simp only [astep, FWorld.abs_arr]
    split at h
    · rename_i k es val k' es' val' hx hy
      rw [hx, hy]
      simp only [Option.map_some, FArr.abs]
      split at h
      · rename_i hc
        rw [if_pos hc]
        split at h
        · rename_i ho
          rw [if_pos ho]
          split at h
          · rename_i hl
            rw [if_pos hl]
            cases chk <;> cases h; rfl
          · rename_i hl
            rw [if_neg hl]
            cases h
            rw [FWorld.abs_set]
            rfl
        · rename_i ho
          rw [if_neg ho]
          cases chk <;> cases h; rfl
      · cases h
    · cases h

/-- outcome of a program -/
inductive FRes (V S α : Type)
  | done (a : α) (w : FWorld V) (s : S)
  | throws (e : Err) (w : FWorld V) (s : S)
  | uninit
  | fail

def FM (V S α : Type) := FWorld V → S → FRes V S α

def FM.ret (a : α) : FM V S α := fun w s => .done a w s

def FM.andThen (m : FM V S α) (f : α → FM V S β) : FM V S β := fun w s =>
  match m w s with
  | .done a w s => f a w s
  | .throws e w s => .throws e w s
  | .uninit => .uninit
  | .fail => .fail

/-- how to evaluate the variables between the rounds of a loop, so that what is evaluated later is not nested too deeply -/
class Force (S : Type) where
  norm : {R : Type} → S → (S → R) → R
  norm_eq : ∀ {R : Type} (s : S) (c : S → R), norm s c = c s

instance (priority := low) : Force S := ⟨fun s c => c s, fun _ _ => (Eq.refl _)⟩

def forced [Force S] (m : FM V S α) : FM V S α := fun w s => Force.norm s fun s => m w s

theorem forced_eq [Force S] (m : FM V S α) : forced m = m := by
  funext w s
  exact Force.norm_eq s _

def FM.through (f : T → α → FM V S T) : T → List α → FM V S T
  | t, [] => .ret t
  | t, a :: l => (f t a).andThen fun t => FM.through f t l

variable [Force S]

def _root_.Verif.Stmt.fexec (mem : Nat → Nat → Bool) (chk : Bool) : Stmt V S → FM V S Unit
  | .skip => .ret ()
  | .set f => fun w s => .done () w (f s)
  | .throw e => fun w s => .throws (e s) w s
  | .call op k => fun w s =>
    match fstep mem chk w (op s) with
    | none => .fail
    | some (.exn e, w') => .throws e w' s
    | some (.ret (.val none), _) => .uninit
    | some (.ret r, w') => .done () w' (k r s)
  | .ask x q k => fun w s =>
    match find x w.arr with
    | none => .fail
    | some (kd, a) =>
      match (extents kd a.abs)[(q s).dim]? with
      | none => .fail
      | some e =>
        match answer e (q s) with
        | none => .fail
        | some i => .done () w (k i s)
  | .range x ts k => fun w s =>
    match find x w.arr with
    | none => .fail
    | some (kd, a) =>
      if ts.length = kd.locs.length then .done () w (k (tagZones (extents kd a.abs) ts) s) else .fail
  | .disp x fmt k => fun w s =>
    match find x w.arr with
    | some (kd, .ready es val) => .done () w (k ((page kd.N (mkShape es kd.locs)).map (Item.text val.get fmt)) s)
    | some (kd, .empty) =>
      if Loc.center ∈ kd.locs then .done () w (k ((page kd.N (mkShape (extents kd (.empty : AArr V)) kd.locs)).map (Item.text (fun _ _ => none) fmt)) s)
      else .fail
    | _ => .fail
  | .seq p q => (p.fexec mem chk).andThen fun _ => q.fexec mem chk
  | .ite c p q => fun w s => if c s then p.fexec mem chk w s else q.fexec mem chk w s
  | .rep n p => fun w s => FM.through (fun _ _ => p.fexec mem chk) () (List.range (n s)) w s
  | .loop D ix p => fun w s =>
    if LoopOk (D s) then
      FM.through (fun _ a w s => forced (p.fexec mem chk) w (ix a.1 a.2 s)) () (loopPts (D s)) w s
    else .fail
  | .reduce D ans red ix p out => fun w s =>
    if LoopOk (D s) then
      (FM.through (fun t a w s => (p.fexec mem chk).andThen (fun _ w s => .done (red (out s) t) w s) w (ix a.1 a.2 s)) (ans.get s) (loopPts (D s))).andThen
        (fun t w s => .done () w (ans.set (red t (ans.get s)) s)) w s
    else .fail
  | .attempt p k q => fun w s =>
    match p.fexec mem chk w s with
    | .throws e w s => q.fexec mem chk w (k e s)
    | r => r

/-- the same outcome -/
def Sim : FRes V S α → ARes V S α → Prop
  | .done a w s, r => r = .done a w.abs s
  | .throws e w s, r => r = .throws e w.abs s
  | .uninit, r => r = .uninit
  | .fail, _ => True

def SimM (m : FM V S α) (n : AM V S α) : Prop := ∀ w s, Sim (m w s) (n w.abs s)

omit [Force S] in
theorem SimM.andThen {m : FM V S α} {n : AM V S α} (h : SimM m n) {f : α → FM V S β} {g : α → AM V S β} (h' : ∀ a, SimM (f a) (g a)) :
    SimM (m.andThen f) (n.andThen g) := fun w s => by
  have := h w s
  simp only [FM.andThen, AM.andThen]
  cases hm : m w s with
  | done a w' s' => rw [hm] at this; rw [show n w.abs s = _ from this]; exact h' a w' s'
  | throws e w' s' => rw [hm] at this; rw [show n w.abs s = _ from this]; rfl
  | uninit => rw [hm] at this; rw [show n w.abs s = _ from this]; rfl
  | fail => trivial

omit [Force S] in
theorem SimM.through {f : T → α → FM V S T} {g : T → α → AM V S T} (h : ∀ t a, SimM (f t a) (g t a)) (l : List α) :
    ∀ t, SimM (FM.through f t l) (AM.through g t l) := by
  induction l with
  | nil => exact fun t w s => (Eq.refl _)
  | cons a l ih => exact fun t => (h t a).andThen fun t => ih t

theorem fexec_aexec (mem : Nat → Nat → Bool) (chk : Bool) (p : Stmt V S) : SimM (p.fexec mem chk) (p.aexec mem chk) := by
  induction p with
  | skip => exact fun w s => (Eq.refl _)
  | set f => exact fun w s => (Eq.refl _)
  | throw e => exact fun w s => (Eq.refl _)
  | call op k =>
    intro w s
    simp only [Stmt.fexec, Stmt.aexec]
    cases h : fstep mem chk w (op s) with
    | none => trivial
    | some q =>
      obtain ⟨ev, w'⟩ := q
      rw [fstep_astep h]
      match ev with
      | .exn _ => rfl
      | .ret (.val none) => rfl
      | .ret (.val (some _)) => rfl
      | .ret .unit => rfl
      | .ret (.sizes _) => rfl
  | ask x q k =>
    intro w s
    simp only [Stmt.fexec, Stmt.aexec, FWorld.abs_arr]
    cases find x w.arr with
    | none => trivial
    | some ka =>
      simp only [Option.map_some]
      cases (extents ka.1 ka.2.abs)[(q s).dim]? with
      | none => trivial
      | some e =>
        simp only
        cases answer e (q s) with
        | none => trivial
        | some i => rfl
  | range x ts k =>
    intro w s
    simp only [Stmt.fexec, Stmt.aexec, FWorld.abs_arr]
    cases find x w.arr with
    | none => trivial
    | some ka =>
      simp only [Option.map_some]
      split
      · rfl
      · trivial
  | disp x fmt k =>
    intro w s
    simp only [Stmt.fexec, Stmt.aexec, FWorld.abs_arr]
    cases find x w.arr with
    | none => trivial
    | some ka =>
      obtain ⟨kd, a⟩ := ka
      simp only [Option.map_some]
      cases a with
      | ready es val => rfl
      | broken es g => trivial
      | empty =>
        simp only [FArr.abs]
        split
        · rfl
        · trivial
  | seq p q ihp ihq => exact ihp.andThen fun _ => ihq
  | ite c p q ihp ihq =>
    intro w s
    simp only [Stmt.fexec, Stmt.aexec]
    split
    · exact ihp w s
    · exact ihq w s
  | rep n p ih => exact fun w s => SimM.through (fun _ _ => ih) _ _ w s
  | loop D ix p ih =>
    intro w s
    simp only [Stmt.fexec, Stmt.aexec]
    split
    · rw [forced_eq]
      exact SimM.through (fun _ a w s => ih w (ix a.1 a.2 s)) _ _ w s
    · trivial
  | reduce D ans red ix p out ih =>
    intro w s
    simp only [Stmt.fexec, Stmt.aexec]
    split
    · refine SimM.andThen (f := fun t w s => .done () w (ans.set (red t (ans.get s)) s)) (g := fun t w s => .done () w (ans.set (red t (ans.get s)) s))
        (SimM.through (fun t a w s => ?_) _ _) (fun _ _ _ => (Eq.refl _)) w s
      exact SimM.andThen (f := fun _ w s => .done (red (out s) t) w s) (g := fun _ w s => .done (red (out s) t) w s) ih (fun _ _ _ => (Eq.refl _)) w (ix a.1 a.2 s)
    · trivial
  | attempt p k q ihp ihq =>
    intro w s
    have := ihp w s
    simp only [Stmt.fexec, Stmt.aexec]
    cases hm : p.fexec mem chk w s with
    | done a w' s' => rw [hm] at this; rw [show p.aexec mem chk w.abs s = _ from this]; rfl
    | throws e w' s' => rw [hm] at this; rw [show p.aexec mem chk w.abs s = _ from this]; exact ihq w' (k e s')
    | uninit => rw [hm] at this; rw [show p.aexec mem chk w.abs s = _ from this]; rfl
    | fail => trivial

/-- what is seen of a program -/
def FRes.seen : FRes V S α → Option (Res S α)
  | .done a _ s => some (.ok a s)
  | .throws e _ s => some (.err e s)
  | .uninit => some (.ub .uninit)
  | .fail => none

theorem fexec_seen {mem : Nat → Nat → Bool} {chk : Bool} {p : Stmt V S} {s : S} {r : Res S Unit} (h : (p.fexec mem chk FWorld.init s).seen = some r) :
    (p.aexec mem chk AWorld.init s).seen = some r := by
  have := fexec_aexec mem chk p FWorld.init s
  rw [FWorld.abs_init] at this
  cases hm : p.fexec mem chk FWorld.init s with
  | done a w' s' => rw [hm] at this h; rw [show p.aexec mem chk AWorld.init s = _ from this]; exact h
  | throws e w' s' => rw [hm] at this h; rw [show p.aexec mem chk AWorld.init s = _ from this]; exact h
  | uninit => rw [hm] at this h; rw [show p.aexec mem chk AWorld.init s = _ from this]; exact h
  | fail => rw [hm] at h; cases h

end Verif.Fast
