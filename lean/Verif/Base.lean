/-!
# Outcomes, machine integers, loops

The semantic base of the model: what a C++ expression can do (return, throw,
undefined behaviour), 32 bit integers, and the two `for` loop shapes that occur
everywhere in `/repo/scr`.
-/

namespace Verif

/-- Kinds of undefined behaviour distinguished by the model. -/
inductive UB
  /-- signed integer overflow -/
  | overflow
  /-- integer division by zero -/
  | divZero
  /-- access or pointer arithmetic outside an array -/
  | oob
  /-- dereference of (or arithmetic on) a null pointer -/
  | null
  /-- use of a pointer into a freed block -/
  | dangling
  /-- use of an uninitialised pointer or of a block of another type -/
  | uninit
  /-- `delete[]` of something that is not a live block start -/
  | badFree
  deriving DecidableEq, Repr

/-- The exceptions thrown by the code.  Each constructor is one `throw` site
shape; `Err.what` (in `Verif/Model/What.lean`) renders the message. -/
inductive Err
  /-- `std::bad_alloc` thrown by `new[]` -/
  | badAlloc
  /-- `DIM::check_d`: PointData_1D.hpp:26-32 (and 0D:21-27, 2D:26-32, 3D:26-32) -/
  | dim (d D : Nat)
  /-- `RangeT::overlap`: PointData_1D.hpp:77, 2D:86, 3D:89 -/
  | overlapNotFound
  /-- `RangeT::check_range`, center branch: PointData_1D.hpp:95 -/
  | rangeCenter (d : Nat) (ii b last : Int)
  /-- `RangeT::check_range`, half branch: PointData_1D.hpp:99-101 -/
  | rangeHalf (d : Nat) (ii offset b last e : Int)
  /-- `check_n`: PointData_1D.hpp:307-312 -/
  | nRange (n N : Nat)
  /-- `D0::PointData::check_n`: PointData_0D.hpp:64-69 -/
  | nRange0 (n N : Nat)
  /-- `check_flag`: PointData_1D.hpp:322 -/
  | flagCenter (d : Nat)
  /-- `check_flag`: PointData_1D.hpp:326 -/
  | flagHalf (d : Nat)
  /-- `check_data`: PointData_1D.hpp:336 -/
  | noData
  /-- constructors: PointData_1D.hpp:347 -/
  | nZero
  /-- `SizeT::check`: PointData_1D.hpp:224 -/
  | sizeIn (d : Nat)
  /-- `alloc`: PointData_1D.hpp:383 -/
  | notEmpty
  /-- `clear`: PointData_1D.hpp:427 -/
  | isEmpty
  /-- `alloc`, `read_plt`: PointData_1D.hpp:404, 541 -/
  | noMemory
  /-- `copy_from`: PointData_1D.hpp:485 -/
  | copyOverlap
  /-- any other `std::runtime_error`, with its message -/
  | runtime (msg : String)
  /-- a `std::runtime_error` whose message contains user texts (byte strings) -/
  | text (msg : List UInt8)
  /-- an exception raised by user code passed to the library -/
  | user (msg : String)
  deriving DecidableEq, Repr

/-- Outcome of an expression without side effects. -/
inductive Out (α : Type)
  | ok (a : α)
  | err (e : Err)
  | ub (u : UB)
  deriving DecidableEq, Repr

namespace Out
protected def bind {α β : Type} (m : Out α) (f : α → Out β) : Out β :=
  match m with
  | ok a => f a
  | err e => err e
  | ub u => ub u

instance : Monad Out where
  pure := ok
  bind := Out.bind

variable {α β : Type}
@[simp] theorem pure_eq (a : α) : (pure a : Out α) = ok a := rfl
@[simp] theorem ok_bind (a : α) (f : α → Out β) : (ok a >>= f) = f a := rfl
@[simp] theorem err_bind (e : Err) (f : α → Out β) : (err e >>= f) = err e := rfl
@[simp] theorem ub_bind (u : UB) (f : α → Out β) : (ub u >>= f) = ub u := rfl
end Out

/-- Outcome of a statement acting on a state of type `σ`.  An exception keeps
the state reached when it was thrown: C++ does not roll back. -/
inductive Res (σ α : Type)
  | ok (a : α) (s : σ)
  | err (e : Err) (s : σ)
  | ub (u : UB)

/-- Statements: state transformers with exceptions and undefined behaviour. -/
def M (σ α : Type) : Type := σ → Res σ α

namespace M
variable {σ α β : Type}

protected def bind (m : M σ α) (f : α → M σ β) : M σ β := fun s =>
  match m s with
  | .ok a s' => f a s'
  | .err e s' => .err e s'
  | .ub u => .ub u

instance : Monad (M σ) where
  pure a := fun s => .ok a s
  bind := M.bind

/-- lift a side-effect free outcome -/
def lift (o : Out α) : M σ α := fun s =>
  match o with
  | .ok a => .ok a s
  | .err e => .err e s
  | .ub u => .ub u

instance : MonadLift Out (M σ) := ⟨lift⟩

def throw (e : Err) : M σ α := fun s => .err e s
def undef (u : UB) : M σ α := fun _ => .ub u
def get : M σ σ := fun s => .ok s s
def set (s : σ) : M σ Unit := fun _ => .ok () s
def modify (f : σ → σ) : M σ Unit := fun s => .ok () (f s)

/-- `try { m } catch (const E &) { throw e'; }` where `E` is the class of
exceptions selected by `p`. -/
def catchAs (p : Err → Bool) (e' : Err → Err) (m : M σ α) : M σ α := fun s =>
  match m s with
  | .err e s' => if p e then .err (e' e) s' else .err e s'
  | r => r

instance : LawfulMonad (M σ) := LawfulMonad.mk'
  (id_map := by
    intro α x; funext s
    show M.bind x (fun a => pure (id a)) s = x s
    unfold M.bind; cases x s <;> rfl)
  (pure_bind := by intros; rfl)
  (bind_assoc := by
    intro α β γ x f g; funext s
    show M.bind (M.bind x f) g s = M.bind x (fun a => M.bind (f a) g) s
    unfold M.bind; cases x s <;> rfl)

@[simp] theorem pure_run (a : α) (s : σ) : (pure a : M σ α) s = .ok a s := rfl
@[simp] theorem throw_run (e : Err) (s : σ) : (throw e : M σ α) s = .err e s := rfl
@[simp] theorem undef_run (u : UB) (s : σ) : (undef u : M σ α) s = .ub u := rfl
@[simp] theorem get_run (s : σ) : (get : M σ σ) s = .ok s s := rfl
@[simp] theorem set_run (s t : σ) : (set t : M σ Unit) s = .ok () t := rfl
@[simp] theorem modify_run (f : σ → σ) (s : σ) : (modify f : M σ Unit) s = .ok () (f s) := rfl

theorem bind_run (m : M σ α) (f : α → M σ β) (s : σ) :
    (m >>= f) s = match m s with
      | .ok a s' => f a s'
      | .err e s' => .err e s'
      | .ub u => .ub u := rfl

theorem bind_ok {m : M σ α} {f : α → M σ β} {s s' : σ} {a : α} (h : m s = .ok a s') :
    (m >>= f) s = f a s' := by rw [bind_run, h]
theorem bind_err {m : M σ α} {f : α → M σ β} {s s' : σ} {e : Err} (h : m s = .err e s') :
    (m >>= f) s = .err e s' := by rw [bind_run, h]
theorem bind_ub {m : M σ α} {f : α → M σ β} {s : σ} {u : UB} (h : m s = .ub u) :
    (m >>= f) s = .ub u := by rw [bind_run, h]

@[simp] theorem lift_ok (a : α) : (lift (.ok a) : M σ α) = pure a := rfl
@[simp] theorem lift_err (e : Err) : (lift (.err e) : M σ α) = throw e := rfl
@[simp] theorem lift_ub (u : UB) : (lift (.ub u) : M σ α) = undef u := rfl
@[simp] theorem monadLift_eq (o : Out α) : (monadLift o : M σ α) = lift o := rfl
@[simp] theorem liftM_eq (o : Out α) : (liftM o : M σ α) = lift o := rfl
@[simp] theorem throw_bind (e : Err) (f : α → M σ β) : (throw e >>= f) = throw e := rfl
@[simp] theorem undef_bind (u : UB) (f : α → M σ β) : (undef u >>= f) = undef u := rfl
@[simp] theorem modify_bind_run (g : σ → σ) (f : Unit → M σ β) (s : σ) :
    (modify g >>= f) s = f () (g s) := rfl
@[simp] theorem get_bind_run (f : σ → M σ β) (s : σ) : (get >>= f) s = f s s := rfl

/-- Weakest precondition: `Q` for normal return, `E` for exceptions, `U` for
undefined behaviour. -/
def wp (m : M σ α) (Q : α → σ → Prop) (E : Err → σ → Prop) (U : UB → Prop) (s : σ) : Prop :=
  match m s with
  | .ok a s' => Q a s'
  | .err e s' => E e s'
  | .ub u => U u

end M

/-! ## 32 bit integers -/

/-- `INT_MAX` of a 32 bit `int` -/
def INT_MAX : Int := 2147483647
/-- `INT_MIN` of a 32 bit `int` -/
def INT_MIN : Int := -2147483648
/-- 2^32 -/
def U32 : Nat := 4294967296

/-- the mathematical integer is representable as `int` -/
def InI32 (x : Int) : Prop := -2147483648 ≤ x ∧ x ≤ 2147483647

instance (x : Int) : Decidable (InI32 x) := inferInstanceAs (Decidable (_ ∧ _))

/-- result of a signed operation whose mathematical value is `x` -/
def i32 (x : Int) : Out Int := if InI32 x then .ok x else .ub .overflow

@[simp] theorem i32_ok {x : Int} (h : InI32 x) : i32 x = .ok x := if_pos h

/-- `static_cast<int>(u)` for an `unsigned` value (two's complement) -/
def toI32 (u : Nat) : Int :=
  if u % 4294967296 < 2147483648 then ((u % 4294967296 : Nat) : Int)
  else ((u % 4294967296 : Nat) : Int) - 4294967296

/-- conversion of an `int` to `unsigned` -/
def toU32 (i : Int) : Nat := (i % 4294967296).toNat

/-- reduction of an unsigned result -/
def u32 (x : Nat) : Nat := x % 4294967296

theorem toI32_of_lt {u : Nat} (h : u < 2147483648) : toI32 u = u := by
  unfold toI32; rw [Nat.mod_eq_of_lt (by omega)]; simp [h]

theorem toI32_toU32 {i : Int} (h : InI32 i) : toI32 (toU32 i) = i := by
  unfold toI32 toU32; unfold InI32 at h
  have h1 : 0 ≤ i % 4294967296 := Int.emod_nonneg _ (by decide)
  have h2 : i % 4294967296 < 4294967296 := Int.emod_lt_of_pos _ (by decide)
  have h3 : (i % 4294967296).toNat % 4294967296 = (i % 4294967296).toNat :=
    Nat.mod_eq_of_lt (by omega)
  rw [h3]; split <;> omega

theorem u32_of_lt {x : Nat} (h : x < 4294967296) : u32 x = x := Nat.mod_eq_of_lt h

theorem toU32_of_nonneg {i : Int} (h0 : 0 ≤ i) (h1 : i < 4294967296) : toU32 i = i.toNat := by
  unfold toU32; rw [Int.emod_eq_of_lt h0 h1]

/-! ## Loops -/

section Loops
variable {σ : Type}

/-- `k` iterations of a body on consecutive `int` values starting at `i` -/
def loopI (body : Int → M σ Unit) : Nat → Int → M σ Unit
  | 0, _ => pure ()
  | k + 1, i => do body i; loopI body k (i + 1)

/-- `for (int i = b; i != e; ++i) body(i);`
If `e < b` the counter runs up to `INT_MAX` and then overflows. -/
def forI (b e : Int) (body : Int → M σ Unit) : M σ Unit :=
  if b ≤ e then loopI body (e - b).toNat b
  else do
    loopI body (INT_MAX - b + 1).toNat b
    M.undef .overflow

/-- `k` iterations of a body on consecutive `unsigned` values starting at `n` -/
def loopU (body : Nat → M σ Unit) : Nat → Nat → M σ Unit
  | 0, _ => pure ()
  | k + 1, n => do body n; loopU body k (u32 (n + 1))

/-- `for (unsigned n = b; n != e; ++n) body(n);` — if `e < b` the counter wraps
around, which is defined behaviour for `unsigned`. -/
def forU (b e : Nat) (body : Nat → M σ Unit) : M σ Unit :=
  loopU body (u32 (e + 4294967296 - b)) b

/-- reducing loops: `for (int i = b; i != e; ++i) t = body(i, t);` -/
def loopIAcc {T : Type} (body : Int → T → M σ T) : Nat → Int → T → M σ T
  | 0, _, t => pure t
  | k + 1, i, t => do let t' ← body i t; loopIAcc body k (i + 1) t'

def forIAcc {T : Type} (b e : Int) (t : T) (body : Int → T → M σ T) : M σ T :=
  if b ≤ e then loopIAcc body (e - b).toNat b t
  else do
    let _ ← loopIAcc body (INT_MAX - b + 1).toNat b t
    M.undef .overflow

def loopUAcc {T : Type} (body : Nat → T → M σ T) : Nat → Nat → T → M σ T
  | 0, _, t => pure t
  | k + 1, n, t => do let t' ← body n t; loopUAcc body k (u32 (n + 1)) t'

def forUAcc {T : Type} (b e : Nat) (t : T) (body : Nat → T → M σ T) : M σ T :=
  loopUAcc body (u32 (e + 4294967296 - b)) b t

end Loops

end Verif
