import Verif.Model.Xml.Pool
/-!
# What an array that grows and a pool of items are

An array is a list; an entry without a value was never assigned.  A pool is a set of items in use, each with what its owner wrote there.
-/
namespace Verif.Spec

/-! ## Lists -/
namespace Grow
open Verif.Xml.Dyn

variable {V : Type}

inductive Op (V : Type) where
  | push (v : V)
  | pushArr (n : Nat)
  | pop
  | popArr (n : Nat)
  | get (i : Nat)
  | set (i : Nat) (v : V)
  | top
  | swapRemove (i : Nat)
  | clear
  | size
  | empty

inductive Ans (V : Type) where
  | unit
  | val (v : V)
  | int (n : Int)
  | bool (b : Bool)
  deriving DecidableEq

/-- what may be asked of a list -/
def may (l : List (Option V)) : Op V → Prop
  | .push _ | .pushArr _ | .clear | .size | .empty => True
  | .pop | .top => ∃ v, l.getLast? = some (some v)
  | .popArr n => n ≤ l.length
  | .get i => ∃ v, l[i]? = some (some v)
  | .set i _ => i < l.length
  | .swapRemove i => i < l.length ∧ ∃ v, l.getLast? = some (some v)

/-- the cells needed -/
def need (l : List (Option V)) : Op V → Nat
  | .push _ => l.length + 1
  | .pushArr n => l.length + n
  | _ => 0

/-- what becomes of a list, and what is answered -/
inductive Step (l : List (Option V)) : Op V → Ans V → List (Option V) → Prop
  | push (v : V) : Step l (.push v) .unit (l ++ [some v])
  | pushArr (w : List (Option V)) : Step l (.pushArr w.length) (.int l.length) (l ++ w)
  | pop {v : V} (h : l.getLast? = some (some v)) : Step l .pop (.val v) l.dropLast
  | popArr (n : Nat) (h : n ≤ l.length) : Step l (.popArr n) .unit (l.take (l.length - n))
  | get {i : Nat} {v : V} (h : l[i]? = some (some v)) : Step l (.get i) (.val v) l
  | set (i : Nat) (v : V) : Step l (.set i v) .unit (l.set i (some v))
  | top {v : V} (h : l.getLast? = some (some v)) : Step l .top (.val v) l
  | swapRemove (i : Nat) {v : V} (h : l.getLast? = some (some v)) : Step l (.swapRemove i) .unit (l.set i (some v)).dropLast
  | clear : Step l .clear .unit []
  | size : Step l .size (.int l.length) l
  | empty : Step l .empty (.bool l.isEmpty) l

inductive Steps : List (Option V) → List (Op V) → List (Ans V) → List (Option V) → Prop
  | nil (l : List (Option V)) : Steps l [] [] l
  | cons {l l' l'' : List (Option V)} {o : Op V} {a : Ans V} {os : List (Op V)} {as : List (Ans V)} :
      Step l o a l' → Steps l' os as l'' → Steps l (o :: os) (a :: as) l''

/-- each operation may be asked for when its turn comes, and needs at most `limit` cells -/
def safe (limit : Nat) : List (Op V) → List (Option V) → Prop
  | [], _ => True
  | o :: os, l => may l o ∧ need l o ≤ limit ∧ ∀ a l', Step l o a l' → safe limit os l'

/-- the calls of `DynArray` -/
def exec (room : Nat → Bool) : Op V → M (DA V) (Ans V)
  | .push v => do Push room v; pure .unit
  | .pushArr n => do let r ← PushArr room n; pure (.int r)
  | .pop => do let v ← Pop; pure (.val v)
  | .popArr n => do PopArr n; pure .unit
  | .get i => do let v ← load i; pure (.val v)
  | .set i v => do store i v; pure .unit
  | .top => do let v ← PeekTop; pure (.val v)
  | .swapRemove i => do SwapRemove i; pure .unit
  | .clear => do Clear; pure .unit
  | .size => do let n ← Size; pure (.int n)
  | .empty => do let b ← Empty; pure (.bool b)

def execAll (room : Nat → Bool) : List (Op V) → M (DA V) (List (Ans V))
  | [] => pure []
  | o :: os => do
    let a ← exec room o
    let as ← execAll room os
    pure (a :: as)

/-- the array stands for the list: the cells up to `_size`, in an array of `_allocated` cells, and no other array is alive -/
structure Is (N : Nat) (s : DA V) (l : List (Option V)) : Prop where
  pool : s.pool.length = N
  size : s.size = l.length
  room : ∃ r, s.cells = some (l ++ r) ∧ s.allocated = (l ++ r).length
  int : s.allocated ≤ INT_MAX
  few : N ≤ s.allocated
  here : ∀ b, s.heap b ≠ none → s.mem = some b
  old : ∀ b, s.mem = some b → b < s.asked

end Grow

/-! ## Items in use -/
namespace Items
open Verif.Xml.Pool

/-- the items in use, what their owners wrote there, how many were handed out and how many were in use at most, and how often `SetTracked` was called -/
structure St where
  used : List Item
  mem : Item → Option Nat
  n : Nat
  most : Nat
  tracked : Nat

def start : St := ⟨[], fun _ => none, 0, 0, 0⟩

inductive Op where
  | alloc
  | free (it : Item)
  | freeNull
  | write (it : Item) (v : Nat)
  | read (it : Item)
  | setTracked
  | current
  | untracked
  | clear

inductive Ans where
  | unit
  | item (it : Item)
  | val (v : Nat)
  | int (n : Int)
  deriving DecidableEq

/-- what may be asked: only items in use are freed, written and read; the counters stay within `int` -/
def may (s : St) : Op → Prop
  | .alloc => (s.n : Int) < INT_MAX ∧ ((s.used.length + 1 : Nat) : Int) * 2 ≤ INT_MAX
  | .free it | .write it _ => it ∈ s.used
  | .read it => it ∈ s.used ∧ ∃ v, s.mem it = some v
  | .setTracked => (s.tracked : Int) ≤ INT_MAX
  | .freeNull | .current | .untracked | .clear => True

inductive Step (s : St) : Op → Ans → St → Prop
  | alloc (it : Item) (fresh : it ∉ s.used) :
      Step s .alloc (.item it) { s with used := it :: s.used, mem := (fun q => if q = it then none else s.mem q), n := s.n + 1, most := max s.most (s.used.length + 1) }
  | free (it : Item) : Step s (.free it) .unit { s with used := s.used.erase it }
  | freeNull : Step s .freeNull .unit s
  | write (it : Item) (v : Nat) : Step s (.write it v) .unit { s with mem := fun q => if q = it then some v else s.mem q }
  | read {it : Item} {v : Nat} (h : s.mem it = some v) : Step s (.read it) (.val v) s
  | setTracked : Step s .setTracked .unit { s with tracked := s.tracked + 1 }
  | current : Step s .current (.int s.used.length) s
  | untracked : Step s .untracked (.int (s.n - s.tracked)) s
  | clear : Step s .clear .unit start

inductive Steps : St → List Op → List Ans → St → Prop
  | nil (s : St) : Steps s [] [] s
  | cons {s s' s'' : St} {o : Op} {a : Ans} {os : List Op} {as : List Ans} : Step s o a s' → Steps s' os as s'' → Steps s (o :: os) (a :: as) s''

def safe : List Op → St → Prop
  | [], _ => True
  | o :: os, s => may s o ∧ ∀ a s', Step s o a s' → safe os s'

/-- the calls of `MemPoolT`; all requests for memory succeed; `k` bounds the passes of the loop of `Clear` -/
def exec (per k : Nat) : Op → M MP Ans
  | .alloc => do let it ← Alloc per (fun _ => true) (fun _ => true); pure (.item it)
  | .free it => do Free per (some it); pure .unit
  | .freeNull => do Free per none; pure .unit
  | .write it v => do write per it v; pure .unit
  | .read it => do let v ← read per it; pure (.val v)
  | .setTracked => do SetTracked; pure .unit
  | .current => do let n ← CurrentAllocs; pure (.int n)
  | .untracked => do let n ← Untracked; pure (.int n)
  | .clear => do Clear k; pure .unit

def execAll (per k : Nat) : List Op → M MP (List Ans)
  | [] => pure []
  | o :: os => do
    let a ← exec per k o
    let as ← execAll per k os
    pure (a :: as)

/-- the items reached from `p` by `next` -/
inductive Linked (item : Item → Cell) : Option Item → List Item → Prop
  | nil : Linked item none []
  | cons {it : Item} {p : Option Item} {l : List Item} : item it = .link p → Linked item p l → Linked item (some it) (it :: l)

/-- the pool stands for the items in use: `bl` are its blocks, `fl` its free items -/
structure Holds (per : Nat) (p : MP) (s : St) (bl : List Nat) (fl : List Item) : Prop where
  ptrs : Grow.Is 10 p.ptrs (bl.map some)
  once : bl.Nodup
  live : ∀ b, p.live b = true ↔ b ∈ bl
  old : ∀ b ∈ bl, b < p.asked
  free : Linked p.item p.root fl
  apart : (fl ++ s.used).Nodup
  all : ∀ it, it ∈ fl ++ s.used ↔ it.1 ∈ bl ∧ it.2 < per
  kept : ∀ it ∈ s.used, ∀ v, s.mem it = some v → p.item it = .data v
  cur : p.cur = s.used.length
  n : p.n = s.n
  max : p.max = s.most
  untracked : p.untracked = s.n - s.tracked
  count : s.used.length ≤ s.n
  int : (s.n : Int) ≤ INT_MAX ∧ (s.tracked : Int) ≤ INT_MAX + 1

def Is (per : Nat) (p : MP) (s : St) : Prop := ∃ bl fl, Holds per p s bl fl

end Items
end Verif.Spec
