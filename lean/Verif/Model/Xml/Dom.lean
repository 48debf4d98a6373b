import Verif.Base
/-!
# The nodes of a document — tinyxml2.cpp:742-985, 1088-1131, 1993-2038, 2134-2149, tinyxml2.h:1885-1897

Nodes are numbered; a pointer is null (`none`) or the number of a node.  The links of all nodes are kept as functions of the number.  Reading
or writing through a null pointer or a pointer to a deleted node is undefined behaviour.

Simplifications.  Only the links are modelled, not names, values, attributes and line numbers.  A new node has any number that is not in use; the pools and
`DynArray` are described on their own (`Pool.lean`).  `TIXMLASSERT` does nothing (tinyxml2.h:94, every build that defines none of `DEBUG`, `_DEBUG`, `__DEBUG__`).  `SetTracked`
only counts; of it only the access to `_memPool`, which is null in a document, is kept.
-/
namespace Verif.Xml.Dom

/-- a pointer to a node -/
abbrev P := Option Nat

/-- the links — tinyxml2.h:936-950 (`XMLNode`), 1868 (`_unlinked`) -/
structure Dom where
  live : Nat → Bool
  /-- `_document`; a document is its own -/
  doc : Nat → Nat
  parent : Nat → P
  first : Nat → P
  last : Nat → P
  prev : Nat → P
  next : Nat → P
  /-- `_unlinked` of a document -/
  unlinked : Nat → List Nat

/-- `f` with the value `v` at `c` -/
def put {α : Type} (f : Nat → α) (c : Nat) (v : α) : Nat → α := fun q => if q = c then v else f q

/-- `p->field` -/
def rd {α : Type} (field : Dom → Nat → α) (p : P) : M Dom α := fun s =>
  match p with
  | none => .ub .null
  | some c => if s.live c then .ok (field s c) s else .ub .dangling

/-- an assignment to a field of `*p`; `f` performs it -/
def wr (p : P) (f : Nat → Dom → Dom) : M Dom Unit := fun s =>
  match p with
  | none => .ub .null
  | some c => if s.live c then .ok () (f c s) else .ub .dangling

/-- `p->_first = v` and so on -/
def setFirst (p v : P) : M Dom Unit := wr p fun c s => { s with first := put s.first c v }
def setLast (p v : P) : M Dom Unit := wr p fun c s => { s with last := put s.last c v }
def setPrev (p v : P) : M Dom Unit := wr p fun c s => { s with prev := put s.prev c v }
def setNext (p v : P) : M Dom Unit := wr p fun c s => { s with next := put s.next c v }
def setParent (p v : P) : M Dom Unit := wr p fun c s => { s with parent := put s.parent c v }

/-- `if (c) { m }` -/
def when_ (c : Bool) (m : M Dom Unit) : M Dom Unit := if c then m else pure ()

/-- `Unlink` — tinyxml2.cpp:804-825 -/
def Unlink (this child : P) : M Dom Unit := do
  let f ← rd Dom.first this
  when_ (child == f) do
    let n ← rd Dom.next f
    setFirst this n
  let l ← rd Dom.last this
  when_ (child == l) do
    let p ← rd Dom.prev l
    setLast this p
  let cp ← rd Dom.prev child
  when_ cp.isSome do
    let cn ← rd Dom.next child
    setNext cp cn
  let cn ← rd Dom.next child
  when_ cn.isSome do
    let cp ← rd Dom.prev child
    setPrev cn cp
  setNext child none
  setPrev child none
  setParent child none

/-- `DynArray::SwapRemove` of the first occurrence of `c`: the last entry takes its place — tinyxml2.h:269-274 -/
def swapRemove (c : Nat) (l : List Nat) : List Nat :=
  let i := l.idxOf c
  if i < l.length then ((l.set i (l.getLast?.getD 0)).take (l.length - 1)) else l

/-- `XMLDocument::MarkInUse` — tinyxml2.cpp:2020-2031 -/
def MarkInUse (d c : Nat) : M Dom Unit :=
  wr (some d) fun d s => { s with unlinked := put s.unlinked d (swapRemove c (s.unlinked d)) }

/-- `InsertChildPreamble` — tinyxml2.cpp:1103-1115; the pool of a node that is not a document is not null -/
def InsertChildPreamble (a : Nat) : M Dom Unit := do
  let p ← rd Dom.parent (some a)
  if p.isSome then Unlink p (some a)
  else do
    let d ← rd Dom.doc (some a)
    MarkInUse d a
    if d = a then M.undef .null else pure ()

/-- the part of `InsertEndChild` behind the test of the documents — tinyxml2.cpp:848-866 -/
def insertEnd (this a : Nat) : M Dom P := do
  InsertChildPreamble a
  let l ← rd Dom.last (some this)
  if l.isSome then do
    setNext l (some a)
    let l ← rd Dom.last (some this)
    setPrev (some a) l
    setLast (some this) (some a)
    setNext (some a) none
  else do
    setLast (some this) (some a)
    setFirst (some this) (some a)
    setPrev (some a) none
    setNext (some a) none
  setParent (some a) (some this)
  pure (some a)

/-- `InsertEndChild` — tinyxml2.cpp:841-867 -/
def InsertEndChild (this a : Nat) : M Dom P := do
  let da ← rd Dom.doc (some a)
  let dt ← rd Dom.doc (some this)
  if da ≠ dt then pure none else insertEnd this a

/-- `InsertFirstChild` — tinyxml2.cpp:871-898 -/
def InsertFirstChild (this a : Nat) : M Dom P := do
  let da ← rd Dom.doc (some a)
  let dt ← rd Dom.doc (some this)
  if da ≠ dt then pure none
  else do
    InsertChildPreamble a
    let f ← rd Dom.first (some this)
    if f.isSome then do
      setPrev f (some a)
      let f ← rd Dom.first (some this)
      setNext (some a) f
      setFirst (some this) (some a)
      setPrev (some a) none
    else do
      setLast (some this) (some a)
      setFirst (some this) (some a)
      setPrev (some a) none
      setNext (some a) none
    setParent (some a) (some this)
    pure (some a)

/-- `InsertAfterChild` — tinyxml2.cpp:902-934 -/
def InsertAfterChild (this after a : Nat) : M Dom P := do
  let da ← rd Dom.doc (some a)
  let dt ← rd Dom.doc (some this)
  if da ≠ dt then pure none
  else do
    let p ← rd Dom.parent (some after)
    if p ≠ some this then pure none
    else if after = a then pure (some a)
    else do
      let n ← rd Dom.next (some after)
      if n = none then InsertEndChild this a
      else do
        InsertChildPreamble a
        setPrev (some a) (some after)
        let n ← rd Dom.next (some after)
        setNext (some a) n
        let n ← rd Dom.next (some after)
        setPrev n (some a)
        setNext (some after) (some a)
        setParent (some a) (some this)
        pure (some a)

/-- `pool->Free(node)`: the node is gone -/
def free (c : Nat) : M Dom Unit := fun s =>
  if s.live c then .ok () { s with live := put s.live c false } else .ub .badFree

mutual
/-- `XMLNode::DeleteNode` with the destructor of the node — tinyxml2.cpp:1088-1101, 755-761.  The first argument bounds the depth of the calls; if it does
not suffice the outcome is undefined (an endless recursion).  The pool of a document is null. -/
def DeleteNode : Nat → P → M Dom Unit
  | 0, _ => M.undef .overflow
  | _ + 1, none => pure ()
  | k + 1, some c => do
    let d ← rd Dom.doc (some c)
    when_ (d != c) (MarkInUse d c)
    DeleteChildren k c
    let p ← rd Dom.parent (some c)
    when_ p.isSome (Unlink p (some c))
    when_ (d == c) (M.undef .null)
    free c

/-- `DeleteChildren`, the loop unrolled — tinyxml2.cpp:794-801 -/
def DeleteChildren : Nat → Nat → M Dom Unit
  | 0, _ => M.undef .overflow
  | k + 1, c => do
    let f ← rd Dom.first (some c)
    if f.isSome then do
      DeleteChild k c f
      DeleteChildren k c
    else do
      setLast (some c) none
      setFirst (some c) none

/-- `DeleteChild` — tinyxml2.cpp:828-838 -/
def DeleteChild : Nat → Nat → P → M Dom Unit
  | 0, _, _ => M.undef .overflow
  | k + 1, this, c => do
    Unlink (some this) c
    DeleteNode k c
end

/-- `NewElement` and the others: `CreateUnlinkedNode` — tinyxml2.h:1885-1897; `c` is the place of the new node, at which none is -/
def newNode (d c : Nat) : M Dom Unit := do
  M.modify fun s => { s with live := put s.live c true, doc := put s.doc c d, parent := put s.parent c none, first := put s.first c none
                             last := put s.last c none, prev := put s.prev c none, next := put s.next c none }
  wr (some d) fun d s => { s with unlinked := put s.unlinked d (s.unlinked d ++ [c]) }

/-- `XMLDocument::XMLDocument` — tinyxml2.cpp:1993-2011, 742-752; `c` is the place of the new document -/
def newDocument (c : Nat) : M Dom Unit :=
  M.modify fun s => { s with live := put s.live c true, doc := put s.doc c c, parent := put s.parent c none, first := put s.first c none
                             last := put s.last c none, prev := put s.prev c none, next := put s.next c none, unlinked := put s.unlinked c [] }

/-- The loop `for ( node = FirstChild(); node; node = node->NextSibling() )`, which collects the nodes it passes — tinyxml2.cpp:785; the loops
over `_prev` likewise.  The number bounds the passes. -/
def walk (field : Dom → Nat → P) : Nat → P → M Dom (List Nat)
  | 0, _ => M.undef .overflow
  | _ + 1, none => pure []
  | n + 1, some c => do
    let q ← rd field (some c)
    let r ← walk field n q
    pure (c :: r)

/-- The loops of `FirstChildElement`, `LastChildElement`, `NextSiblingElement`, `PreviousSiblingElement` — tinyxml2.cpp:940-985; `isIt` is `ToElementWithName` (cpp:1117-1131). -/
def find (isIt : Nat → Bool) (field : Dom → Nat → P) : Nat → P → M Dom P
  | 0, _ => M.undef .overflow
  | _ + 1, none => pure none
  | n + 1, some c => do
    if isIt c then pure (some c)
    else do
      let q ← rd field (some c)
      find isIt field n q

/-- `FirstChildElement` — tinyxml2.cpp:940-949 -/
def FirstChildElement (n : Nat) (isIt : Nat → Bool) (this : Nat) : M Dom P := do
  let c ← rd Dom.first (some this)
  find isIt Dom.next n c

/-- `LastChildElement` — tinyxml2.cpp:952-961 -/
def LastChildElement (n : Nat) (isIt : Nat → Bool) (this : Nat) : M Dom P := do
  let c ← rd Dom.last (some this)
  find isIt Dom.prev n c

/-- `NextSiblingElement` — tinyxml2.cpp:964-973 -/
def NextSiblingElement (n : Nat) (isIt : Nat → Bool) (this : Nat) : M Dom P := do
  let c ← rd Dom.next (some this)
  find isIt Dom.next n c

/-- `PreviousSiblingElement` — tinyxml2.cpp:976-985 -/
def PreviousSiblingElement (n : Nat) (isIt : Nat → Bool) (this : Nat) : M Dom P := do
  let c ← rd Dom.prev (some this)
  find isIt Dom.prev n c

/-- `XMLDocument::DeleteNode` — tinyxml2.cpp:2134-2149 -/
def docDeleteNode (k c : Nat) : M Dom Unit := do
  let p ← rd Dom.parent (some c)
  match p with
  | some q => DeleteChild k q (some c)
  | none => do
    let d ← rd Dom.doc (some c)
    when_ (d == c) (M.undef .null)
    DeleteNode k (some c)

/-- `while (_unlinked.Size()) DeleteNode(_unlinked[0]);` — tinyxml2.cpp:2036-2038; `n` bounds the number of passes. -/
def clearUnlinked (k d : Nat) : Nat → M Dom Unit
  | 0 => M.undef .overflow
  | n + 1 => do
    let u ← rd Dom.unlinked (some d)
    match u with
    | [] => pure ()
    | c :: _ => do
      docDeleteNode k c
      clearUnlinked k d n

/-- the part of `XMLDocument::Clear` that concerns nodes — tinyxml2.cpp:2033-2038 -/
def Clear (k d : Nat) : M Dom Unit := do
  DeleteChildren k d
  clearUnlinked k d k

/-- `XMLDocument::~XMLDocument`, then that of `XMLNode`, then the place of the document is given back — tinyxml2.cpp:2014-2017, 755-761 -/
def deleteDocument (k d : Nat) : M Dom Unit := do
  Clear k d
  DeleteChildren k d
  let p ← rd Dom.parent (some d)
  when_ p.isSome (Unlink p (some d))
  free d

end Verif.Xml.Dom
