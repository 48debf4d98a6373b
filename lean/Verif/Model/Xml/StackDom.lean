import Verif.Model.Xml.Clone
/-!
# Deleting and copying nodes on a stack of limited size — tinyxml2.cpp:755-801, 828-838, 1088-1101, 2066-2077, 2134-2149

The destructor of a node deletes its children, whose destructors delete theirs; `DeepClone` calls itself for the children.  Nothing limits the number of these
calls in each other.  The functions are those of `Verif.Model.Xml.Dom` and `Verif.Model.Xml.Clone` with a stack that has room for a number of calls of
`DeleteNode`, or of `DeepClone`, in each other; if it is exhausted the outcome is undefined.  The second number bounds, as there, the passes of loops.

Simplification: all calls need the same room; the stack is used for nothing else.
-/
namespace Verif.Xml.Dom

mutual
/-- `XMLNode::DeleteNode` with the destructor of the node — tinyxml2.cpp:1088-1101, 755-761; the first argument is the room that is left -/
def DeleteNodeS : Nat → Nat → P → M Dom Unit
  | 0, _, _ => M.undef .overflow
  | _ + 1, 0, _ => M.undef .overflow
  | _ + 1, _ + 1, none => pure ()
  | r + 1, k + 1, some c => do
    let d ← rd Dom.doc (some c)
    when_ (d != c) (MarkInUse d c)
    DeleteChildrenS r k c
    let p ← rd Dom.parent (some c)
    when_ p.isSome (Unlink p (some c))
    when_ (d == c) (M.undef .null)
    free c

/-- `DeleteChildren` — tinyxml2.cpp:794-801 -/
def DeleteChildrenS : Nat → Nat → Nat → M Dom Unit
  | _, 0, _ => M.undef .overflow
  | r, k + 1, c => do
    let f ← rd Dom.first (some c)
    if f.isSome then do
      DeleteChildS r k c f
      DeleteChildrenS r k c
    else do
      setLast (some c) none
      setFirst (some c) none

/-- `DeleteChild` — tinyxml2.cpp:828-838 -/
def DeleteChildS : Nat → Nat → Nat → P → M Dom Unit
  | _, 0, _, _ => M.undef .overflow
  | r, k + 1, this, c => do
    Unlink (some this) c
    DeleteNodeS r k c
end

/-- `XMLDocument::DeleteNode` — tinyxml2.cpp:2134-2149 -/
def docDeleteNodeS (r k c : Nat) : M Dom Unit := do
  let p ← rd Dom.parent (some c)
  match p with
  | some q => DeleteChildS r k q (some c)
  | none => do
    let d ← rd Dom.doc (some c)
    when_ (d == c) (M.undef .null)
    DeleteNodeS r k (some c)

/-- `while (_unlinked.Size()) DeleteNode(_unlinked[0]);` — tinyxml2.cpp:2036-2038 -/
def clearUnlinkedS (r k d : Nat) : Nat → M Dom Unit
  | 0 => M.undef .overflow
  | n + 1 => do
    let u ← rd Dom.unlinked (some d)
    match u with
    | [] => pure ()
    | c :: _ => do
      docDeleteNodeS r k c
      clearUnlinkedS r k d n

/-- the part of `XMLDocument::Clear` that concerns nodes — tinyxml2.cpp:2033-2038 -/
def ClearS (r k d : Nat) : M Dom Unit := do
  DeleteChildrenS r k d
  clearUnlinkedS r k d k

/-- `XMLDocument::~XMLDocument`, then that of `XMLNode`, then the place of the document is given back — tinyxml2.cpp:2014-2017, 755-761 -/
def deleteDocumentS (r k d : Nat) : M Dom Unit := do
  ClearS r k d
  DeleteChildrenS r k d
  let p ← rd Dom.parent (some d)
  when_ p.isSome (Unlink p (some d))
  free d

mutual
/-- `DeepClone( target )` — tinyxml2.cpp:781-792; the first number is the room that is left -/
def DeepCloneS (pick : Place) : Nat → Nat → P → Nat → M CDom P
  | 0, _, _, _ => M.undef .overflow
  | _ + 1, 0, _, _ => M.undef .overflow
  | d + 1, k + 1, target, c => do
    let clone ← ShallowClone pick target c
    match clone with
    | none => pure none
    | some r => do
      let child ← onDom (rd Dom.first (some c))
      cloneChildrenS pick d k target r child
      pure (some r)

/-- its loop over the children — tinyxml2.cpp:786-790 -/
def cloneChildrenS (pick : Place) : Nat → Nat → P → Nat → P → M CDom Unit
  | _, 0, _, _, _ => M.undef .overflow
  | _, _ + 1, _, _, none => pure ()
  | d, k + 1, target, clone, some child => do
    let cc ← DeepCloneS pick d k target child
    match cc with
    | none => M.undef .null
    | some a => do
      let _ ← onDom (InsertEndChild clone a)
      let q ← onDom (rd Dom.next (some child))
      cloneChildrenS pick d k target clone q
end

/-- `XMLDocument::DeepCopy( target )` — tinyxml2.cpp:2066-2077 -/
def DeepCopyS (pick : Place) (r k this target : Nat) : M CDom Unit := do
  if target = this then pure ()
  else do
    onDom (ClearS r k target)
    let child ← onDom (rd Dom.first (some this))
    cloneChildrenS pick r k (some target) target child

end Verif.Xml.Dom
