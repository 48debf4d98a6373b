import Verif.Model.Tec.Zone
/-!
# Model: `TEC_DATA(T *)` and the row-major accessors of `TEC_ZONE_BASE`

`typeid` compares types: the type pointed to and its qualifiers.  Sizes and names of the types are those of the
x86-64 System V and Itanium C++ ABIs; `name()` of a class is any text without NUL.
-/
namespace Verif.Tec

/-- the unqualified object type a pointer points to -/
inductive CType
  | bool | char | schar | uchar | short | ushort | int | uint | long | ulong | llong | ullong | float | double | ldouble
  | other (name : Str) (size : Nat)
  deriving DecidableEq, Repr

/-- `sizeof(T)` -/
def CType.size : CType → Nat
  | .bool | .char | .schar | .uchar => 1
  | .short | .ushort => 2
  | .int | .uint | .float => 4
  | .long | .ulong | .llong | .ullong | .double => 8
  | .ldouble => 16
  | .other _ n => n

/-- `typeid(T).name()`; qualifiers of `T` are ignored by `typeid` -/
def CType.name : CType → Str
  | .bool => lit "b"
  | .char => lit "c"
  | .schar => lit "a"
  | .uchar => lit "h"
  | .short => lit "s"
  | .ushort => lit "t"
  | .int => lit "i"
  | .uint => lit "j"
  | .long => lit "l"
  | .ulong => lit "m"
  | .llong => lit "x"
  | .ullong => lit "y"
  | .float => lit "f"
  | .double => lit "d"
  | .ldouble => lit "e"
  | .other s _ => s

/-- the type `T` deduced from the argument `T *` -/
structure Pointee where
  type : CType
  const : Bool := false
  volatile : Bool := false
  deriving DecidableEq, Repr

/-- `typeid(iDataP) == typeid(t *) || typeid(iDataP) == typeid(const t *)` -/
def Pointee.is (T : Pointee) (t : CType) : Bool := T == ⟨t, false, false⟩ || T == ⟨t, true, false⟩

/-- text of the exception — ordered_tec.h:549-553 -/
def unsupportedText (T : CType) : Str :=
  lit "type [" ++ (cstr T.name ++ (lit "]*" ++ (dec T.size ++ lit " is unsupported in Tecplot")))

/-- the constructor `TEC_DATA(T *)` — ordered_tec.h:520-559; `longint` is `int`, `shortint` is `short`, `byte` is
`signed char` (ordered_tec.h:32-40).  The template checks at run time, all `T` compile. -/
def TecData.ofPtr (T : Pointee) (iDataP : Ptr) : Out TecData := do
  let type ←
    if T.is .float then (.ok .float : Out TecType)
    else if T.is .double then .ok .double
    else if (T.is .int || T.is .short) && T.type.size == 4 then .ok .longint
    else if (T.is .short || T.is .int) && T.type.size == 2 then .ok .shortint
    else if T.is .schar then .ok .byte
    else do
      let text ← sprintf 300 (unsupportedText T.type)
      .err (.text text)
  .ok { type := type, size := T.type.size, DataP := iDataP, buf := .null }

/-! ## Row-major accessors -/

/-- index used by `Max_C(DIM, d)` and its like: `DIM - 1 - d` is computed in `unsigned`; a reference outside of
the three elements is not defined — ordered_tec.h:132-153 -/
def rowIndex (DIM d : Nat) : Out Nat :=
  let i := toU32 ((DIM : Int) - 1 - d)
  if i < 3 then .ok i else .ub .oob

/-- `zone.Max_C(DIM, d) = v` — ordered_tec.h:132 -/
def Zone.setMax_C (DIM d : Nat) (v : Int) : M Zone Unit := do
  let i ← M.lift (rowIndex DIM d)
  M.modify fun z => { z with Max := z.Max.set i v }

/-- `zone.Begin_C(DIM, d) = v` — ordered_tec.h:139 -/
def Zone.setBegin_C (DIM d : Nat) (v : Int) : M Zone Unit := do
  let i ← M.lift (rowIndex DIM d)
  M.modify fun z => { z with Begin := z.Begin.set i v }

/-- `zone.End_C(DIM, d) = v` — ordered_tec.h:146 -/
def Zone.setEnd_C (DIM d : Nat) (v : Int) : M Zone Unit := do
  let i ← M.lift (rowIndex DIM d)
  M.modify fun z => { z with End := z.End.set i v }

/-- `zone.Skip_C(DIM, d) = v` — ordered_tec.h:153 -/
def Zone.setSkip_C (DIM d : Nat) (v : Int) : M Zone Unit := do
  let i ← M.lift (rowIndex DIM d)
  M.modify fun z => { z with Skip := z.Skip.set i v }

/-- the value of `zone.Max_C(DIM, d)`, … — ordered_tec.h:132-153 -/
def Zone.Max_C (DIM d : Nat) (z : Zone) : Out Int := do z.Max.get (← rowIndex DIM d)
def Zone.Begin_C (DIM d : Nat) (z : Zone) : Out Int := do z.Begin.get (← rowIndex DIM d)
def Zone.End_C (DIM d : Nat) (z : Zone) : Out Int := do z.End.get (← rowIndex DIM d)
def Zone.Skip_C (DIM d : Nat) (z : Zone) : Out Int := do z.Skip.get (← rowIndex DIM d)

end Verif.Tec
