import Verif.Model.Xml.Query
/-!
# Reading logs from xml — ordered_tec.cpp:157-193, 367-435

`TEC_ZONE_LOG()` and `TEC_DATA_LOG()` initialise no numbers: a member is `none` until it is assigned, and reading it
is undefined.  Simplifications.
* Copying an object with such members (`push_back`) is allowed.
* A type code other than 0 to 5 is undefined; the two values 6 and 7 that the `enum` could also hold are not modelled.
* `junk` stands for the content of members that are neither assigned nor read.
-/
namespace Verif.Tec
open Xml

/-- an array of three numbers, not initialised at first -/
structure O3 where
  x : Option Int := none
  y : Option Int := none
  z : Option Int := none

def O3.get (a : O3) : Nat → Option Int
  | 0 => a.x
  | 1 => a.y
  | _ => a.z

def O3.set (a : O3) (i : Nat) (v : Option Int) : O3 :=
  match i with
  | 0 => { a with x := v }
  | 1 => { a with y := v }
  | _ => { a with z := v }

/-- `TEC_ZONE_LOG` while it is read -/
structure ZoneRead where
  ZoneName : Str := []
  StrandId : Option Int := none
  SolutionTime : Option F64 := none
  Dim : Option Int := none
  Real_Dim : Option Int := none
  Max : O3 := {}
  Skip : O3 := {}
  Begin : O3 := {}
  End : O3 := {}
  Real_Max : O3 := {}
  Auxiliary : AuxMap := []
  Data : List DataLog := []

/-- `m[k] = v` -/
def AuxMap.assign (m : AuxMap) (k v : Str) : AuxMap :=
  match m with
  | [] => [(k, v)]
  | (k', v') :: m' =>
    if strLt k k' then (k, v) :: (k', v') :: m'
    else if strLt k' k then (k', v') :: AuxMap.assign m' k v
    else (k', v) :: m'

/-- `Auxiliary[temp->Name()] = temp->GetText();` for all elements — ordered_tec.cpp:172-180, 409-417 -/
def readAuxList : List Node → AuxMap → Out AuxMap
  | [], m => .ok m
  | e :: l, m => do
    let t ← toStr e.getText
    readAuxList l (m.assign e.name t)

def readAux (root : Node) (m : AuxMap) : Out AuxMap :=
  match firstNamed (lit "Auxiliary") root.children with
  | none => .ok m
  | some a => readAuxList a.elems m

/-- `for (size_t i = 0; temp; ++i) { temp->QueryIntText(a + i); ... }` — ordered_tec.cpp:379-408: a number behind the end of
the array must not be stored, a pointer behind its end must not be formed -/
def read3List : List Node → Nat → O3 → Out O3
  | [], _, a => .ok a
  | e :: l, i, a => do
    if i < 3 then
      let v ← e.queryInt (a.get i)
      read3List l (i + 1) (a.set i v)
    else if i = 3 then
      let v ← e.queryInt none
      if v.isSome then .ub .oob else read3List l (i + 1) a
    else .ub .oob

def read3 (root : Node) (n : String) (a : O3) : Out O3 := do
  let e ← root.child n
  read3List e.elems 0 a

/-- `TEC_TYPE(code)` -/
def TecType.ofCode (c : Int) : Out TecType :=
  if c = 0 then .ok .null
  else if c = 1 then .ok .float
  else if c = 2 then .ok .double
  else if c = 3 then .ok .longint
  else if c = 4 then .ok .shortint
  else if c = 5 then .ok .byte
  else .ub .overflow

/-- one variable — ordered_tec.cpp:420-433 -/
def DataLog.read_xml (rd : Str → Option F64) (e : Node) : Out DataLog := do
  let tp ← e.queryIntAttr "type" none
  let tp ← known tp
  let ty ← TecType.ofCode tp
  let si ← e.queryUnsignedAttr "size_i" none
  let si ← known si
  let pt ← toStr (e.attr "file_pt")
  .ok { type := ty, size := si, file_pt := some (strtol pt), min := e.queryDoubleAttr rd "min" none, max := e.queryDoubleAttr rd "max" none }

def readData (rd : Str → Option F64) : List Node → List DataLog → Out (List DataLog)
  | [], ds => .ok ds
  | e :: l, ds => do
    let d ← DataLog.read_xml rd e
    readData rd l (ds ++ [d])

/-- `SolutionTime` is there unless `StrandId` is -1 — ordered_tec.cpp:372-375 -/
def readTime (rd : Str → Option F64) (root : Node) (strand : Int) (old : Option F64) : Out (Option F64) :=
  if strand = -1 then .ok old
  else do
    let e ← root.child "SolutionTime"
    .ok (e.queryDouble rd old)

/-- `TEC_ZONE_LOG::read_xml` — ordered_tec.cpp:368-434 -/
def ZoneRead.read_xml (rd : Str → Option F64) (root : Node) (z : ZoneRead) : Out ZoneRead := do
  let e ← root.child "ZoneName"
  let name ← toStr e.getText
  let e ← root.child "StrandId"
  let strand ← e.queryInt z.StrandId
  let strand ← known strand
  let time ← readTime rd root strand z.SolutionTime
  let e ← root.child "Org_Dim"
  let dim ← e.queryInt z.Dim
  let e ← root.child "Real_Dim"
  let rdim ← e.queryInt z.Real_Dim
  let max ← read3 root "Org_Max" z.Max
  let skip ← read3 root "Skip" z.Skip
  let beg ← read3 root "Begin" z.Begin
  let end_ ← read3 root "End" z.End
  let rmax ← read3 root "Real_Max" z.Real_Max
  let aux ← readAux root z.Auxiliary
  let e ← root.child "Datas"
  let data ← readData rd e.elems z.Data
  .ok { ZoneName := name, StrandId := some strand, SolutionTime := time, Dim := dim, Real_Dim := rdim, Max := max, Skip := skip
        Begin := beg, End := end_, Real_Max := rmax, Auxiliary := aux, Data := data }

/-- members that `read_xml` does not assign -/
structure Junk where
  time : F64
  noskip : Bool
  noexc : Bool

/-- three numbers that are read -/
def O3.known (a : O3) : Out I3 := do
  let x ← Tec.known a.x
  let y ← Tec.known a.y
  let z ← Tec.known a.z
  .ok ⟨x, y, z⟩

/-- `SolutionTime` is read unless `StrandId` is -1 -/
def timeLog (j : Junk) (strand : Int) (t : Option F64) : Out F64 :=
  if strand = -1 then .ok (t.getD j.time) else known t

/-- the zone log whose members are read by `gen_xml` and `gen_json`: all numbers, `SolutionTime` if `StrandId` is not -1 -/
def ZoneRead.log (j : Junk) (z : ZoneRead) : Out ZoneLog := do
  let strand ← known z.StrandId
  let time ← timeLog j strand z.SolutionTime
  let dim ← known z.Dim
  let rdim ← known z.Real_Dim
  let max ← z.Max.known
  let skip ← z.Skip.known
  let beg ← z.Begin.known
  let end_ ← z.End.known
  let rmax ← z.Real_Max.known
  .ok { ZoneName := z.ZoneName, StrandId := strand, SolutionTime := time, Max := max, Skip := skip, Begin := beg, End := end_
        Dim := dim, Real_Max := rmax, Real_Dim := rdim, noskip := j.noskip, noexc := j.noexc, Auxiliary := z.Auxiliary, Data := z.Data }

/-- the loop over the zones — ordered_tec.cpp:181-187 -/
def readZones (rd : Str → Option F64) (junk : Nat → Junk) : List Node → Nat → Out (List ZoneLog)
  | [], _ => .ok []
  | e :: l, i => do
    let z ← ZoneRead.read_xml rd e {}
    let z ← z.log (junk i)
    let r ← readZones rd junk l (i + 1)
    .ok (z :: r)

/-- `TEC_FILE_LOG::read_xml` — ordered_tec.cpp:158-192.  No exception can occur, so the members of the zones that
`gen_xml` reads are tested when a zone has been read. -/
def FileLog.read_xml (F : Fmt) (rd : Str → Option F64) (junk : Nat → Junk) (root : Node) (l : FileLog) : Out FileLog := do
  let name ← toStr (root.attr "FileName")
  let e ← root.child "FilePath"
  let path ← toStr e.getText
  let e ← root.child "Time"
  let time ← toStr e.getText
  let e ← root.child "UsingTime"
  let using_ := e.queryDouble rd l.UsingTime
  let e ← root.child "Title"
  let title ← toStr e.getText
  let e ← root.child "FileType"
  let type ← e.queryInt (some l.FileType)
  let type ← known type
  let e ← root.child "Variables"
  let vars := e.elems.map Node.name
  let aux ← readAux root l.Auxiliary
  let e ← root.child "Zones"
  let zs ← readZones rd junk e.elems 0
  let l := { l with FileName := name, FilePath := path, Time_Begin := time, UsingTime := using_, Title := title, FileType := type,
                    Variables := l.Variables ++ vars, Auxiliary := aux, Zones := l.Zones ++ zs }
  let l ← l.gen_xml F
  l.gen_json F

end Verif.Tec
