import Verif.Model.Tec.Zone
/-!
# Logs of files: `TEC_FILE_LOG`, json and xml texts — ordered_tec.cpp:52-155, 195-371, 437-532

The functions that generate texts read the log and append lines to one member.  They are
modelled as functions from the log to the lines appended; `*(Text.end() - 1) += t` always
extends a line appended by the same function, so lines are built before they are listed.
-/
namespace Verif.Tec

/-- `printf` conversions of `double` values: parameters of the model -/
structure Fmt where
  /-- `%le` -/
  le : F64 → Str
  /-- `%.5lf` -/
  f5 : F64 → Str
  /-- `%lf` -/
  lf : F64 → Str

/-- `TEC_FILE_LOG` — ordered_tec.h:52-67, 186-199.  `Size` is kept in bytes; `none`: not initialised. -/
structure FileLog where
  FilePath : Str
  FileName : Str
  Title : Str
  Variables : List Str
  FileType : Int
  Auxiliary : AuxMap
  Zones : List ZoneLog := []
  Time_Begin : Str := []
  Time_End : Str := []
  UsingTime : Option F64 := none
  Size : Option Nat := none
  Error : Str := []
  Echo_Text : List Str := []
  Json_Text : List Str := []
  Xml_Text : List Str := []

/-- `TEC_FILE_LOG()` — ordered_tec.cpp:52-57 -/
def FileLog.new : FileLog where
  FilePath := []
  FileName := []
  Title := []
  Variables := []
  FileType := -1
  Auxiliary := []
  UsingTime := some 0
  Size := some 0

/-- reading a variable that may not be initialised -/
def known {α : Type} : Option α → Out α
  | some a => .ok a
  | none => .ub .uninit

/-- lines made from the elements of a container; `last` tells whether it is the last element -/
def lines {α : Type} (f : Nat → α → Bool → Out Str) : Nat → List α → Out (List Str)
  | _, [] => .ok []
  | i, a :: l => do
    let t ← f i a l.isEmpty
    let r ← lines f (i + 1) l
    .ok (t :: r)

/-- a line that is generated under a condition -/
def optLine (c : Bool) (t : Out Str) : Out (List Str) :=
  if c then do
    let b ← t
    .ok [b]
  else .ok []

/-- the five arrays of a zone log in json: `[ %i, %i, %i ]` -/
def json3 (name : String) (a : I3) : Out Str :=
  sprintf 200 (lit ("\t\"" ++ name ++ "\" : [ ") ++ dec a.x ++ lit ", " ++ dec a.y ++ lit ", " ++ dec a.z ++ lit " ] ,")

/-- auxiliary data in json — ordered_tec.cpp:220-234, 457-471 -/
def jsonAux (m : AuxMap) : Out (List Str) :=
  if m.length ≠ 0 then do
    let l ← lines (fun _ e last => do
      let b ← sprintf 200 (lit "\t\t\"" ++ cstr e.1 ++ lit "\" : \"" ++ cstr e.2 ++ lit "\"")
      .ok (if last then b else b ++ lit ",")) 0 m
    .ok (lit "\t\"Auxiliary\" : {" :: l ++ [lit "\t} ,"])
  else .ok []

/-- one entry of `"Data"` — ordered_tec.cpp:477-483 -/
def DataLog.json (F : Fmt) (d : DataLog) (last : Bool) : Out Str := do
  let p ← known d.file_pt
  let mn ← known d.min
  let mx ← known d.max
  let b ← sprintf 200 (lit "\t\t{ \"type\":" ++ dec d.type.code ++ lit ", \"size_i\":" ++ dec (toI32 d.size) ++
    lit ", \"file_pt\":" ++ dec p ++ lit ", \"min\":" ++ F.le mn ++ lit ", \"max\":" ++ F.le mx ++ lit " }")
  .ok (if last then b else b ++ lit ",")

/-- `TEC_ZONE_LOG::gen_json` — ordered_tec.cpp:437-488 -/
def ZoneLog.gen_json (F : Fmt) (l : ZoneLog) : Out ZoneLog := do
  let t1 ← sprintf 200 (lit "\t\"ZoneName\" : \"" ++ cstr l.ZoneName ++ lit "\" ,")
  let t2 ← sprintf 200 (lit "\t\"StrandId\" : " ++ dec l.StrandId ++ lit " ,")
  let t3 ← optLine (l.StrandId ≠ -1) (sprintf 200 (lit "\t\"SolutionTime\" : " ++ F.le l.SolutionTime ++ lit " ,"))
  let t4 ← sprintf 200 (lit "\t\"Org_Dim\" : " ++ dec l.Dim ++ lit " ,")
  let t5 ← sprintf 200 (lit "\t\"Real_Dim\" : " ++ dec l.Real_Dim ++ lit " ,")
  let t6 ← json3 "Org_Max" l.Max
  let t7 ← json3 "Skip" l.Skip
  let t8 ← json3 "Begin" l.Begin
  let t9 ← json3 "End" l.End
  let t10 ← json3 "Real_Max" l.Real_Max
  let aux ← jsonAux l.Auxiliary
  let data ← lines (fun _ d last => d.json F last) 0 l.Data
  .ok { l with
    Json_Text := l.Json_Text ++ [lit "{", t1, t2] ++ t3 ++ [t4, t5, t6, t7, t8, t9, t10] ++ aux
      ++ [lit "\t\"Data_type_comment\" : \"1=Float, 2=Double, 3=LongInt, 4=ShortInt, 5=Byte, 6=Bit\" ,", lit "\t\"Data\" : ["]
      ++ data ++ [lit "\t]", lit "}"] }

/-- the five arrays of a zone log in xml -/
def xml3 (name : String) (a : I3) : Out Str :=
  sprintf 200 (lit ("\t<" ++ name ++ "> <I>") ++ dec a.x ++ lit "</I> <J>" ++ dec a.y ++ lit "</J> <K>" ++ dec a.z ++
    lit ("</K> </" ++ name ++ ">"))

/-- auxiliary data in xml — ordered_tec.cpp:272-281, 510-519 -/
def xmlAux (m : AuxMap) : Out (List Str) :=
  if m.length ≠ 0 then do
    let l ← lines (fun _ e _ =>
      sprintf 200 (lit "\t\t<" ++ cstr e.1 ++ lit ">" ++ cstr e.2 ++ lit "</" ++ cstr e.1 ++ lit ">")) 0 m
    .ok (lit "\t<Auxiliary>" :: l ++ [lit "\t</Auxiliary>"])
  else .ok []

/-- one entry of `<Datas>` — ordered_tec.cpp:525-527 -/
def DataLog.xml (F : Fmt) (i : Nat) (d : DataLog) : Out Str := do
  let p ← known d.file_pt
  let mn ← known d.min
  let mx ← known d.max
  sprintf 200 (lit "\t\t<Data_" ++ dec (toI32 i) ++ lit " type=\"" ++ dec d.type.code ++ lit "\" size_i=\"" ++
    dec (toI32 d.size) ++ lit "\" file_pt=\"" ++ dec p ++ lit "\" min=\"" ++ F.le mn ++ lit "\" max=\"" ++ F.le mx ++
    lit "\"/>")

/-- `TEC_ZONE_LOG::gen_xml` — ordered_tec.cpp:490-532 -/
def ZoneLog.gen_xml (F : Fmt) (l : ZoneLog) : Out ZoneLog := do
  let t0 ← sprintf 200 (lit "<Zone ZoneName=\"" ++ cstr l.ZoneName ++ lit "\">")
  let t1 ← sprintf 200 (lit "\t<ZoneName>" ++ cstr l.ZoneName ++ lit "</ZoneName>")
  let t2 ← sprintf 200 (lit "\t<StrandId>" ++ dec l.StrandId ++ lit "</StrandId>")
  let t3 ← optLine (l.StrandId ≠ -1) (sprintf 200 (lit "\t<SolutionTime>" ++ F.le l.SolutionTime ++ lit "</SolutionTime>"))
  let t4 ← sprintf 200 (lit "\t<Org_Dim>" ++ dec l.Dim ++ lit "</Org_Dim>")
  let t5 ← sprintf 200 (lit "\t<Real_Dim>" ++ dec l.Real_Dim ++ lit "</Real_Dim>")
  let t6 ← xml3 "Org_Max" l.Max
  let t7 ← xml3 "Skip" l.Skip
  let t8 ← xml3 "Begin" l.Begin
  let t9 ← xml3 "End" l.End
  let t10 ← xml3 "Real_Max" l.Real_Max
  let aux ← xmlAux l.Auxiliary
  let data ← lines (fun i d _ => d.xml F i) 0 l.Data
  .ok { l with
    Xml_Text := l.Xml_Text ++ [t0, t1, t2] ++ t3 ++ [t4, t5, t6, t7, t8, t9, t10] ++ aux
      ++ [lit "\t<!--1=Float, 2=Double, 3=LongInt, 4=ShortInt, 5=Byte, 6=Bit-->", lit "\t<Datas>"]
      ++ data ++ [lit "\t</Datas>", lit "</Zone>"] }

/-- the line of the names of the variables in json — ordered_tec.cpp:209-218 -/
def jsonVars (vars : List Str) : Out Str := do
  let l ← lines (fun _ v last => do
    let b ← sprintf 200 (lit "\"" ++ cstr v ++ lit "\"")
    .ok (if last then b else b ++ lit ", ")) 0 vars
  .ok (lit "\t\"Variables\" : [ " ++ l.flatten ++ lit " ] ,")

/-- apply `gen_json` or `gen_xml` to every zone log, in order -/
def eachZone (g : ZoneLog → Out ZoneLog) : List ZoneLog → Out (List ZoneLog)
  | [] => .ok []
  | z :: l => do
    let z' ← g z
    let l' ← eachZone g l
    .ok (z' :: l')

/-- the marks of the zones in json — ordered_tec.cpp:237-245 -/
def jsonMarks : List ZoneLog → List Str
  | [] => []
  | _ :: l => if l.isEmpty then [lit "#ZONE#"] else lit "#ZONE#" :: lit "\t\t," :: jsonMarks l

/-- `TEC_FILE_LOG::gen_json` — ordered_tec.cpp:195-248 -/
def FileLog.gen_json (F : Fmt) (l : FileLog) : Out FileLog := do
  let t1 ← sprintf 200 (lit "\t\"FileName\" : \"" ++ cstr (l.FileName ++ lit ".plt") ++ lit "\" ,")
  let t2 ← sprintf 200 (lit "\t\"FilePath\" : \"" ++ cstr l.FilePath ++ lit "\" ,")
  let t3 ← sprintf 200 (lit "\t\"Time\" : \"" ++ cstr l.Time_Begin ++ lit "\" ,")
  let u ← known l.UsingTime
  let t4 ← sprintf 200 (lit "\t\"UsingTime\" : " ++ F.f5 u ++ lit " ,")
  let t5 ← sprintf 200 (lit "\t\"Title\" : \"" ++ cstr l.Title ++ lit "\" ,")
  let t6 ← sprintf 200 (lit "\t\"FileType\" : " ++ dec l.FileType ++ lit " ,")
  let t7 ← jsonVars l.Variables
  let aux ← jsonAux l.Auxiliary
  let zs ← eachZone (ZoneLog.gen_json F) l.Zones
  .ok { l with
    Zones := zs
    Json_Text := l.Json_Text ++ [lit "{", t1, t2, t3, t4, t5,
        lit "\t\"FileType_comment\" : \"0 = FULL, 1 = GRID, 2 = SOLUTION\" ,", t6, t7] ++ aux
      ++ [lit "\t\"Zones\" : ["] ++ jsonMarks l.Zones ++ [lit "\t]", lit "}"] }

/-- the line of the names of the variables in xml — ordered_tec.cpp:264-270 -/
def xmlVars (vars : List Str) : Out Str := do
  let l ← lines (fun i v _ => sprintf 200 (lit " <" ++ cstr v ++ lit " i=\"" ++ dec (toI32 i) ++ lit "\"/>")) 0 vars
  .ok (lit "\t<Variables>" ++ l.flatten ++ lit " </Variables>")

/-- `TEC_FILE_LOG::gen_xml` — ordered_tec.cpp:250-292 -/
def FileLog.gen_xml (F : Fmt) (l : FileLog) : Out FileLog := do
  let t0 ← sprintf 200 (lit "<File FileName=\"" ++ cstr l.FileName ++ lit "\">")
  let t1 ← sprintf 200 (lit "\t<FileName>" ++ cstr (l.FileName ++ lit ".plt") ++ lit "</FileName>")
  let t2 ← sprintf 200 (lit "\t<FilePath>" ++ cstr l.FilePath ++ lit "</FilePath>")
  let t3 ← sprintf 200 (lit "\t<Time>" ++ cstr l.Time_Begin ++ lit "</Time>")
  let u ← known l.UsingTime
  let t4 ← sprintf 200 (lit "\t<UsingTime>" ++ F.f5 u ++ lit "</UsingTime>")
  let t5 ← sprintf 200 (lit "\t<Title>" ++ cstr l.Title ++ lit "</Title>")
  let t6 ← sprintf 200 (lit "\t<!--0 = FULL, 1 = GRID, 2 = SOLUTION-->")
  let t7 ← sprintf 200 (lit "\t<FileType>" ++ dec l.FileType ++ lit "</FileType>")
  let t8 ← xmlVars l.Variables
  let aux ← xmlAux l.Auxiliary
  let zs ← eachZone (ZoneLog.gen_xml F) l.Zones
  .ok { l with
    Zones := zs
    Xml_Text := l.Xml_Text ++ [t0, t1, t2, t3, t4, t5, t6, t7, t8] ++ aux
      ++ [lit "\t<Zones>"] ++ l.Zones.map (fun _ => lit "#ZONE#") ++ [lit "\t</Zones>", lit "</File>"] }

/-! ## Writing the texts

The state is the content of the output stream; writing to it never fails. -/

/-- `of << text.c_str() << std::endl` -/
def putLine (t : Str) : M Str Unit := emit (cstr t ++ lit "\n")

/-- `for (int j = 0; j != depth; j++) { of << "\t"; }` -/
def tabs (depth : Int) : M Str Unit := forI 0 depth fun _ => emit (lit "\t")

/-- `TEC_ZONE_LOG::write_echo(std::ofstream &)` — ordered_tec.cpp:310-316 -/
def ZoneLog.write_echo (l : ZoneLog) : M Str Unit := each l.Echo_Text putLine

/-- `TEC_ZONE_LOG::write_json(std::ofstream &, int)` — ordered_tec.cpp:330-340 -/
def ZoneLog.write_json (l : ZoneLog) (depth : Int) : M Str Unit :=
  each l.Json_Text fun t => do tabs depth; putLine t

/-- `TEC_ZONE_LOG::write_xml(std::ofstream &, int)` — ordered_tec.cpp:355-365 -/
def ZoneLog.write_xml (l : ZoneLog) (depth : Int) : M Str Unit :=
  each l.Xml_Text fun t => do tabs depth; putLine t

/-- the loop of `TEC_FILE_LOG::write_echo`, `write_json`, `write_xml`: `zs` are the zone logs from `zi` on -/
def splice (zone : ZoneLog → M Str Unit) (line : Str → M Str Unit) : List Str → List ZoneLog → M Str Unit
  | [], _ => pure ()
  | t :: l, zs =>
    if t = lit "#ZONE#" then
      match zs with
      | [] => M.undef .oob
      | z :: zs => do zone z; splice zone line l zs
    else do line t; splice zone line l zs

/-- `TEC_FILE_LOG::write_echo(std::ofstream &)` — ordered_tec.cpp:73-88 -/
def FileLog.write_echo (l : FileLog) : M Str Unit := splice ZoneLog.write_echo putLine l.Echo_Text l.Zones

/-- `TEC_FILE_LOG::write_json(std::ofstream &, int)` — ordered_tec.cpp:102-121 -/
def FileLog.write_json (l : FileLog) (depth : Int) : M Str Unit :=
  splice (fun z => do let d ← i32 (depth + 2); z.write_json d) (fun t => do tabs depth; putLine t) l.Json_Text l.Zones

/-- `TEC_FILE_LOG::write_xml(std::ofstream &, int)` — ordered_tec.cpp:136-155 -/
def FileLog.write_xml (l : FileLog) (depth : Int) : M Str Unit :=
  splice (fun z => do let d ← i32 (depth + 2); z.write_xml d) (fun t => do tabs depth; putLine t) l.Xml_Text l.Zones

/-- the variants without a stream — ordered_tec.cpp:61-71, 90-100, 123-134 (and 298-308, 318-328, 342-353): the file is created,
then written.  `canOpen` tells whether it can be created; the state is the file system. -/
def toFile (canOpen : Str → Bool) (path head : Str) (m : M Str Unit) : M (Str → Option Str) Unit := fun fs =>
  if canOpen (cstr path) then
    match m head with
    | .ok _ t => .ok () (fun p => if p = cstr path then some t else fs p)
    | .err e t => .err e (fun p => if p = cstr path then some t else fs p)
    | .ub u => .ub u
  else .err (.text (lit "can not open file " ++ path)) fs

def FileLog.write_echo_file (canOpen : Str → Bool) (l : FileLog) : M (Str → Option Str) Unit :=
  toFile canOpen (l.FilePath ++ lit "/" ++ l.FileName ++ lit ".txt") [] l.write_echo
def FileLog.write_json_file (canOpen : Str → Bool) (l : FileLog) (depth : Int) : M (Str → Option Str) Unit :=
  toFile canOpen (l.FilePath ++ lit "/" ++ l.FileName ++ lit ".json") [] (l.write_json depth)
def FileLog.write_xml_file (canOpen : Str → Bool) (l : FileLog) (depth : Int) : M (Str → Option Str) Unit :=
  toFile canOpen (l.FilePath ++ lit "/" ++ l.FileName ++ lit ".xml")
    (lit "<?xml version=\"1.0\" encoding=\"UTF-8\"?>\n") (l.write_xml depth)
def ZoneLog.write_echo_file (canOpen : Str → Bool) (l : ZoneLog) : M (Str → Option Str) Unit :=
  toFile canOpen (lit "./Zone_" ++ l.ZoneName ++ lit ".txt") [] l.write_echo
def ZoneLog.write_json_file (canOpen : Str → Bool) (l : ZoneLog) (depth : Int) : M (Str → Option Str) Unit :=
  toFile canOpen (lit "./Zone_" ++ l.ZoneName ++ lit ".json") [] (l.write_json depth)
def ZoneLog.write_xml_file (canOpen : Str → Bool) (l : ZoneLog) (depth : Int) : M (Str → Option Str) Unit :=
  toFile canOpen (lit "./Zone_" ++ l.ZoneName ++ lit ".xml")
    (lit "<?xml version=\"1.0\" encoding=\"UTF-8\"?>\n") (l.write_xml depth)

end Verif.Tec
