import Verif.Model.What
import Verif.Model.Tec.Log
/-!
# `TEC_FILE` — ordered_tec.cpp:538-800
-/
namespace Verif.Tec

/-- `TEC_FILE` — ordered_tec.h:52-67, 338-356; `Echo_Mode` is the list of its bits, bit 0 first -/
structure TecFile where
  FilePath : Str
  FileName : Str
  Title : Str
  Variables : List Str
  FileType : Int
  Auxiliary : AuxMap
  Zones : List Zone
  Echo_Mode : List Bool
  last_log : FileLog

/-- `TEC_FILE_LOG(const TEC_FILE &)` — ordered_tec.cpp:59 -/
def FileLog.ofFile (f : TecFile) : FileLog where
  FilePath := f.FilePath
  FileName := f.FileName
  Title := f.Title
  Variables := f.Variables
  FileType := f.FileType
  Auxiliary := f.Auxiliary

/-- `TEC_FILE(name, path, title)` — ordered_tec.cpp:538-546 -/
def TecFile.new (name path title : Str) : TecFile where
  FilePath := path
  FileName := name
  Title := title
  Variables := []
  FileType := 0
  Auxiliary := []
  Zones := []
  Echo_Mode := [true, true, true, false, false, true, false]
  last_log := FileLog.new

/-- `TEC_FILE::add_auxiliary_data(name, value)` — ordered_tec.cpp:548-554 -/
def TecFile.add_auxiliary_data (name value : Str) : M TecFile Bool := fun f =>
  let r := f.Auxiliary.insert name value
  .ok r.2 { f with Auxiliary := r.1 }

/-- `TEC_FILE::add_auxiliary_data(name, double)` — ordered_tec.cpp:556-561 -/
def TecFile.add_auxiliary_double (F : Fmt) (name : Str) (value : F64) : M TecFile Bool := do
  let b ← sprintf 200 (F.lf value)
  TecFile.add_auxiliary_data name b

/-- `TEC_ZONE::add_auxiliary_data(name, double)` — ordered_tec.cpp:851-856 -/
def Zone.add_auxiliary_double (F : Fmt) (name : Str) (value : F64) : M Zone Bool := do
  let b ← sprintf 200 (F.lf value)
  Zone.add_auxiliary_data name b

/-- `TEC_FILE_BASE::get_auxiliary_data` — ordered_tec.h:76-87; `parse` as in `Zone.get_auxiliary_data` -/
def TecFile.get_auxiliary_data {T : Type} (parse : Str → T → T) (f : TecFile) (name : Str) (data : T) : Out T :=
  match f.Auxiliary.find name with
  | none => .err (.text (lit "can not find data [" ++ name ++ lit "] in auxiliary data of file [" ++ f.FileName ++ lit "]"))
  | some v => .ok (parse v data)

/-- the code chosen by `TEC_FILE::echo_mode` — ordered_tec.cpp:676-692 -/
def fileEchoCode (e : Str) : Str :=
  if e = lit "brief" then lit "0100111"
  else if e = lit "full" then lit "1111111"
  else if e = lit "simple" then lit "0100001"
  else if e = lit "none" then lit "0000000"
  else e

/-- `TEC_FILE::echo_mode` — ordered_tec.cpp:674-701 -/
def TecFile.echo_mode (strict : Bool) (e : Str) : M TecFile Unit := fun f =>
  match bitset strict 7 (fileEchoCode e) with
  | some b => .ok () { f with Echo_Mode := b }
  | none => .err (.text (lit "File(" ++ f.FileName ++ lit "): echo code wrong")) f

/-- a statement about `Zones[i]` -/
def TecFile.onZone (i : Nat) (m : M Zone Unit) : M TecFile Unit := fun f =>
  match f.Zones[i]? with
  | none => .ub .oob
  | some z =>
    match m z with
    | .ok a z' => .ok a { f with Zones := f.Zones.set i z' }
    | .err e z' => .err e { f with Zones := f.Zones.set i z' }
    | .ub u => .ub u

/-- `TEC_FILE::set_echo_mode` — ordered_tec.cpp:563-576 -/
def TecFile.set_echo_mode (strict : Bool) (file zone : Str) : M TecFile Unit := do
  ifB (file ≠ lit "leave") (TecFile.echo_mode strict file)
  ifB (zone ≠ lit "leave") do
    let f ← M.get
    eachIdx (fun i _ => TecFile.onZone i (Zone.echo_mode strict zone)) 0 f.Zones

/-! ## Writing the file -/

/-- what the operating system answers during one `write_plt`, and the conversions of `double` -/
structure Env where
  fmt : Fmt
  /-- first answer of `liton_sp::time::get_time()` -/
  tBegin : Str
  /-- second answer -/
  tEnd : Str
  /-- `double(clock() - clock_begin) / CLOCKS_PER_SEC` -/
  using_ : F64
  /-- whether `fopen(path, "wb")` succeeds -/
  canOpen : Str → Bool

/-- state of `write_plt`: free store, file system, the stream `of` (what was written to it) and whether it is
open, standard output, the object.

A file opened with "wb" is empty; what was written is in the file system when the stream is closed. -/
structure FSt where
  h : Heap Byte
  fs : Str → Option Str
  of : Str
  isOpen : Bool
  out : Str
  f : TecFile

namespace FSt
/-- file operations -/
def file {α : Type} (m : M Str α) : M FSt α := fun s =>
  match m s.of with
  | .ok a x => .ok a { s with of := x }
  | .err e x => .err e { s with of := x }
  | .ub u => .ub u
/-- `if (echo) { std::printf(...); }` -/
def print (echo : Bool) (t : Str) : M FSt Unit :=
  if echo then M.modify fun s => { s with out := s.out ++ t } else pure ()
/-- an assignment to a member of `last_log` -/
def modLog (g : FileLog → FileLog) : M FSt Unit :=
  M.modify fun s => { s with f := { s.f with last_log := g s.f.last_log } }
/-- `last_log.Echo_Text.push_back(t)` -/
def push (t : Str) : M FSt Unit := modLog fun l => { l with Echo_Text := l.Echo_Text ++ [t] }
/-- `*(last_log.Echo_Text.end() - 1) += t` -/
def append (t : Str) : M FSt Unit := fun s =>
  match s.f.last_log.Echo_Text.reverse with
  | [] => .ub .oob
  | last :: rest => modLog (fun l => { l with Echo_Text := rest.reverse ++ [last ++ t] }) s
/-- a function of `Zones[i]` and `last_log.Zones[i]` -/
def zone {α : Type} (i : Nat) (m : M ZSt α) : M FSt α := fun s =>
  match s.f.Zones[i]?, s.f.last_log.Zones[i]? with
  | some z, some l =>
    let back := fun (t : ZSt) => { s with
      h := t.h, of := t.of, out := t.out
      f := { s.f with
        Zones := s.f.Zones.set i t.z
        last_log := { s.f.last_log with Zones := s.f.last_log.Zones.set i t.l } } }
    match m ⟨s.h, s.of, s.out, z, l⟩ with
    | .ok a t => .ok a (back t)
    | .err e t => .err e (back t)
    | .ub u => .ub u
  | _, _ => .ub .oob
end FSt

/-- `err.what()` of an exception, as a C string -/
def errText : Err → Str
  | .text m => cstr m
  | e => cstr (lit e.what)

/-- a function of the zone and its log -/
def ZSt.pair (m : M (Zone × ZoneLog) Unit) : M ZSt Unit := fun t =>
  match m (t.z, t.l) with
  | .ok a q => .ok a { t with z := q.1, l := q.2 }
  | .err e q => .err e { t with z := q.1, l := q.2 }
  | .ub u => .ub u

/-- `catch (const std::exception &err)` of `TEC_FILE::wrtie_plt_pre` — ordered_tec.cpp:722-726 -/
def FSt.recordErr (m : M FSt Unit) : M FSt Unit := fun s =>
  match m s with
  | .ok a t => .ok a t
  | .err e t =>
    .err (.text (lit "File(" ++ t.f.FileName ++ lit ")." ++ errText e)) { t with f := { t.f with
      last_log := { t.f.last_log with Error := lit "File(" ++ t.f.FileName ++ lit ")." ++ errText e } } }
  | .ub u => .ub u

/-- `last_log.Zones.push_back(TEC_ZONE_LOG(*i))` -/
def FSt.pushZone (z : Zone) : M FSt Unit := FSt.modLog fun l => { l with Zones := l.Zones ++ [ZoneLog.ofZone z] }

/-- body of the loop of `TEC_FILE::wrtie_plt_pre` — ordered_tec.cpp:717-726 -/
def TecFile.preZone (i : Nat) (z : Zone) : M FSt Unit := FSt.recordErr do
  FSt.pushZone z
  let s ← M.get
  FSt.zone i (ZSt.pair (Zone.wrtie_plt_pre s.f.Variables))

/-- `TEC_FILE::wrtie_plt_pre` — ordered_tec.cpp:703-728 -/
def TecFile.wrtie_plt_pre : M FSt Unit := do
  let s ← M.get
  if s.f.Variables.length = 0 then
    FSt.modLog fun l => { l with Error := lit "File(" ++ s.f.FileName ++ lit "): Variables is empty" }
    M.throw (.text (lit "File(" ++ s.f.FileName ++ lit "): Variables is empty"))
  else if s.f.Zones.length = 0 then
    FSt.modLog fun l => { l with Error := lit "File(" ++ s.f.FileName ++ lit "): Zones is empty" }
    M.throw (.text (lit "File(" ++ s.f.FileName ++ lit "): Zones is empty"))
  else
    eachIdx TecFile.preZone 0 s.f.Zones

/-- the echo of the name of a variable — ordered_tec.cpp:750-754 -/
def TecFile.headVar (echo e2 : Bool) (v : Str) : M FSt Unit := do
  FSt.file (W_STRING v)
  ifB e2 do
    FSt.print echo (lit " <" ++ cstr v ++ lit ">")
    FSt.append (lit " <" ++ v ++ lit ">")

/-- `TEC_FILE::write_plt_head` — ordered_tec.cpp:730-773 -/
def TecFile.write_plt_head (echo : Bool) : M FSt Unit := do
  let s ← M.get
  let f := s.f
  FSt.file (emit (lit "#!TDV112"))
  FSt.file (W_INT32 1)
  FSt.file (W_INT32 f.FileType)
  FSt.file (W_STRING f.Title)
  FSt.file (W_INT32 f.Variables.length)
  ifB (test f.Echo_Mode 2) do
    FSt.print echo (lit "     VAR:")
    FSt.push (lit "     VAR:")
  each f.Variables fun v => TecFile.headVar echo (test f.Echo_Mode 2) v
  ifB (test f.Echo_Mode 2) (FSt.print echo (lit "\n"))
  each f.Zones fun z => FSt.file (Zone.write_plt_head z)
  each f.Auxiliary fun e => FSt.file do
    W_FLOAT32 f799
    W_STRING e.1
    W_INT32 0
    W_STRING e.2

/-- the line that reports a zone — ordered_tec.cpp:783-786, 794-797 -/
def TecFile.zoneLine (echo : Bool) (i : Nat) (z : Zone) : M FSt Unit := do
  let b ← sprintf 100 (lit "--   write zone " ++ dec (toI32 (i + 1)) ++ lit ": " ++ cstr z.ZoneName ++ lit "   --")
  FSt.print echo (b ++ lit "\n")
  FSt.push b

/-- body of the loop of `TEC_FILE::write_plt_data` — ordered_tec.cpp:781-798.  The members of the zone read
here (`Echo_Mode`, `ZoneName`) are not changed by `TEC_ZONE::write_plt_data`. -/
def TecFile.dataZone (F : Fmt) (vars : List Str) (echo : Bool) (i : Nat) (z : Zone) : M FSt Unit := do
  ifB (test z.Echo_Mode 0) (TecFile.zoneLine echo i z)
  FSt.zone i (Zone.write_plt_data F.le vars echo)
  FSt.push (lit "#ZONE#")
  ifB (test z.Echo_Mode 1) (TecFile.zoneLine echo i z)

/-- `TEC_FILE::write_plt_data` — ordered_tec.cpp:775-800 -/
def TecFile.write_plt_data (F : Fmt) (echo : Bool) : M FSt Unit := do
  let s ← M.get
  eachIdx (TecFile.dataZone F s.f.Variables echo) 0 s.f.Zones

/-- the name of the file -/
def TecFile.path (f : TecFile) : Str := f.FilePath ++ lit "/" ++ f.FileName ++ lit ".plt"

/-- opening the file — ordered_tec.cpp:587-596, lion_snippets.hpp:23-41 -/
def TecFile.openFile (E : Env) : M FSt Unit := fun s =>
  let path := s.f.path
  if E.canOpen (cstr path) then
    .ok () { s with fs := fun p => if p = cstr path then some [] else s.fs p, of := [], isOpen := true }
  else
    let msg := cstr (lit "can not open file " ++ path)
    .err (.text msg) { s with f := { s.f with last_log := { s.f.last_log with Error := msg } } }

/-- `fclose(of)` -/
def TecFile.closeFile : M FSt Unit := M.modify fun s =>
  { s with fs := fun p => if p = cstr s.f.path then some s.of else s.fs p, isOpen := false }

/-- the first and the last line of the report — ordered_tec.cpp:597-613, 652-668 -/
def TecFile.fileLine (echo : Bool) (on stamp : Bool) (time : Str) : M FSt Unit := do
  let s ← M.get
  ifB on do
    ifB stamp do
      FSt.print echo (lit "[" ++ cstr time ++ lit "] ")
      FSt.push (lit "[" ++ time ++ lit "] ")
    FSt.print echo (lit "#### creat file " ++ cstr s.f.FilePath ++ lit "/" ++ cstr s.f.FileName ++ lit ".plt ####\n")
    if stamp then FSt.append (lit "#### creat file " ++ s.f.path ++ lit " ####")
    else FSt.push (lit "#### creat file " ++ s.f.path ++ lit " ####")

/-- a function that changes the log only -/
def FSt.log (g : FileLog → Out FileLog) : M FSt Unit := do
  let s ← M.get
  let l ← g s.f.last_log
  FSt.modLog fun _ => l

/-- the part of `write_plt` after the checks — ordered_tec.cpp:587-671 -/
def TecFile.write_body (E : Env) (echo : Bool) : M FSt Unit := do
  TecFile.openFile E
  let s ← M.get
  let mode := s.f.Echo_Mode
  TecFile.fileLine echo (test mode 0) (test mode 5) E.tBegin
  TecFile.write_plt_head echo
  FSt.file (W_FLOAT32 f357)
  ifB (test mode 3) do
    FSt.print echo (lit "-------------------------------------\n")
    FSt.push (lit "-------------------------------------")
  TecFile.write_plt_data E.fmt echo
  let s ← M.get
  FSt.modLog fun l => { l with Size := some s.of.length }
  ifB (test mode 4) do
    let b ← sprintf 100 (lit "     file size: " ++ fmtMB s.of.length ++ lit " MB")
    FSt.print echo (b ++ lit "\n")
    FSt.push b
  TecFile.closeFile
  FSt.modLog fun l => { l with UsingTime := some E.using_ }
  ifB (test mode 6) do
    let b ← sprintf 100 (lit "     using time : " ++ E.fmt.f5 E.using_ ++ lit " s")
    FSt.print echo (b ++ lit "\n")
    FSt.push b
  FSt.modLog fun l => { l with Time_End := E.tEnd }
  TecFile.fileLine echo (test mode 1) (test mode 5) E.tEnd
  FSt.log (FileLog.gen_json E.fmt)
  FSt.log (FileLog.gen_xml E.fmt)

/-- `TEC_FILE::write_plt` — ordered_tec.cpp:578-672 -/
def TecFile.write_plt (E : Env) (echo : Bool) : M FSt Unit := do
  M.modify fun s => { s with f := { s.f with last_log := FileLog.ofFile s.f } }
  FSt.modLog fun l => { l with Time_Begin := E.tBegin }
  TecFile.wrtie_plt_pre
  TecFile.write_body E echo

end Verif.Tec
