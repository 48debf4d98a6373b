import Verif.Base
import Verif.Model.Api
import Verif.Model.Attempts
import Verif.Model.Client
import Verif.Model.D0
import Verif.Model.D1
import Verif.Model.D2
import Verif.Model.D3
import Verif.Model.Export
import Verif.Model.Fill
import Verif.Model.Flags
import Verif.Model.GetTime
import Verif.Model.Heap
import Verif.Model.Heat1
import Verif.Model.Heat2
import Verif.Model.Integration
import Verif.Model.PointTests
import Verif.Model.PointTests2
import Verif.Model.PointTests3
import Verif.Model.Pointwise
import Verif.Model.Printf
import Verif.Model.Program
import Verif.Model.Puts
import Verif.Model.PutsFaces
import Verif.Model.Reduction
import Verif.Model.SaveLoad
import Verif.Model.Scanf
import Verif.Model.SizeTests
import Verif.Model.Snippets
import Verif.Model.Tec.Basic
import Verif.Model.Tec.Data
import Verif.Model.Tec.File
import Verif.Model.Tec.Log
import Verif.Model.Tec.ReadPlt
import Verif.Model.Tec.ReadXml
import Verif.Model.Tec.Zone
import Verif.Model.TecTests
import Verif.Model.What
import Verif.Model.Xml.Attr
import Verif.Model.Xml.Clone
import Verif.Model.Xml.Collapse
import Verif.Model.Xml.Dom
import Verif.Model.Xml.Entities
import Verif.Model.Xml.ErrText
import Verif.Model.Xml.Float
import Verif.Model.Xml.Handle
import Verif.Model.Xml.InPlace
import Verif.Model.Xml.Lines
import Verif.Model.Xml.LoadError
import Verif.Model.Xml.Number
import Verif.Model.Xml.ParseMem
import Verif.Model.Xml.Pool
import Verif.Model.Xml.Printer
import Verif.Model.Xml.Query
import Verif.Model.Xml.Stack
import Verif.Model.Xml.StackDom
import Verif.Model.Xml.Stream
import Verif.Model.Xml.StreamNumber
import Verif.Model.Xml.Tiny
import Verif.Model.Xml.Visit
import Verif.Proof.Acc
import Verif.Proof.Access
import Verif.Proof.AllocAll
import Verif.Proof.AllocAll2
import Verif.Proof.AllocEdge
import Verif.Proof.AllocSize
import Verif.Proof.Attempts
import Verif.Proof.Attr1
import Verif.Proof.Attr2
import Verif.Proof.Attr3
import Verif.Proof.Attr4
import Verif.Proof.Client1
import Verif.Proof.Clone1
import Verif.Proof.Clone2
import Verif.Proof.Copy
import Verif.Proof.CopyAll
import Verif.Proof.CopyAny
import Verif.Proof.CopyFrame
import Verif.Proof.CopyObj
import Verif.Proof.CopyPlan
import Verif.Proof.CopyProps
import Verif.Proof.CopyRun
import Verif.Proof.Disp
import Verif.Proof.Export1
import Verif.Proof.Export2
import Verif.Proof.Export3
import Verif.Proof.Export4
import Verif.Proof.Fast
import Verif.Proof.Fill
import Verif.Proof.GetTime
import Verif.Proof.Handle
import Verif.Proof.HeapLemmas
import Verif.Proof.Heat1
import Verif.Proof.Heat2
import Verif.Proof.Heat2b
import Verif.Proof.Integration
import Verif.Proof.Json1
import Verif.Proof.Json2
import Verif.Proof.Json3
import Verif.Proof.Json4
import Verif.Proof.Json5
import Verif.Proof.Json6
import Verif.Proof.KernelRfl
import Verif.Proof.Layout
import Verif.Proof.Lifecycle
import Verif.Proof.LifecycleAll
import Verif.Proof.LifecycleExact
import Verif.Proof.LogRange
import Verif.Proof.Loops
import Verif.Proof.Mirror
import Verif.Proof.Number1
import Verif.Proof.Number2
import Verif.Proof.Obj
import Verif.Proof.PointTests
import Verif.Proof.PointTestsH
import Verif.Proof.PointTestsHS
import Verif.Proof.PointTestsX3
import Verif.Proof.PointTestsX5
import Verif.Proof.PointTestsX6
import Verif.Proof.PointTestsX7
import Verif.Proof.Pointwise
import Verif.Proof.Printf1
import Verif.Proof.Printf2
import Verif.Proof.Printf3
import Verif.Proof.Program
import Verif.Proof.ProgramContract
import Verif.Proof.Puts1
import Verif.Proof.Puts2
import Verif.Proof.PutsFaces
import Verif.Proof.Quiet
import Verif.Proof.Range
import Verif.Proof.ReadPlt
import Verif.Proof.ReadPlt2
import Verif.Proof.ReadPlt3
import Verif.Proof.ReadPlt4
import Verif.Proof.Reduce
import Verif.Proof.ReduceNone
import Verif.Proof.Reduction
import Verif.Proof.Rep1
import Verif.Proof.Rep2
import Verif.Proof.Rep3
import Verif.Proof.RoundTrip
import Verif.Proof.SaveLoad
import Verif.Proof.Scanf1
import Verif.Proof.Scanf2
import Verif.Proof.Scanf3
import Verif.Proof.ScanfTie
import Verif.Proof.Silent
import Verif.Proof.SizeTests
import Verif.Proof.Stray
import Verif.Proof.Tags
import Verif.Proof.Tec1
import Verif.Proof.Tec2
import Verif.Proof.Tec3
import Verif.Proof.Tec4
import Verif.Proof.Tec5
import Verif.Proof.TecAux
import Verif.Proof.TecBody
import Verif.Proof.TecCalc
import Verif.Proof.TecEcho
import Verif.Proof.TecFits
import Verif.Proof.TecFloat
import Verif.Proof.TecHead
import Verif.Proof.TecLit
import Verif.Proof.TecLog
import Verif.Proof.TecMinMax
import Verif.Proof.TecPreAll
import Verif.Proof.TecR1
import Verif.Proof.TecR2
import Verif.Proof.TecR3
import Verif.Proof.TecR4
import Verif.Proof.TecR5
import Verif.Proof.TecR6
import Verif.Proof.TecSizeAll
import Verif.Proof.TecSnug
import Verif.Proof.TecSnug2
import Verif.Proof.TecTests
import Verif.Proof.TecText
import Verif.Proof.TecValue
import Verif.Proof.TecW1
import Verif.Proof.TecW2
import Verif.Proof.TecW3
import Verif.Proof.TecW4
import Verif.Proof.TecW5
import Verif.Proof.TecW6
import Verif.Proof.Unchecked
import Verif.Proof.Valid
import Verif.Proof.Visit
import Verif.Proof.World
import Verif.Proof.XDom1
import Verif.Proof.XDom2
import Verif.Proof.XDom3
import Verif.Proof.XDom4
import Verif.Proof.XDom5
import Verif.Proof.XDom6
import Verif.Proof.XPool1
import Verif.Proof.XPool2
import Verif.Proof.XPool3
import Verif.Proof.XPool4
import Verif.Proof.Xml1
import Verif.Proof.Xml10
import Verif.Proof.Xml11
import Verif.Proof.Xml2
import Verif.Proof.Xml3
import Verif.Proof.Xml4
import Verif.Proof.Xml5
import Verif.Proof.Xml6
import Verif.Proof.Xml7
import Verif.Proof.Xml8
import Verif.Proof.Xml9
import Verif.Proof.XmlCollapse1
import Verif.Proof.XmlCollapse2
import Verif.Proof.XmlDoc1
import Verif.Proof.XmlDoc2
import Verif.Proof.XmlDoc3
import Verif.Proof.XmlDoc4
import Verif.Proof.XmlDoc5
import Verif.Proof.XmlDoc6
import Verif.Proof.XmlEntities
import Verif.Proof.XmlErrText
import Verif.Proof.XmlExact1
import Verif.Proof.XmlExact2
import Verif.Proof.XmlExact3
import Verif.Proof.XmlExact4
import Verif.Proof.XmlExact5
import Verif.Proof.XmlFloat1
import Verif.Proof.XmlFloat2
import Verif.Proof.XmlFloat3
import Verif.Proof.XmlFloatTable
import Verif.Proof.XmlForeign1
import Verif.Proof.XmlForeign2
import Verif.Proof.XmlLines
import Verif.Proof.XmlLines2
import Verif.Proof.XmlLoadError
import Verif.Proof.XmlParseMem
import Verif.Proof.XmlPlace1
import Verif.Proof.XmlPlace2
import Verif.Proof.XmlPlace3
import Verif.Proof.XmlPlace4
import Verif.Proof.XmlPlace5
import Verif.Proof.XmlStack
import Verif.Proof.XmlStackDom1
import Verif.Proof.XmlStackDom2
import Verif.Proof.XmlStackDom3
import Verif.Proof.XmlStream1
import Verif.Proof.XmlStream2
import Verif.Proof.XmlStream3
import Verif.Proof.XmlStream4
import Verif.Proof.XmlStreamNumber
import Verif.Proof.XmlTop
import Verif.Proof.XmlTop2
import Verif.Props.Access
import Verif.Props.AllocBeyond
import Verif.Props.Attempts
import Verif.Props.Client
import Verif.Props.Copy
import Verif.Props.CopyAll
import Verif.Props.CopyAny
import Verif.Props.CopyExact
import Verif.Props.Disp
import Verif.Props.Dom
import Verif.Props.Export
import Verif.Props.Fill
import Verif.Props.GetTime
import Verif.Props.Handle
import Verif.Props.Heat1
import Verif.Props.Heat2
import Verif.Props.Integration
import Verif.Props.Json
import Verif.Props.Lifecycle
import Verif.Props.LifecycleAll
import Verif.Props.LifecycleExact
import Verif.Props.Loops
import Verif.Props.LoopsAll
import Verif.Props.Misc
import Verif.Props.PointTests
import Verif.Props.PointTests2
import Verif.Props.PointTests3
import Verif.Props.PointTests4
import Verif.Props.PointTests5
import Verif.Props.Pointwise
import Verif.Props.Pool
import Verif.Props.Printf
import Verif.Props.Program
import Verif.Props.Puts
import Verif.Props.PutsFaces
import Verif.Props.RangeNone
import Verif.Props.RangeT
import Verif.Props.ReadPlt
import Verif.Props.Reduce
import Verif.Props.Reduction
import Verif.Props.RoundTrip
import Verif.Props.SaveLoad
import Verif.Props.Scanf
import Verif.Props.ScanfTie
import Verif.Props.Silent
import Verif.Props.SizeT
import Verif.Props.SizeTests
import Verif.Props.Snippets
import Verif.Props.Stray
import Verif.Props.TecAux
import Verif.Props.TecBody
import Verif.Props.TecBuf
import Verif.Props.TecBufAll
import Verif.Props.TecData
import Verif.Props.TecEcho
import Verif.Props.TecExact
import Verif.Props.TecFile
import Verif.Props.TecFits
import Verif.Props.TecHead
import Verif.Props.TecLog
import Verif.Props.TecMinMax
import Verif.Props.TecMirror
import Verif.Props.TecPreAll
import Verif.Props.TecReport
import Verif.Props.TecSize
import Verif.Props.TecSizeAll
import Verif.Props.TecSnug
import Verif.Props.TecTests
import Verif.Props.TecText
import Verif.Props.Verdict
import Verif.Props.Visit
import Verif.Props.Xml
import Verif.Props.XmlAgain
import Verif.Props.XmlAttr
import Verif.Props.XmlClone
import Verif.Props.XmlCollapse
import Verif.Props.XmlDoc
import Verif.Props.XmlEntities
import Verif.Props.XmlErrText
import Verif.Props.XmlExact
import Verif.Props.XmlFloat
import Verif.Props.XmlFloatQuery
import Verif.Props.XmlFloatTable
import Verif.Props.XmlForeign
import Verif.Props.XmlIndent
import Verif.Props.XmlLines
import Verif.Props.XmlLoadError
import Verif.Props.XmlNumber
import Verif.Props.XmlParseMem
import Verif.Props.XmlPlace
import Verif.Props.XmlQuery
import Verif.Props.XmlRefs
import Verif.Props.XmlStack
import Verif.Props.XmlStackDom
import Verif.Props.XmlStream
import Verif.Props.XmlStreamNumber
import Verif.Props.XmlTop
import Verif.Props.XmlTrip
import Verif.Spec.Array
import Verif.Spec.Attempts
import Verif.Spec.Attr
import Verif.Spec.Client
import Verif.Spec.Clone
import Verif.Spec.Copy
import Verif.Spec.CopyAll
import Verif.Spec.CopyAny
import Verif.Spec.Decimal
import Verif.Spec.Disp
import Verif.Spec.Dom
import Verif.Spec.Export
import Verif.Spec.Extremes
import Verif.Spec.Fill
import Verif.Spec.GetTime
import Verif.Spec.Handle
import Verif.Spec.Heat
import Verif.Spec.Index
import Verif.Spec.Json
import Verif.Spec.JsonLog
import Verif.Spec.LifecycleExact
import Verif.Spec.Loops
import Verif.Spec.Machine
import Verif.Spec.PointTests
import Verif.Spec.PointTests2
import Verif.Spec.PointTests3
import Verif.Spec.Pointwise
import Verif.Spec.Pool
import Verif.Spec.Program
import Verif.Spec.Puts
import Verif.Spec.ReadPlt
import Verif.Spec.RoundTrip
import Verif.Spec.Silent
import Verif.Spec.SizeTests
import Verif.Spec.Snippets
import Verif.Spec.Stray
import Verif.Spec.Tec
import Verif.Spec.TecAux
import Verif.Spec.TecBody
import Verif.Spec.TecCalc
import Verif.Spec.TecEcho
import Verif.Spec.TecFits
import Verif.Spec.TecHead
import Verif.Spec.TecMem
import Verif.Spec.TecMinMax
import Verif.Spec.TecMirror
import Verif.Spec.TecPre
import Verif.Spec.TecPreAll
import Verif.Spec.TecReport
import Verif.Spec.TecSizeAll
import Verif.Spec.TecSnug
import Verif.Spec.TecSplice
import Verif.Spec.TecTests
import Verif.Spec.TecText
import Verif.Spec.TecValue
import Verif.Spec.Verdict
import Verif.Spec.Visit
import Verif.Spec.Xml
import Verif.Spec.XmlAgain
import Verif.Spec.XmlBack
import Verif.Spec.XmlCollapse
import Verif.Spec.XmlDoc
import Verif.Spec.XmlEntities
import Verif.Spec.XmlErrText
import Verif.Spec.XmlExact
import Verif.Spec.XmlFloat
import Verif.Spec.XmlFloatTable
import Verif.Spec.XmlForeign
import Verif.Spec.XmlLines
import Verif.Spec.XmlLoadError
import Verif.Spec.XmlLog
import Verif.Spec.XmlNumber
import Verif.Spec.XmlPlace
import Verif.Spec.XmlStack
import Verif.Spec.XmlStackDom
import Verif.Spec.XmlStream
import Verif.Spec.XmlStreamNumber
import Verif.Spec.XmlTop
