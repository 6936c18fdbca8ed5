import Verif.Base
import Verif.Model.Address
import Verif.Model.Bus
import Verif.Model.CStr
import Verif.Model.Calls
import Verif.Model.Codec
import Verif.Model.Ctype
import Verif.Model.Debug
import Verif.Model.Diag
import Verif.Model.DiagLink
import Verif.Model.Double
import Verif.Model.Events
import Verif.Model.Frame
import Verif.Model.Heap
import Verif.Model.Labels
import Verif.Model.Lifecycle
import Verif.Model.Locale
import Verif.Model.Main
import Verif.Model.Messages
import Verif.Model.Owned
import Verif.Model.ParseMain
import Verif.Model.ParseTools
import Verif.Model.Platform
import Verif.Model.Print
import Verif.Model.Process
import Verif.Model.Products
import Verif.Model.Reads
import Verif.Model.ReadsLink
import Verif.Model.Record
import Verif.Model.Session
import Verif.Model.SessionMem
import Verif.Model.Stamp
import Verif.Model.Statics
import Verif.Model.Termios
import Verif.Model.Threads
import Verif.Model.Tools
import Verif.Model.Trace
import Verif.Model.Transport
import Verif.Model.Unit
import Verif.Model.Value
import Verif.Model.VifTable
import Verif.Model.Xml
import Verif.Model.XmlMem
import Verif.Spec.Address
import Verif.Spec.Calls
import Verif.Spec.Charset
import Verif.Spec.Command
import Verif.Spec.Crash
import Verif.Spec.Ctype
import Verif.Spec.Date
import Verif.Spec.DateOrder
import Verif.Spec.Debug
import Verif.Spec.Deliver
import Verif.Spec.Delivered
import Verif.Spec.Diag
import Verif.Spec.Document
import Verif.Spec.Double
import Verif.Spec.Events
import Verif.Spec.Exact
import Verif.Spec.Handle
import Verif.Spec.Heap
import Verif.Spec.Labels
import Verif.Spec.Late
import Verif.Spec.Lifecycle
import Verif.Spec.Link
import Verif.Spec.Locale
import Verif.Spec.Lossy
import Verif.Spec.Main
import Verif.Spec.Messages
import Verif.Spec.Meter
import Verif.Spec.Num
import Verif.Spec.Order
import Verif.Spec.Owned
import Verif.Spec.ParseMain
import Verif.Spec.Poll
import Verif.Spec.Print
import Verif.Spec.Process
import Verif.Spec.Products
import Verif.Spec.Reads
import Verif.Spec.Records
import Verif.Spec.Scan
import Verif.Spec.Select
import Verif.Spec.Session
import Verif.Spec.SessionMem
import Verif.Spec.Stamp
import Verif.Spec.Statics
import Verif.Spec.Tame
import Verif.Spec.Termios
import Verif.Spec.Threads
import Verif.Spec.Tools
import Verif.Spec.Transport
import Verif.Spec.Units
import Verif.Spec.Value
import Verif.Spec.VifNames
import Verif.Spec.Xml
import Verif.Spec.XmlExact
import Verif.Spec.XmlInject
import Verif.Spec.XmlMem
import Verif.Lemmas.Address
import Verif.Lemmas.App
import Verif.Lemmas.Bcd
import Verif.Lemmas.CallSim
import Verif.Lemmas.Calls
import Verif.Lemmas.Chunks
import Verif.Lemmas.Costs
import Verif.Lemmas.Debug
import Verif.Lemmas.Diag
import Verif.Lemmas.DiagQuote
import Verif.Lemmas.Digits
import Verif.Lemmas.Double
import Verif.Lemmas.Exchange
import Verif.Lemmas.Fails
import Verif.Lemmas.Frame
import Verif.Lemmas.Framed
import Verif.Lemmas.Garbled
import Verif.Lemmas.Handle
import Verif.Lemmas.Locale
import Verif.Lemmas.LocaleExact
import Verif.Lemmas.Logged
import Verif.Lemmas.Main
import Verif.Lemmas.Messages
import Verif.Lemmas.MessagesIo
import Verif.Lemmas.MessagesRec
import Verif.Lemmas.Meter
import Verif.Lemmas.Num
import Verif.Lemmas.Owned
import Verif.Lemmas.OwnedExact
import Verif.Lemmas.Pack
import Verif.Lemmas.ProbeLog
import Verif.Lemmas.QuietCost
import Verif.Lemmas.Reads
import Verif.Lemmas.ReadsCost
import Verif.Lemmas.ReadsMore
import Verif.Lemmas.RecFree
import Verif.Lemmas.Record
import Verif.Lemmas.Rel
import Verif.Lemmas.Scan
import Verif.Lemmas.ScanDefined
import Verif.Lemmas.ScanExact
import Verif.Lemmas.ScanLog
import Verif.Lemmas.ScanRun
import Verif.Lemmas.ScanWire
import Verif.Lemmas.Select
import Verif.Lemmas.SelectWire
import Verif.Lemmas.Sendrecv
import Verif.Lemmas.Session
import Verif.Lemmas.SessionMem
import Verif.Lemmas.SrStep
import Verif.Lemmas.Stamp
import Verif.Lemmas.Statics
import Verif.Lemmas.StaticsXml
import Verif.Lemmas.Text
import Verif.Lemmas.Threads
import Verif.Lemmas.ThreadsCalls
import Verif.Lemmas.ThreadsExec
import Verif.Lemmas.Tiles
import Verif.Lemmas.ToolScan
import Verif.Lemmas.Tools
import Verif.Lemmas.ToolsRead
import Verif.Lemmas.ToolsWire
import Verif.Lemmas.Transport
import Verif.Lemmas.Units
import Verif.Lemmas.Value
import Verif.Lemmas.Xml
import Verif.Lemmas.XmlCalm
import Verif.Lemmas.XmlDoc
import Verif.Lemmas.XmlExact
import Verif.Lemmas.XmlExactNorm
import Verif.Lemmas.XmlForm
import Verif.Lemmas.XmlInject
import Verif.Lemmas.XmlMem
import Verif.Lemmas.XmlMemExact
import Verif.Lemmas.XmlNorm
import Verif.Lemmas.XmlOverflow
import Verif.Lemmas.XmlRecord
import Verif.Lemmas.XmlSame
import Verif.Lemmas.XmlWhole
import Verif.Props.Address
import Verif.Props.Calls
import Verif.Props.Charset
import Verif.Props.CmdLine
import Verif.Props.Codec
import Verif.Props.Command
import Verif.Props.Crash
import Verif.Props.Ctype
import Verif.Props.DateOrder
import Verif.Props.Debug
import Verif.Props.Diag
import Verif.Props.DiagBus
import Verif.Props.Double
import Verif.Props.Events
import Verif.Props.Header
import Verif.Props.Heap
import Verif.Props.Labels
import Verif.Props.Late
import Verif.Props.Lifecycle
import Verif.Props.Link
import Verif.Props.Locale
import Verif.Props.Lossy
import Verif.Props.Main
import Verif.Props.MainWire
import Verif.Props.Messages
import Verif.Props.NormExact
import Verif.Props.Order
import Verif.Props.Owned
import Verif.Props.OwnedExact
import Verif.Props.ParseMain
import Verif.Props.ParseTools
import Verif.Props.Platform
import Verif.Props.Poll
import Verif.Props.Print
import Verif.Props.Process
import Verif.Props.Products
import Verif.Props.Reads
import Verif.Props.Record
import Verif.Props.Refuted
import Verif.Props.Scan
import Verif.Props.ScanExact
import Verif.Props.Select
import Verif.Props.Sendrecv
import Verif.Props.SessionMem
import Verif.Props.Stamp
import Verif.Props.Statics
import Verif.Props.Tame
import Verif.Props.TameMain
import Verif.Props.Termios
import Verif.Props.Text
import Verif.Props.Threads
import Verif.Props.ToolCommands
import Verif.Props.ToolExact
import Verif.Props.ToolRaw
import Verif.Props.ToolRead
import Verif.Props.ToolScan
import Verif.Props.ToolScanExact
import Verif.Props.ToolSelect
import Verif.Props.Tools
import Verif.Props.Transport
import Verif.Props.Units
import Verif.Props.Value
import Verif.Props.VifNames
import Verif.Props.Xml
import Verif.Props.XmlExact
import Verif.Props.XmlInject
import Verif.Props.XmlMem
import Verif.Props.XmlMemExact
import Verif.Props.XmlNorm
