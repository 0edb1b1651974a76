import Verif.Model.Base
import Verif.Model.Teleinfo
import Verif.Spec.EventStream
import Verif.Spec.Frame
import Verif.Proofs.Mem
import Verif.Proofs.Decoder
import Verif.Spec.Number
import Verif.Proofs.Queries
import Verif.Proofs.Grammar
import Verif.Props.Decoder
import Verif.Spec.Power
import Verif.Proofs.Power
import Verif.Props.Queries
import Verif.Props.Power
import Verif.Model.Config
import Verif.Spec.Settings
import Verif.Proofs.Crc
import Verif.Proofs.Config
import Verif.Spec.Bits
import Verif.Model.Store
import Verif.Proofs.Tool
import Verif.Props.Config
import Verif.Model.Json
import Verif.Spec.Json
import Verif.Proofs.Json
import Verif.Props.ConfigJson
import Verif.Model.Tic
import Verif.Proofs.Tic
import Verif.Spec.FrameJson
import Verif.Props.TicJson
import Verif.Spec.Push
import Verif.Props.Push
import Verif.Spec.Template
import Verif.Props.Template
import Verif.Props.Notify
import Verif.Props.NotifyRun
import Verif.Model.Sse
import Verif.Model.Sys
import Verif.Model.Device
import Verif.Spec.Stream
import Verif.Props.Sse
import Verif.Props.Device
import Verif.Props.Sys
import Verif.Props.Cpu
import Verif.Props.SysJson
import Verif.Props.Access
import Verif.Props.Period
import Verif.Props.Run
import Verif.Props.RunExact
import Verif.Spec.Fs
import Verif.Model.Erfs
import Verif.Model.Mkerfs
import Verif.Proofs.Mkerfs
import Verif.Proofs.Erfs
import Verif.Proofs.ErfsFile
import Verif.Props.Erfs
import Verif.Props.ErfsRaw
import Verif.Props.Extract
import Verif.Model.Cli
import Verif.Spec.Console
import Verif.Props.Cli
import Verif.Props.Web
import Verif.Props.Upload
import Verif.Props.Label
import Verif.Props.Session
import Verif.Model.Page
import Verif.Props.Page
import Verif.Model.Simu
import Verif.Props.Simu
import Verif.Model.Restrict
import Verif.Props.Restrict
import Verif.Model.Prep
import Verif.Props.Prep
import Verif.Model.Folder
import Verif.Model.Gauges
import Verif.Props.Chain
import Verif.Model.Script
import Verif.Props.Serve
import Verif.Props.ServeExact
import Verif.Props.Script
import Verif.Model.Clock
import Verif.Props.Clock
import Verif.Model.Timed
import Verif.Props.Timed
import Verif.Props.Form
import Verif.Props.EventStream
import Verif.Props.Gauges
import Verif.Props.CliSet
import Verif.Props.PowerCut
import Verif.Props.Influx
import Verif.Props.Amalg
import Verif.Props.Backup
import Verif.Props.Show
import Verif.Props.Dump
import Verif.Props.Ls
import Verif.Props.Install
import Verif.Model.Led
import Verif.Props.Led
import Verif.Model.Tabs
import Verif.Props.Tabs
import Verif.Spec.Utf8
import Verif.Model.Scan
import Verif.Props.Scan
import Verif.Spec.Radio
import Verif.Props.Softap
import Verif.Model.Static
import Verif.Props.Static
import Verif.Model.Notice
import Verif.Props.Notice
import Verif.Model.Buttons
import Verif.Props.Buttons
import Verif.Model.Term
import Verif.Props.Term
import Verif.Spec.Html
import Verif.Model.Table
import Verif.Props.Table
import Verif.Spec.Http
import Verif.Model.Http
import Verif.Props.Http
import Verif.Model.Asks
import Verif.Props.Asks
import Verif.Spec.Calendar
import Verif.Model.Date
import Verif.Props.Date
import Verif.Props.DateFrame
import Verif.Spec.Size
import Verif.Model.Size
import Verif.Props.Size
import Verif.Props.SizePage
import Verif.Spec.Clock
import Verif.Model.Time
import Verif.Props.Time
import Verif.Model.Ota
import Verif.Props.Ota
import Verif.Tests.Teleinfo
import Verif.Tests.Tic
import Verif.Tests.Device
import Verif.Model.EepromTool
import Verif.Props.EepromTool
import Verif.Model.Station
import Verif.Props.Station
import Verif.Model.Bar
import Verif.Props.Bar
import Verif.Model.Flashing
import Verif.Props.Flashing
import Verif.Model.Shell
import Verif.Props.Shell
import Verif.Model.Sketch
import Verif.Props.Sketch
import Verif.Model.Port
import Verif.Props.Port
import Verif.Spec.Folder
import Verif.Model.FsApi
import Verif.Props.FsApi
import Verif.Props.Service
import Verif.Spec.Binary
import Verif.Model.SimuClock
import Verif.Props.SimuClock
import Verif.Props.Guard
import Verif.Props.Edit
import Verif.Props.Bound
import Verif.Model.DevProxy
import Verif.Props.DevProxy
import Verif.Props.ErfsExact
import Verif.Props.PageExact
import Verif.Model.Dumps
import Verif.Proofs.Dumps
import Verif.Model.Srv
import Verif.Props.Srv
import Verif.Props.InstallExact
import Verif.Model.Follow
import Verif.Props.Follow
import Verif.Model.Cached
import Verif.Props.Cached
import Verif.Props.ChainExact
import Verif.Model.Source
import Verif.Props.Source
import Verif.Model.Version
import Verif.Props.Version
import Verif.Model.Search
import Verif.Props.Search
import Verif.Model.Panels
import Verif.Props.Panels
import Verif.Model.Uart
import Verif.Props.Uart
import Verif.Props.Rejoin
import Verif.Props.Listen
import Verif.Props.Safe
import Verif.Props.Keys
import Verif.Props.Twin
import Verif.Props.KeysLife
import Verif.Props.Apart
import Verif.Props.EspInfo
import Verif.Props.Replace
