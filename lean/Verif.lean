import Verif.Base
import Verif.Lemmas.Answers
import Verif.Lemmas.ArcName
import Verif.Lemmas.AreaList
import Verif.Lemmas.AreafixCfg
import Verif.Lemmas.AreafixRun
import Verif.Lemmas.AreafixStep
import Verif.Lemmas.Base
import Verif.Lemmas.Bundle
import Verif.Lemmas.Bytes
import Verif.Lemmas.CrashExport
import Verif.Lemmas.CrashList
import Verif.Lemmas.CrashMaint
import Verif.Lemmas.CrashStats
import Verif.Lemmas.CrashWrite
import Verif.Lemmas.Depth
import Verif.Lemmas.Disk
import Verif.Lemmas.Dupe
import Verif.Lemmas.Echo
import Verif.Lemmas.Example
import Verif.Lemmas.Expr
import Verif.Lemmas.FilterVar
import Verif.Lemmas.Frame
import Verif.Lemmas.GetNode
import Verif.Lemmas.Jam
import Verif.Lemmas.JamBase
import Verif.Lemmas.JamKeep
import Verif.Lemmas.JamKeepHead
import Verif.Lemmas.JamLink
import Verif.Lemmas.JamLinks
import Verif.Lemmas.JamMaint
import Verif.Lemmas.JamRead
import Verif.Lemmas.JamScan
import Verif.Lemmas.JamShare
import Verif.Lemmas.Keep
import Verif.Lemmas.ListOut
import Verif.Lemmas.Main
import Verif.Lemmas.MemMsg
import Verif.Lemmas.Monad
import Verif.Lemmas.MsgBase
import Verif.Lemmas.MsgKeep
import Verif.Lemmas.MsgMaint
import Verif.Lemmas.MsgRescan
import Verif.Lemmas.Neat
import Verif.Lemmas.Net
import Verif.Lemmas.NetGraph
import Verif.Lemmas.NetLines
import Verif.Lemmas.NetNetmail
import Verif.Lemmas.NewArea
import Verif.Lemmas.Node4D
import Verif.Lemmas.Nodelist
import Verif.Lemmas.NodelistV7
import Verif.Lemmas.NodelistV7Data
import Verif.Lemmas.Notify
import Verif.Lemmas.Only
import Verif.Lemmas.Outbound
import Verif.Lemmas.Pack
import Verif.Lemmas.Pattern
import Verif.Lemmas.Pkt
import Verif.Lemmas.Play
import Verif.Lemmas.Post
import Verif.Lemmas.ReadBack
import Verif.Lemmas.ReadConfig
import Verif.Lemmas.ReadHazard
import Verif.Lemmas.ReadItem
import Verif.Lemmas.ReadNode
import Verif.Lemmas.ReadSwap
import Verif.Lemmas.Readdress
import Verif.Lemmas.Reply
import Verif.Lemmas.Request
import Verif.Lemmas.RequestArea
import Verif.Lemmas.RequestFinish
import Verif.Lemmas.RequestLine
import Verif.Lemmas.RequestText
import Verif.Lemmas.RequestWord
import Verif.Lemmas.Rescan
import Verif.Lemmas.Restart
import Verif.Lemmas.RestartBase
import Verif.Lemmas.RestartRun
import Verif.Lemmas.RestartStep
import Verif.Lemmas.Rfc
import Verif.Lemmas.Saved
import Verif.Lemmas.Says
import Verif.Lemmas.Scan
import Verif.Lemmas.SeenBy
import Verif.Lemmas.Sort
import Verif.Lemmas.Stats
import Verif.Lemmas.Tally
import Verif.Lemmas.ToolArgs
import Verif.Model.AreaMem
import Verif.Model.AreaMsg
import Verif.Model.Areafix
import Verif.Model.ArgMsg
import Verif.Model.Bundle
import Verif.Model.Bytes
import Verif.Model.Config
import Verif.Model.ConfigFile
import Verif.Model.Counters
import Verif.Model.CrashExport
import Verif.Model.CrashList
import Verif.Model.CrashMaint
import Verif.Model.CrashStats
import Verif.Model.CrashWrite
import Verif.Model.Date
import Verif.Model.Disk
import Verif.Model.Dupe
import Verif.Model.Expr
import Verif.Model.File
import Verif.Model.FileOps
import Verif.Model.Filter
import Verif.Model.FindUser
import Verif.Model.GetNode
import Verif.Model.Handle
import Verif.Model.Jam
import Verif.Model.JamMaint
import Verif.Model.JamOpen
import Verif.Model.JamShare
import Verif.Model.JbList
import Verif.Model.LastRead
import Verif.Model.ListDisk
import Verif.Model.ListOut
import Verif.Model.LogFile
import Verif.Model.LogWrite
import Verif.Model.Main
import Verif.Model.MbJam
import Verif.Model.MemMessage
import Verif.Model.MsgBase
import Verif.Model.MsgMaint
import Verif.Model.Net
import Verif.Model.Node4D
import Verif.Model.Nodelist
import Verif.Model.NodelistV7
import Verif.Model.Notify
import Verif.Model.Outbound
import Verif.Model.Pack
import Verif.Model.Pattern
import Verif.Model.Pkt
import Verif.Model.PrintArgs
import Verif.Model.ReadConfig
import Verif.Model.Rescan
import Verif.Model.Rfc
import Verif.Model.Scan
import Verif.Model.Search
import Verif.Model.Sort
import Verif.Model.Stats
import Verif.Model.Strings
import Verif.Model.SubPack
import Verif.Model.Tally
import Verif.Model.ToolArgs
import Verif.Model.Toss
import Verif.Model.Traffic
import Verif.Model.Types
import Verif.Model.WriteDisk
import Verif.Model.WriteIds
import Verif.Props.Answers
import Verif.Props.ArcName
import Verif.Props.AreaMem
import Verif.Props.AreaMsg
import Verif.Props.Areafix
import Verif.Props.ArgMsg
import Verif.Props.Attach
import Verif.Props.Bounce
import Verif.Props.Bundle
import Verif.Props.ConfigFile
import Verif.Props.Counters
import Verif.Props.CrashExport
import Verif.Props.CrashList
import Verif.Props.CrashMaint
import Verif.Props.CrashStats
import Verif.Props.CrashWrite
import Verif.Props.Date
import Verif.Props.Dupe
import Verif.Props.Echo
import Verif.Props.Expr
import Verif.Props.FileOps
import Verif.Props.Filter
import Verif.Props.FilterVar
import Verif.Props.FindUser
import Verif.Props.Flow
import Verif.Props.GetNode
import Verif.Props.Inbound
import Verif.Props.Jam
import Verif.Props.JamFlags
import Verif.Props.JamFormat
import Verif.Props.JamIndex
import Verif.Props.JamKeep
import Verif.Props.JamLink
import Verif.Props.JamMaint
import Verif.Props.JamOpen
import Verif.Props.JamScan
import Verif.Props.JamShare
import Verif.Props.JbList
import Verif.Props.LastRead
import Verif.Props.Leftover
import Verif.Props.ListDisk
import Verif.Props.ListOut
import Verif.Props.Log
import Verif.Props.LogFile
import Verif.Props.Main
import Verif.Props.MemText
import Verif.Props.MsgExport
import Verif.Props.MsgImport
import Verif.Props.MsgKeep
import Verif.Props.MsgLinks
import Verif.Props.MsgMaint
import Verif.Props.MsgRescan
import Verif.Props.Net
import Verif.Props.NetGraph
import Verif.Props.NetNetmail
import Verif.Props.Netmail
import Verif.Props.NewArea
import Verif.Props.Node4D
import Verif.Props.Nodelist
import Verif.Props.NodelistV7
import Verif.Props.Notify
import Verif.Props.Orphan
import Verif.Props.Outbound
import Verif.Props.Pack
import Verif.Props.PackEcho
import Verif.Props.Path
import Verif.Props.Pattern
import Verif.Props.Pkt
import Verif.Props.PktFile
import Verif.Props.PktList
import Verif.Props.PktRound
import Verif.Props.PktWitness
import Verif.Props.PrintArgs
import Verif.Props.ReadBack
import Verif.Props.ReadConfig
import Verif.Props.Readdress
import Verif.Props.Reply
import Verif.Props.Request
import Verif.Props.Rescan
import Verif.Props.Restart
import Verif.Props.Rfc
import Verif.Props.SafeDelete
import Verif.Props.Saved
import Verif.Props.Says
import Verif.Props.Scan
import Verif.Props.ScanOrder
import Verif.Props.Search
import Verif.Props.SeenBy
import Verif.Props.Stats
import Verif.Props.Strings
import Verif.Props.StripRe
import Verif.Props.SubPack
import Verif.Props.Tally
import Verif.Props.ToolArgs
import Verif.Props.Toss
import Verif.Props.Traffic
import Verif.Props.WriteArgs
import Verif.Props.WriteDisk
import Verif.Props.WriteIds
import Verif.Spec.Answers
import Verif.Spec.AreaList
import Verif.Spec.AreaMem
import Verif.Spec.AreaMsg
import Verif.Spec.Areafix
import Verif.Spec.ArgMsg
import Verif.Spec.Attach
import Verif.Spec.Bundle
import Verif.Spec.ConfigFile
import Verif.Spec.Counters
import Verif.Spec.CrashExport
import Verif.Spec.CrashList
import Verif.Spec.CrashMaint
import Verif.Spec.CrashStats
import Verif.Spec.CrashWrite
import Verif.Spec.Echo
import Verif.Spec.Expr
import Verif.Spec.Filter
import Verif.Spec.FilterVar
import Verif.Spec.FindUser
import Verif.Spec.GetNode
import Verif.Spec.Jam
import Verif.Spec.JamKeep
import Verif.Spec.JamLink
import Verif.Spec.JamMaint
import Verif.Spec.JamScan
import Verif.Spec.JamShare
import Verif.Spec.LastRead
import Verif.Spec.ListOut
import Verif.Spec.Log
import Verif.Spec.LogFile
import Verif.Spec.Main
import Verif.Spec.MsgBase
import Verif.Spec.MsgKeep
import Verif.Spec.MsgMaint
import Verif.Spec.MsgRescan
import Verif.Spec.Net
import Verif.Spec.NetGraph
import Verif.Spec.NetNetmail
import Verif.Spec.Netmail
import Verif.Spec.NewArea
import Verif.Spec.Node4D
import Verif.Spec.Nodelist
import Verif.Spec.NodelistV7
import Verif.Spec.Notify
import Verif.Spec.Orphan
import Verif.Spec.Outbound
import Verif.Spec.Pattern
import Verif.Spec.Pkt
import Verif.Spec.PrintArgs
import Verif.Spec.ReadBack
import Verif.Spec.ReadConfig
import Verif.Spec.ReadHazard
import Verif.Spec.Readdress
import Verif.Spec.Reply
import Verif.Spec.Request
import Verif.Spec.Rescan
import Verif.Spec.Restart
import Verif.Spec.Rfc
import Verif.Spec.Saved
import Verif.Spec.Says
import Verif.Spec.Scan
import Verif.Spec.Stats
import Verif.Spec.Strings
import Verif.Spec.StripRe
import Verif.Spec.Tally
import Verif.Spec.ToolArgs
import Verif.Spec.WriteDisk
import Verif.Spec.WriteIds
