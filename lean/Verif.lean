import Verif.Props.ModuleSets
import Verif.Props.Mac
import Verif.Props.Memory
import Verif.Props.Wire
import Verif.Props.Results
import Verif.Props.IoLoop
import Verif.Props.Codes
import Verif.Props.Decode
import Verif.Props.Controller
import Verif.Props.Info
import Verif.Props.NoPanic
import Verif.Props.Power
import Verif.Props.Cli
import Verif.Props.CliCmd
import Verif.Props.System
import Verif.Props.CliSelect
import Verif.Props.CliStatus
import Verif.Props.CliWrite
import Verif.Props.CliPrint
import Verif.Props.Config
import Verif.Props.Handler
import Verif.Props.Scope
import Verif.Props.CliMain
import Verif.Props.CliLines
import Verif.Props.CliColumns
import Verif.Props.CliAbort
import Verif.Props.CliInfo
import Verif.Props.CliMonitors
import Verif.Props.CliReports
import Verif.Props.CliFlags
import Verif.Props.FlagText
import Verif.Props.Numbers
import Verif.Props.CliExit
import Verif.Props.Board
import Verif.Props.Bounds
import Verif.Props.Ends
import Verif.Props.ErrText
import Verif.Props.Grounds
import Verif.Props.MainText
import Verif.Props.Json
import Verif.Props.Versions
import Verif.Props.Schema
import Verif.Props.Timed
import Verif.Props.TimedSys
import Verif.Spec.SysBoard
import Verif.Lemmas.SysBoard
import Verif.Props.SysBoard
import Verif.Lemmas.Malformed
import Verif.Props.Malformed
import Verif.Lemmas.Probes
import Verif.Props.Probes
import Verif.Props.Hosts
import Verif.Props.Linear
import Verif.Props.Atomic
import Verif.Props.AtomicReads
import Verif.Props.HostsLinear
import Verif.Props.HostsAgain
import Verif.Props.LeftOut
import Verif.Props.Args
import Verif.Props.CliBoard
import Verif.Props.PowerReport
import Verif.Props.CliShows
import Verif.Props.GiveBack
import Verif.Props.WriteBack
import Verif.Props.Again
import Verif.Props.Apart
import Verif.Props.Running
import Verif.Props.Refused
import Verif.Props.Supply
import Verif.Props.Release
import Verif.Props.Pulse
