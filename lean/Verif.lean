import Verif.Lemmas.Numbers
import Verif.Lemmas.Lists
import Verif.Props.Buffer
import Verif.Props.Token
import Verif.Props.Response
import Verif.Props.Command
import Verif.Props.Exec
import Verif.Props.Session
import Verif.Props.Start
import Verif.Props.SessionOps
import Verif.Props.Revert
import Verif.Props.Discovery
import Verif.Props.Handle
import Verif.Props.Utils
import Verif.Props.Identity
import Verif.Props.AtaUtil
import Verif.Props.Bits
import Verif.Props.Sg
import Verif.Props.Nvme
import Verif.Props.Text
import Verif.Lemmas.Asks
import Verif.Props.Factory
import Verif.Props.DriveInfo
import Verif.Props.Volume
import Verif.Props.Win
import Verif.Props.WinNvme
import Verif.Props.WinFactory
import Verif.Props.WinEnum
import Verif.Props.WinVolume
import Verif.Props.LinuxSystem
import Verif.Props.WinSystem
import Verif.Props.IdentityMap
import Verif.Props.TcgScsi
import Verif.Props.Tper
import Verif.Props.TperLinux
import Verif.Props.TperScsi
import Verif.Props.Init
import Verif.Props.HandleSystem
import Verif.Props.WinTcg
import Verif.Props.WinTcgNvme
import Verif.Props.WinHandle
import Verif.Props.Client
import Verif.Props.WinClient
import Verif.Props.Concurrent
import Verif.Props.ErrorMode
import Verif.Props.SharedDrive
import Verif.Props.SessionReuse
import Verif.Props.Looking
import Verif.Props.Develop
import Verif.Props.WinLooking
import Verif.Props.WinDevelop
import Verif.Props.Protected
import Verif.Props.WinProtected
import Verif.Props.Partition
import Verif.Props.Crash
import Verif.Props.WinCrash
import Verif.Props.Budget
import Verif.Props.WinBudget
import Verif.Props.Table
import Verif.Props.Keyless
import Verif.Props.Sessions
import Verif.Props.SmartSystem
import Verif.Props.Records
import Verif.Props.Recover
import Verif.Props.RecoverHistory
import Verif.Props.Utf16
import Verif.Props.TperWin
import Verif.Props.TperWinOpen
import Verif.Props.SessionsWin
import Verif.Props.TperHistory
