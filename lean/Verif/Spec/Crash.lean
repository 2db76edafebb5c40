import Verif.Spec.TcgSystem
import Verif.Spec.Discovery
import Verif.Spec.Volume
import Verif.Model.Client
/-!
# Vocabulary for what can crash a Linux client
-/
namespace Dparm.Spec
open Dparm

/-- One reading of the discovery data from the drive with descriptor `fd`, and the answer: the exchanges of a security
receive of 2048 bytes with protocol 1 and ComID 1, by the NVMe driver (left) or the SCSI generic driver (right). -/
inductive DiscoveryRead (fd : Nat) : Prog.Trace AReq ARep → SecRep → Prop
  | nvme {k : KNvme} {a₁ a₂ a : ARep} (cmd : IsNvmeSecurity false 1 1 2048 k) :
      DiscoveryRead fd [(.sys .place, a₁), (.sys .place, a₂), (.sys (.nvme fd 0xC0484E41 k (some (zeros 2048))), a)]
        { err := nvmeVerdict a.sys.nv, data := delivered (zeros 2048) a.sys.nv.data, behind := a₂.sys.behind }
  | scsi {u : Prog.Trace AReq ARep} {rep : SecRep} (cmd : ScsiSecurity fd false 1 1 (zeros 2048) u rep) :
      DiscoveryRead fd u rep

/-- The history ends with a successful reading of discovery data that announces no more than the 2048 bytes there are, but
whose descriptors run over the announced end. -/
def EndsMalformed (t : Prog.Trace AReq ARep) : Prop :=
  ∃ before u fd rep, t = before ++ u ∧ DiscoveryRead fd u rep ∧ rep.err = none ∧
    announcedEnd rep.data ≤ 2048 ∧ Overruns rep.data 32 (announcedEnd rep.data)

/-- Closing a descriptor (with the runtime choosing addresses). -/
def JustCloses : AReq → Prop
  | .sys .place => True
  | .sys (.os (.closeFd _)) => True
  | _ => False

/-- The calls on sessions that judge an answer of the drive: not `Close`, which does nothing, and not `Exec`, which hands
the answer to the caller. -/
def judges : TcgCall → Bool
  | .close _ => false
  | .exec .. => false
  | _ => true

/-- Why a call of a client that holds `held` may panic, given the exchanges `t` of the call. `Close`, `NvmeGetLogPage`,
`Close` of a session and `Exec` are not in the list: they never do. -/
inductive CrashCause (held : Held) (t : Prog.Trace AReq ARep) : LinuxCall → Prop
  /-- a drive with malformed discovery data is opened -/
  | openPath {path} (bad : EndsMalformed t) : CrashCause held t (.openPath path)
  | openVolume {vols path} (bad : EndsMalformed t) : CrashCause held t (.openVolume vols path)
  | openPartition {p} (bad : EndsMalformed t) : CrashCause held t (.openPartition p)
  /-- … or met in the enumeration, which then still closes the drives opened before -/
  | enumDrives {s v} (cut : t = s ++ v) (bad : EndsMalformed s) (closes : ∀ x ∈ v, JustCloses x.1) :
      CrashCause held t .enumDrives
  /-- … or asked for it again through its handle -/
  | discover {i} (bad : EndsMalformed t) : CrashCause held t (.discover i)
  /-- the mount table names a partition with the number 0 of a drive with a partition table -/
  | enumVolumes {m : Mounts} {line parent digits : Bytes} {a : ARep} (listed : line ∈ m.lines.map (·.1))
      (name : PartitionName (deviceOf line) parent digits) (zero : numberOf digits = 0)
      (looked : (AReq.sys (.os (.diskfs parent)), a) ∈ t) (table : a.sys.os.table ≠ .none) : CrashCause held t (.enumVolumes m)
  /-- the handle has no driver (closed, or no driver accepted the drive) -/
  | drivingType {i o} (here : held[i]? = some o) (bare : o.handle.dh = none) (quiet : t = []) :
      CrashCause held t (.drivingType i)
  | driverName {i o} (here : held[i]? = some o) (bare : o.handle.dh = none) (quiet : t = []) :
      CrashCause held t (.driverName i)
  /-- a buffer without bytes (not nil) for a SCSI generic drive; nothing is sent -/
  | ata {i o fd rw dma tf secs} (here : held[i]? = some o) (drive : ScsiDrive o fd) (quiet : ∃ a, t = [(.sys .place, a)]) :
      CrashCause held t (.ata i rw dma tf (some []) secs)
  | security {i o fd rw dma p c secs} (here : held[i]? = some o) (drive : ScsiDrive o fd)
      (quiet : ∃ a, t = [(.sys .place, a)]) : CrashCause held t (.security i rw dma p c [] secs)
  /-- the drive's last answer is too short -/
  | revert {i o d pw psid adm fd r} (here : held[i]? = some o) (opal : d.kind = .opal1 ∨ d.kind = .opal2)
      (answer : (NvmeDrive o fd ∧ AnsweredOnNvme fd t r) ∨ (ScsiDrive o fd ∧ AnsweredOnScsi fd t r)) (short : TooShort r) :
      CrashCause held t (.revert i d pw psid adm)
  | defaultPassword {i o d fd r} (here : held[i]? = some o) (opal : d.kind = .opal1 ∨ d.kind = .opal2)
      (answer : (NvmeDrive o fd ∧ AnsweredOnNvme fd t r) ∨ (ScsiDrive o fd ∧ AnsweredOnScsi fd t r)) (short : TooShort r) :
      CrashCause held t (.defaultPassword i d)
  | tcg {i o d c fd r} (here : held[i]? = some o) (opal : d.kind = .opal1 ∨ d.kind = .opal2) (answered : judges c = true)
      (answer : (NvmeDrive o fd ∧ AnsweredOnNvme fd t r) ∨ (ScsiDrive o fd ∧ AnsweredOnScsi fd t r)) (short : TooShort r) :
      CrashCause held t (.tcg i d c)

end Dparm.Spec
