import Verif.Model.HandleSystem
import Verif.Model.Volume
import Verif.Model.SessionHistory
/-!
# A client of the library on Linux: any sequence of API calls

The client keeps the drive handles it was given, in order, and calls the methods of `common.DriveFactory`,
`common.EnumVolumeContext` and `common.DriveHandle` (common/drive_factory.go:8-42) and the TCG operations on them.
`GetDriverHandle` (the bare driver) is left out.
-/
namespace Dparm

/-- A call by a client. `i` counts the handles obtained so far. -/
inductive LinuxCall where
  /-- `OpenByPath` (plat_linux/drive_factory.go:38-52) -/
  | openPath (path : Bytes)
  /-- `EnumDrives` (plat_linux/drive_factory.go:88-121) -/
  | enumDrives
  /-- `EnumVolumes` with this mount table (plat_linux/volume.go:89-180) -/
  | enumVolumes (m : Mounts)
  /-- `OpenDriveByVolumePath` on an earlier result of `EnumVolumes` (plat_linux/volume.go:73-82) -/
  | openVolume (vols : VolMap) (path : Bytes)
  /-- `OpenDriveByPartition` (plat_linux/volume.go:84-87) -/
  | openPartition (p : PartInfo)
  /-- `Close` (common/drive_handle.go:95-100) -/
  | close (i : Nat)
  /-- `GetDrivingType`, `GetDriverName` (common/drive_handle.go:106-112) -/
  | drivingType (i : Nat)
  | driverName (i : Nat)
  /-- `AtaDoTaskFileCmd` (common/drive_handle.go:118-124) -/
  | ata (i : Nat) (rw dma : Bool) (tf : Tf) (data : Option Bytes) (secs : Nat)
  /-- `NvmeGetLogPage` (common/drive_handle.go:126-132) -/
  | logPage (i : Nat) (nsid logId : BitVec 32) (rae : Bool) (size : Nat)
  /-- `SecurityCommand` (common/drive_handle.go:134-173) -/
  | security (i : Nat) (rw dma : Bool) (protocol : Byte) (comId : BitVec 16) (buf : Bytes) (secs : Nat)
  /-- `TcgDiscovery0` (common/drive_handle.go:175-240) -/
  | discover (i : Nat)
  /-- `RevertTPer` of a TCG device `d` made from this handle at some earlier time (tcg/device_opal.go:105-130,
  device_enterprise.go:40-71) -/
  | revert (i : Nat) (d : Device) (pw : Bytes) (psid adm : Bool)
  /-- `GetDefaultPassword` of such a device (tcg/device_opal.go:157-178, device_enterprise.go:98-118) -/
  | defaultPassword (i : Nat) (d : Device)
  /-- a call on a session or such a device (tcg/session.go:31-238, tcg/device.go:174-223) -/
  | tcg (i : Nat) (d : Device) (c : TcgCall)

/-- What the client holds: handles in the order they were returned. -/
abbrev Held := List Opened

/-- What a call leaves behind: what the client holds, and the drives the call reported (opened or enumerated). -/
structure Reported where
  held : Held
  drives : List Opened := []

/-- A call on the handle with number `i`. (There is no such call without the handle.) -/
def Held.on (st : Held) (i : Nat) (f : Opened → AM Reported) : AM Reported :=
  match st[i]? with
  | some o => f o
  | none => OutT.ret { held := st }

/-- A method of a handle that changes nothing of it (common/drive_handle.go:102-173). -/
def Held.query (st : Held) (i : Nat) {α : Type} (p : Handle → DrvM α) : AM Reported :=
  st.on i (fun o => do
    let _ ← OutT.interp sysCall (o.method p)
    OutT.ret { held := st })

/-- After opening: a handle just opened, if any. -/
def Held.add (st : Held) : Res Opened → Reported
  | .ok o => { held := st ++ [o], drives := [o] }
  | _ => { held := st }

/-- The drives an enumeration reported. -/
def Held.listed (st : Held) : Res (List Opened) → Reported
  | .ok os => { held := st, drives := os }
  | _ => { held := st }

/-- The call (common/drive_factory.go:8-42). -/
def LinuxCall.prog (order : List (Bytes × Bytes) → List (Bytes × Bytes)) (ctx : Ctx) (st : Held) : LinuxCall → AM Reported
  | .openPath path => do
    let r ← OutT.interp sysCall (onLinux (Dparm.openByPath 2 order path))
    OutT.ret (st.add r)
  | .enumDrives => do
    let r ← OutT.interp sysCall (onLinux (Dparm.enumDrives 2 order))
    OutT.ret (st.listed r)
  | .enumVolumes m => do
    let _ ← OutT.interp sysCall (onLinux (Dparm.enumVolumes m))
    OutT.ret { held := st }
  | .openVolume vols path => do
    match ← OutT.interp sysCall (onLinux (openDriveByVolumePath 2 order vols path)) with
    | some r => OutT.ret (st.add r)
    | none => OutT.ret { held := st }
  | .openPartition p => do
    let r ← OutT.interp sysCall (onLinux (openDriveByPartition 2 order p))
    OutT.ret (st.add r)
  | .close i => st.on i (fun o => do
    let o ← OutT.interp sysCall (onLinux o.close)
    OutT.ret { held := st.set i o })
  | .drivingType i => st.query i Handle.getDrivingType
  | .driverName i => st.query i Handle.getDriverName
  | .ata i rw dma tf data secs => match data with
    | some b => st.query i (fun h => h.ataDoTaskFileCmd rw dma tf b secs)
    | none => st.query i (fun h => h.ataDoTaskFileNil rw dma tf secs)
  | .logPage i nsid logId rae size => st.query i (fun h => h.nvmeGetLogPage nsid logId rae size)
  | .security i rw dma protocol comId buf secs => st.query i (fun h => h.securityCommand rw dma protocol comId buf secs)
  | .discover i => st.on i (fun o => do
    let (h, _) ← OutT.interp sysCall (o.method Handle.tcgDiscovery0)
    OutT.ret { held := st.set i { o with handle := h } })
  | .revert i d pw psid adm => st.on i (fun o => do
    let _ ← tcgOnLinux o (d.revertTPer ctx pw psid adm)
    OutT.ret { held := st })
  | .defaultPassword i d => st.on i (fun o => do
    let _ ← tcgOnLinux o (d.getDefaultPassword ctx)
    OutT.ret { held := st })
  | .tcg i d c => st.on i (fun o => do
    let _ ← tcgOnLinux o (c.prog ctx d)
    OutT.ret { held := st })

/-- A sequence of calls. -/
structure ClientRun where
  /-- what the client holds in the end -/
  held : Held
  /-- for every call: the drives it reported, or that it panicked -/
  reports : List (Out (List Opened))
  /-- the exchanges with the system -/
  trace : Prog.Trace AReq ARep

/-- What the client holds after a call, and what the call reported. A client may recover from a panic; it then holds what it
held before. -/
def Held.afterCall (st : Held) : Out Reported → Held × Out (List Opened)
  | .ret a => (a.held, .ret a.drives)
  | .panic => (st, .panic)
  | .running => (st, .running)

/-- A sequence of calls after the history `h`. -/
def clientRun (order : List (Bytes × Bytes) → List (Bytes × Bytes)) (ctx : Ctx) (env : Prog.Env AReq ARep) :
    List LinuxCall → Held → Prog.Trace AReq ARep → ClientRun
  | [], st, _ => { held := st, reports := [], trace := [] }
  | c :: cs, st, h =>
    let r := OutT.run env h (c.prog order ctx st)
    let x := st.afterCall r.1
    let rest := clientRun order ctx env cs x.1 (h ++ r.2)
    { held := rest.held, reports := x.2 :: rest.reports, trace := r.2 ++ rest.trace }

/-- The exchanges of each call of such a sequence. -/
def clientSteps (order : List (Bytes × Bytes) → List (Bytes × Bytes)) (ctx : Ctx) (env : Prog.Env AReq ARep) :
    List LinuxCall → Held → Prog.Trace AReq ARep → List (Prog.Trace AReq ARep)
  | [], _, _ => []
  | c :: cs, st, h =>
    let r := OutT.run env h (c.prog order ctx st)
    r.2 :: clientSteps order ctx env cs (st.afterCall r.1).1 (h ++ r.2)

end Dparm
