import Verif.Model.WinTcg
import Verif.Model.WinVolume
import Verif.Model.SessionHistory
/-!
# A client of the library on Windows: any sequence of API calls

The Windows counterpart of `Model/Client.lean`.
-/
namespace Dparm

/-- A call by a client (common/drive_factory.go:8-42). `i` counts the handles obtained so far; `w` are the addresses of the
buffers the call makes, `fuel` bounds the rounds of a loop Windows ends. -/
inductive WinClientCall where
  /-- `OpenByPath` (plat_win/drive_factory.go:37-51) -/
  | openPath (w : WinRun) (path : Bytes)
  /-- `EnumDrives` (plat_win/drive_factory.go:116-179) -/
  | enumDrives (w : WinRun) (fuel : Nat)
  /-- `EnumVolumes` (plat_win/volume.go:88-189) -/
  | enumVolumes (beyond : Nat → Byte) (fuel : Nat)
  /-- `OpenDriveByVolumePath` on an earlier result of `EnumVolumes` (plat_win/volume.go:70-81) -/
  | openVolume (w : WinRun) (vols : List WinVol) (path : Bytes)
  /-- `OpenDriveByPartition` (plat_win/volume.go:83-86) -/
  | openPartition (w : WinRun) (p : WinPart)
  /-- `Close` (common/drive_handle.go:95-100) -/
  | close (w : WinRun) (i : Nat)
  /-- `GetDrivingType`, `GetDriverName` (common/drive_handle.go:106-112) -/
  | drivingType (i : Nat)
  | driverName (i : Nat)
  /-- `AtaDoTaskFileCmd` (common/drive_handle.go:118-124) -/
  | ata (i : Nat) (rw dma : Bool) (tf : Tf) (data : Option Bytes) (secs : Nat)
  /-- `NvmeGetLogPage` (common/drive_handle.go:126-132) -/
  | logPage (i : Nat) (nsid logId : BitVec 32) (rae : Bool) (size : Nat)
  /-- `SecurityCommand` (common/drive_handle.go:134-173) -/
  | security (i : Nat) (rw dma : Bool) (protocol : Byte) (comId : BitVec 16) (buf : Bytes) (secs : Nat)
  /-- `TcgDiscovery0` (common/drive_handle.go:175-240) -/
  | discover (i : Nat)
  /-- `RevertTPer` of a TCG device `d` made from this handle at some earlier time (tcg/device_opal.go:105-130,
  device_enterprise.go:40-71) -/
  | revert (i : Nat) (d : Device) (pw : Bytes) (psid adm : Bool)
  /-- `GetDefaultPassword` of such a device (tcg/device_opal.go:157-178, device_enterprise.go:98-118) -/
  | defaultPassword (i : Nat) (d : Device)
  /-- a call on a session or such a device (tcg/session.go:31-238, tcg/device.go:174-223) -/
  | tcg (i : Nat) (d : Device) (c : TcgCall)

/-- What the client holds: handles in the order they were returned. -/
abbrev WinHeld := List WinOpened

/-- What a call leaves behind: what the client holds, and the drives the call reported (opened or enumerated). -/
structure WinReported where
  held : WinHeld
  drives : List WinOpened := []

/-- A call on the handle with number `i`. (There is no such call without the handle.) -/
def WinHeld.on (st : WinHeld) (i : Nat) (f : WinOpened → WAM WinReported) : WAM WinReported :=
  match st[i]? with
  | some o => f o
  | none => OutT.ret { held := st }

/-- A method of a handle that changes nothing of it (common/drive_handle.go:102-173). -/
def WinHeld.query (st : WinHeld) (i : Nat) {α : Type} (p : Handle → DrvM α) : WAM WinReported :=
  st.on i (fun o => do
    let _ ← o.method p
    OutT.ret { held := st })

/-- After opening: a handle just opened, if any. -/
def WinHeld.add (st : WinHeld) : Res WinOpened → WinReported
  | .ok o => { held := st ++ [o], drives := [o] }
  | _ => { held := st }

/-- The drives an enumeration reported. -/
def WinHeld.listed (st : WinHeld) : Res (List WinOpened) → WinReported
  | .ok os => { held := st, drives := os }
  | _ => { held := st }

/-- `OpenByPath` with the drivers of the library (plat_win/drive_factory.go:26-51). -/
def winOpenPath (w : WinRun) (path : Bytes) : WinM (Res WinOpened) := winOpenByPath w (winOpeners w.base w.base') path

/-- The call (common/drive_factory.go:8-42). -/
def WinClientCall.prog (conv : Wide → Bytes) (ctx : Ctx) (st : WinHeld) : WinClientCall → WAM WinReported
  | .openPath w path => do
    let r ← OutT.interp winCall (winOpenPath w path)
    OutT.ret (st.add r)
  | .enumDrives w fuel => do
    let r ← OutT.interp winCall (winEnumDrives w (winOpeners w.base w.base') conv fuel)
    OutT.ret (st.listed r)
  | .enumVolumes beyond fuel => do
    let _ ← OutT.interp winCall (winEnumVolumes conv beyond fuel)
    OutT.ret { held := st }
  | .openVolume w vols path => do
    match ← OutT.interp winCall (winOpenByVolumePath (winOpenPath w) vols path) with
    | some r => OutT.ret (st.add r)
    | none => OutT.ret { held := st }
  | .openPartition w p => do
    let r ← OutT.interp winCall (winOpenByPartition (winOpenPath w) p)
    OutT.ret (st.add r)
  | .close w i => st.on i (fun o => do
    let o ← OutT.interp winCall (o.close w)
    OutT.ret { held := st.set i o })
  | .drivingType i => st.query i Handle.getDrivingType
  | .driverName i => st.query i Handle.getDriverName
  | .ata i rw dma tf data secs => match data with
    | some b => st.query i (fun h => h.ataDoTaskFileCmd rw dma tf b secs)
    | none => st.query i (fun h => h.ataDoTaskFileNil rw dma tf secs)
  | .logPage i nsid logId rae size => st.query i (fun h => h.nvmeGetLogPage nsid logId rae size)
  | .security i rw dma protocol comId buf secs => st.query i (fun h => h.securityCommand rw dma protocol comId buf secs)
  | .discover i => st.on i (fun o => do
    let (h, _) ← o.method Handle.tcgDiscovery0
    OutT.ret { held := st.set i { o with handle := h } })
  | .revert i d pw psid adm => st.on i (fun o => do
    let _ ← tcgOnWindows o (d.revertTPer ctx pw psid adm)
    OutT.ret { held := st })
  | .defaultPassword i d => st.on i (fun o => do
    let _ ← tcgOnWindows o (d.getDefaultPassword ctx)
    OutT.ret { held := st })
  | .tcg i d c => st.on i (fun o => do
    let _ ← tcgOnWindows o (c.prog ctx d)
    OutT.ret { held := st })

/-- A sequence of calls. -/
structure WinClientRun where
  /-- what the client holds in the end -/
  held : WinHeld
  /-- for every call: the drives it reported, or that it panicked -/
  reports : List (Out (List WinOpened))
  /-- the exchanges with the system -/
  trace : Prog.Trace WAReq WARep

/-- What the client holds after a call, and what the call reported. A client may recover from a panic; it then holds what it
held before. -/
def WinHeld.afterCall (st : WinHeld) : Out WinReported → WinHeld × Out (List WinOpened)
  | .ret a => (a.held, .ret a.drives)
  | .panic => (st, .panic)
  | .running => (st, .running)

/-- A sequence of calls after the history `h`. -/
def winClientRun (conv : Wide → Bytes) (ctx : Ctx) (env : Prog.Env WAReq WARep) :
    List WinClientCall → WinHeld → Prog.Trace WAReq WARep → WinClientRun
  | [], st, _ => { held := st, reports := [], trace := [] }
  | c :: cs, st, h =>
    let r := OutT.run env h (c.prog conv ctx st)
    let x := st.afterCall r.1
    let rest := winClientRun conv ctx env cs x.1 (h ++ r.2)
    { held := rest.held, reports := x.2 :: rest.reports, trace := r.2 ++ rest.trace }

/-- The exchanges of each call of such a sequence. -/
def winClientSteps (conv : Wide → Bytes) (ctx : Ctx) (env : Prog.Env WAReq WARep) :
    List WinClientCall → WinHeld → Prog.Trace WAReq WARep → List (Prog.Trace WAReq WARep)
  | [], _, _ => []
  | c :: cs, st, h =>
    let r := OutT.run env h (c.prog conv ctx st)
    r.2 :: winClientSteps conv ctx env cs (st.afterCall r.1).1 (h ++ r.2)

end Dparm
