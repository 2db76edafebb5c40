import Verif.Model.WinFactory
import Verif.Model.Session
/-!
# Commands on a drive opened by the Windows factory: tcg/ and common/drive_handle.go on top of plat_win/

The Windows counterpart of `Model/TcgSystem.lean` and `Model/HandleSystem.lean`.
-/
namespace Dparm

/-- What the whole program asks for on Windows: calls of the Windows API, where a buffer is placed (no call), the time,
sleeping. -/
inductive WAReq where
  | sys (q : WReq)
  /-- the Go runtime's choice of addresses for the buffer of a driver call and for an aligned copy of it -/
  | place
  /-- `time.Now()` (tcg/device.go:176,188) -/
  | now
  /-- `time.Sleep` (tcg/device.go:189) -/
  | sleep (ns : Nat)
deriving DecidableEq

/-- Answers. `behind`: memory behind the buffer. -/
structure WARep where
  sys : WRep := {}
  addr : Nat := 0
  base : Nat := 0
  behind : Nat → Byte := fun _ => 0
  time : Nat := 0

/-- Programs of the whole library on Windows, with a clock. -/
abbrev WAM (α : Type) := OutT WAReq WARep α

/-- A call of the Windows API of a layer below. -/
def winCall (q : WReq) : WAM WRep := do
  let r ← OutT.ask (.sys q)
  OutT.ret r.sys

/-- A method of a driver handle (plat_win/*_driver.go), with its buffer wherever the runtime put it. -/
def winDrvPlaced (k : WinDrv) (q : DrvReq) : WAM DrvRep := do
  let p ← OutT.ask .place
  OutT.interp winCall (winDrv k p.addr p.base p.behind q)

/-- A method of the handle of an opened drive: it works on the driver that accepted the drive. Without one (`Dh` is nil)
the methods reach no driver (common/drive_handle.go:102-173). -/
def WinOpened.method (o : WinOpened) {α : Type} (p : Handle → DrvM α) : WAM α :=
  match o.drv with
  | some k => OutT.interp (winDrvPlaced k) (p o.handle)
  | none => OutT.interp (fun _ => OutT.panic) (p o.handle)

/-- The `DriveCommandHandler` of an opened drive (tcg/drive_handle.go:19-26, common/drive_handle.go:134-173), the clock
and sleeping (tcg/device.go:176,188-189). -/
def secOnWindows (o : WinOpened) : SecReq → WAM SecRep
  | .sec rw dma p c data to => o.method (fun h => h.securityCommand rw dma p c data to)
  | .now => do
    let r ← OutT.ask .now
    OutT.ret { time := r.time }
  | .sleep ns => do
    let _ ← OutT.ask (.sleep ns)
    OutT.ret {}

/-- A TCG operation on an opened drive. -/
def tcgOnWindows (o : WinOpened) {α : Type} (p : TcgM α) : WAM α := OutT.interp (secOnWindows o) p

/-- tcg/device.go:48-80 `NewTcgDevice` on an opened drive: discovery information and serial number are copied from the
handle (tcg/drive_handle.go:30-37, common/drive_handle.go:242-244). -/
def WinOpened.tcgDevice (o : WinOpened) : Device :=
  newTcgDevice o.handle.getTcgLevel0InfoAndSerial.1 o.handle.getTcgLevel0InfoAndSerial.2

/-- common/drive_handle.go:118-124 `AtaDoTaskFileCmd` on an opened drive: error, taskfile and buffer (`none`: nil)
afterwards. -/
def WinOpened.ataCommand (o : WinOpened) (rw dma : Bool) (tf : Tf) (data : Option Bytes) (timeoutSecs : Nat) :
    WAM (Option GoErr × Tf × Option Bytes) :=
  match data with
  | some b => do
    let (e, tf, b) ← o.method (fun h => h.ataDoTaskFileCmd rw dma tf b timeoutSecs)
    OutT.ret (e, tf, some b)
  | none => do
    let (e, tf) ← o.method (fun h => h.ataDoTaskFileNil rw dma tf timeoutSecs)
    OutT.ret (e, tf, none)

/-- common/drive_handle.go:126-132 `NvmeGetLogPage` on an opened drive. Simplified: the nil slice a Windows
driver returns beside an error appears as an empty one. -/
def WinOpened.logPage (o : WinOpened) (nsid logId : BitVec 32) (rae : Bool) (size : Nat) :
    WAM (Option Bytes × Option GoErr) :=
  o.method (fun h => h.nvmeGetLogPage nsid logId rae size)

end Dparm
