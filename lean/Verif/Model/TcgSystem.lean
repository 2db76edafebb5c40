import Verif.Model.LinuxSystem
import Verif.Model.Session
/-!
# TCG operations on a drive opened by the Linux factory: tcg/ on top of common/drive_handle.go and plat_linux/

`Model/Session.lean` leaves the drive (`DriveCommandHandler`, tcg/drive_handle.go:19-26), the clock and sleeping to the
environment. Here the drive is the handle the Linux factory returned.
-/
namespace Dparm

/-- What the whole program asks for: system calls, the time, sleeping. -/
inductive AReq where
  | sys (q : LReq)
  /-- `time.Now()` (tcg/device.go:176,188) -/
  | now
  /-- `time.Sleep` (tcg/device.go:189) -/
  | sleep (ns : Nat)
deriving DecidableEq

/-- Answers. -/
structure ARep where
  sys : LRep := {}
  time : Nat := 0

/-- Programs of the whole library with a clock. -/
abbrev AM (α : Type) := OutT AReq ARep α

/-- A system call of a layer below. -/
def sysCall (q : LReq) : AM LRep := do
  let r ← OutT.ask (.sys q)
  OutT.ret r.sys

/-- A method of the handle of an opened drive: it works on the driver that accepted the drive, if any. -/
def Opened.onHandle (o : Opened) {α : Type} (p : DrvM α) : FM α :=
  match o.source with
  | some (i, fd) => onDriver i fd p
  | none => onDriver 0 0 p

/-- The `DriveCommandHandler` of an opened drive (tcg/drive_handle.go:19-26, common/drive_handle.go:134-173), the clock
and sleeping (tcg/device.go:176,188-189). -/
def secOnLinux (o : Opened) : SecReq → AM SecRep
  | .sec rw dma p c data to =>
    OutT.interp sysCall (onLinux (o.onHandle (o.handle.securityCommand rw dma p c data to)))
  | .now => do
    let r ← OutT.ask .now
    OutT.ret { time := r.time }
  | .sleep ns => do
    let _ ← OutT.ask (.sleep ns)
    OutT.ret {}

/-- A TCG operation on an opened drive. -/
def tcgOnLinux (o : Opened) {α : Type} (p : TcgM α) : AM α := OutT.interp (secOnLinux o) p

/-- tcg/device.go:48-80 `NewTcgDevice` on an opened drive: discovery information and serial number are copied from the
handle (tcg/drive_handle.go:30-37, common/drive_handle.go:242-244). -/
def Opened.tcgDevice (o : Opened) : Device :=
  newTcgDevice o.handle.getTcgLevel0InfoAndSerial.1 o.handle.getTcgLevel0InfoAndSerial.2

end Dparm
