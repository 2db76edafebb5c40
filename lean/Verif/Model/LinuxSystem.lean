import Verif.Model.Factory
import Verif.Model.Nvme
import Verif.Model.Sg
/-!
# The Linux factory with its two drivers: plat_linux/drive_factory.go on top of nvme_driver.go and sg_driver.go

`Model/Factory.lean` leaves the drivers to the environment. Here the two drivers of `NewLinuxDriveFactory` are put in, so
that only the system calls, go-diskfs and the places where the Go runtime puts buffers are left to the environment.
-/
namespace Dparm

/-- System calls of the whole program. -/
inductive LReq where
  /-- a call of the factory itself, or `unix.Close` by a driver -/
  | os (q : FReq)
  /-- where the Go runtime puts the buffers of the next driver call -/
  | place
  /-- an NVMe ioctl with a command record; content of the Go buffer of the caller's record -/
  | nvme (fd : Nat) (op : BitVec 64) (rec : KNvme) (buf : Option Bytes)
  /-- an NVMe ioctl with an I/O record -/
  | nvmeIo (fd : Nat) (op : BitVec 64) (rec : UserIo)
  /-- `ioctl(fd, SG_IO, …)` -/
  | sgIo (fd : Nat) (r : SgReq)
deriving DecidableEq

/-- Answers; `addr` is the address of the caller's buffer, `base`, `base'` places of aligned buffers, `behind` the memory
behind the caller's buffer. -/
structure LRep where
  os : FRep := {}
  nv : NvRep := {}
  sg : SgRep := {}
  addr : Nat := 0
  base : Nat := 0
  base' : Nat := 0
  behind : Nat → Byte := fun _ => 0

/-- Programs of the whole system. -/
abbrev LM (α : Type) := OutT LReq LRep α

/-- The system calls of the NVMe driver (plat_linux/nvme_driver.go) for the descriptor `fd`. -/
def nvSys (fd : Nat) : NvReq → LM NvRep
  | .cmd op rec buf => do
    let r ← OutT.ask (.nvme fd op rec buf)
    OutT.ret r.nv
  | .io op rec => do
    let r ← OutT.ask (.nvmeIo fd op rec)
    OutT.ret r.nv
  | .close => do
    let _ ← OutT.ask (.os (.closeFd fd))
    OutT.ret {}

/-- The system calls of the SG driver (plat_linux/sg_driver.go) for the descriptor `fd`. -/
def sgSys (fd : Nat) : KReq → LM SgRep
  | .sgIo q => do
    let r ← OutT.ask (.sgIo fd q)
    OutT.ret r.sg
  | .close => do
    let _ ← OutT.ask (.os (.closeFd fd))
    OutT.ret {}

/-- `OpenByFd` of the NVMe driver (plat_linux/nvme_driver.go:33-57); the handle has the NVMe interface (142-168). A refused
descriptor stays open. -/
def tryNv (fd : Nat) : LM FRep := do
  let p ← OutT.ask .place
  match ← OutT.interp (nvSys fd) (nvOpen (BitVec.ofNat 64 p.addr)) with
  | .ok id => OutT.ret { driver := { ata := false, nvme := true, identity := id } }
  | .err e => OutT.ret { err := some e }
  | .panic => OutT.panic

/-- `OpenByFd` of the SG driver (plat_linux/sg_driver.go:56-80); the handle has the ATA interface (285-311). A refused
descriptor stays open. -/
def trySg (fd : Nat) : LM FRep := do
  let p ← OutT.ask .place
  match ← OutT.interp (sgSys fd) (sgOpen p.base p.base') with
  | .ok id => OutT.ret { driver := { ata := true, nvme := false, identity := id } }
  | .err e => OutT.ret { err := some e }
  | .panic => OutT.panic

/-- A method of the NVMe driver's handle (plat_linux/nvme_driver.go:77-168). -/
def drvNv (fd : Nat) (q : DrvReq) : LM FRep := do
  let p ← OutT.ask .place
  let r ← OutT.interp (nvSys fd) (nvDriver (BitVec.ofNat 64 p.addr) p.behind q)
  OutT.ret { drv := r }

/-- A method of the SG driver's handle (plat_linux/sg_driver.go:285-414). -/
def drvSg (fd : Nat) (q : DrvReq) : LM FRep := do
  let p ← OutT.ask .place
  let r ← OutT.interp (sgSys fd) (sgDriver p.addr p.base p.behind q)
  OutT.ret { drv := r }

/-- plat_linux/drive_factory.go:24-32: the calls of the factory with the driver list of `NewLinuxDriveFactory` (0 NVMe,
1 SCSI generic). -/
def linuxStep : FReq → LM FRep
  | .tryDriver 0 fd => tryNv fd
  | .tryDriver 1 fd => trySg fd
  | .tryDriver _ _ => OutT.panic
  | .drv 0 fd q => drvNv fd q
  | .drv 1 fd q => drvSg fd q
  | .drv _ _ _ => OutT.panic
  | q => do
    let r ← OutT.ask (.os q)
    OutT.ret r.os

/-- A factory function on the system. -/
def onLinux {α : Type} (p : FM α) : LM α := OutT.interp linuxStep p

/-- plat_linux/drive_factory.go:38-52 `OpenByPath` of the factory `NewSystemDriveFactory` makes (34-36). -/
def linuxOpenByPath (order : List (Bytes × Bytes) → List (Bytes × Bytes)) (path : Bytes) : LM (Res Opened) :=
  onLinux (openByPath 2 order path)

/-- plat_linux/drive_factory.go:88-121 `EnumDrives` of that factory. (A panic of a driver call would pass by the deferred
`Close` calls here; `linuxStep_returns` shows that there is none.) -/
def linuxEnumDrives (order : List (Bytes × Bytes) → List (Bytes × Bytes)) : LM (Res (List Opened)) :=
  onLinux (enumDrives 2 order)

/-- common/drive_handle.go:95-100 `Close` of a drive opened by it. -/
def linuxClose (o : Opened) : LM Opened := onLinux o.close

end Dparm
