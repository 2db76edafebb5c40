import Verif.Model.TcgSystem
/-!
# ATA and NVMe commands through a drive opened by the Linux factory

The methods of `common/drive_handle.go` that pass a command to the driver, on top of the drivers of `plat_linux`.
-/
namespace Dparm

/-- A method of an opened drive, down to the system calls. -/
def Opened.method (o : Opened) {α : Type} (p : Handle → DrvM α) : LM α := onLinux (o.onHandle (p o.handle))

/-- common/drive_handle.go:118-124 `AtaDoTaskFileCmd` on an opened drive: error, taskfile and buffer (`none`: nil)
afterwards. -/
def Opened.ataCommand (o : Opened) (rw dma : Bool) (tf : Tf) (data : Option Bytes) (timeoutSecs : Nat) :
    LM (Option GoErr × Tf × Option Bytes) :=
  match data with
  | some b => do
    let (e, tf, b) ← o.method (fun h => h.ataDoTaskFileCmd rw dma tf b timeoutSecs)
    OutT.ret (e, tf, some b)
  | none => do
    let (e, tf) ← o.method (fun h => h.ataDoTaskFileNil rw dma tf timeoutSecs)
    OutT.ret (e, tf, none)

/-- common/drive_handle.go:126-132 `NvmeGetLogPage` on an opened drive. -/
def Opened.logPage (o : Opened) (nsid logId : BitVec 32) (rae : Bool) (size : Nat) : LM (Option Bytes × Option GoErr) :=
  o.method (fun h => h.nvmeGetLogPage nsid logId rae size)

end Dparm
