import Verif.Model.DriveHandle
import Verif.Model.Ioctl
/-!
# common/nvme/default.go, nvme/types.go `GetDataAddr`, plat_linux/nvme_driver.go

Trusted contract of the NVMe ioctls: the kernel reads the record it is handed and transfers at most `DataLen` bytes from or
to the memory at `Addr`; it writes to no other memory of the program except the record's `Result`.
-/
namespace Dparm

/-- common/nvme/default.go:29-45: the command of one attempt. `lsp`, `lsi`, `lpo` are 0 (lines 13, nvme/types.go:196).
`(dataSize >> 2) - 1` is computed on `int` and truncated. -/
def logPageCmd (nsid logId : BitVec 32) (rae : Bool) (size : Nat) (buf : Bytes) : NvmeCmd :=
  let numd : BitVec 32 := BitVec.ofInt 32 ((size / 4 : Nat) - 1)
  let numdh : BitVec 32 := (numd >>> 16) &&& 0xffff#32
  let numdl : BitVec 32 := numd &&& 0xffff#32
  { opcode := 0x02#8, nsid := nsid, dataBuffer := some buf, dataLen := BitVec.ofNat 32 size,
    cdw10 := logId ||| (numdl <<< 16) ||| ternary rae 0x8000#32 0#32 ||| (0#32 <<< 8),
    cdw11 := numdh ||| 0#32, cdw12 := 0#32, cdw13 := 0#32, cdw14 := 0#32 }

/-- common/nvme/default.go:17-49: the loop; `buf` is the content of `dataBuffer`, `last` is `rootError`. -/
def logPageLoop (nsid logId : BitVec 32) (rae : Bool) (size offset : Nat) (buf : Bytes) (last : Option GoErr) :
    DrvM (Bytes × Option GoErr) :=
  if h : offset ≥ size then OutT.ret (buf, last)
  else do
    let r ← OutT.ask (.nvmeAdmin (logPageCmd nsid logId rae size buf))
    let buf' := storeInto buf r.data
    match r.err with
    | none => OutT.ret (buf', none)
    | some e => logPageLoop nsid logId rae size (offset + min (size - offset) 4096) buf' (some e)
termination_by size - offset
decreasing_by omega

/-- common/nvme/default.go:9-50 `NvmeGetLogPageByAdminPassthru`; `make([]byte, dataSize)` panics on a negative size. -/
def nvmeLogPage (nsid logId : BitVec 32) (rae : Bool) (dataSize : Int) : DrvM (Bytes × Option GoErr) :=
  if dataSize < 0 then OutT.panic
  else logPageLoop nsid logId rae dataSize.toNat 0 (zeros dataSize.toNat) none

/-- plat_linux/nvme_types.go:18-37: the record the kernel reads. -/
structure KNvme where
  opcode : Byte
  flags : Byte
  rsvd1 : BitVec 16
  nsid : BitVec 32
  cdw2 : BitVec 32
  cdw3 : BitVec 32
  metadata : BitVec 64
  addr : BitVec 64
  metadataLen : BitVec 32
  dataLen : BitVec 32
  cdw10 : BitVec 32
  cdw11 : BitVec 32
  cdw12 : BitVec 32
  cdw13 : BitVec 32
  cdw14 : BitVec 32
  cdw15 : BitVec 32
  timeoutMs : BitVec 32
  result : BitVec 32
deriving DecidableEq, Repr

/-- nvme/types.go:232-245 and plat_linux/nvme_types.go:3-16 `UserIo` (the same fields; `Addr` 64 bits in both). -/
structure UserIo where
  opcode : Byte := 0
  flags : Byte := 0
  control : BitVec 16 := 0
  nblocks : BitVec 16 := 0
  rsvd : BitVec 16 := 0
  metadata : BitVec 64 := 0
  addr : BitVec 64 := 0
  slba : BitVec 64 := 0
  dsmgmt : BitVec 32 := 0
  reftag : BitVec 32 := 0
  apptag : BitVec 16 := 0
  appmask : BitVec 16 := 0
deriving DecidableEq, Repr

/-- The requests of the NVMe driver: an ioctl with a command record, together with the content of the Go buffer of the
caller's record, an ioctl with an I/O record, or closing the descriptor. -/
inductive NvReq where
  | cmd (op : BitVec 64) (rec : KNvme) (buf : Option Bytes)
  | io (op : BitVec 64) (rec : UserIo)
  | close
deriving DecidableEq, Repr

/-- The answer: return value and error number of the system call, bytes stored in the buffer. -/
structure NvRep where
  ret : Nat := 0
  errno : Nat := 0
  data : Bytes := []
deriving DecidableEq, Repr

/-- Programs of the NVMe driver. -/
abbrev NvM (α : Type) := OutT NvReq NvRep α

/-- nvme/types.go:467-475 `(*NvmeAdminCmd).GetDataAddr`; `bufAddr` is the address of `DataBuffer[0]`. -/
def adminDataAddr (c : NvmeCmd) (bufAddr : BitVec 64) : BitVec 64 :=
  if c.dataAddr ≠ 0#64 then c.dataAddr
  else match c.dataBuffer with
    | some (_ :: _) => bufAddr
    | _ => 0#64

/-- nvme/types.go:459-465 `(*PassthruCmd).GetDataAddr`: `&cmd.DataBuffer[0]` panics on an empty buffer. -/
def passthruDataAddr (c : NvmeCmd) (bufAddr : BitVec 64) : P (BitVec 64) :=
  if c.dataAddr ≠ 0#64 then .ret c.dataAddr
  else match c.dataBuffer with
    | some (_ :: _) => .ret bufAddr
    | _ => .panic

/-- plat_linux/nvme_driver.go:78-96: the record built by `DoNvmeAdminPassthru`. -/
def adminRecord (c : NvmeCmd) (bufAddr : BitVec 64) : KNvme :=
  { opcode := c.opcode, flags := c.flags, rsvd1 := c.rsvd1, nsid := c.nsid, cdw2 := c.cdw2, cdw3 := c.cdw3,
    metadata := c.metadata, addr := adminDataAddr c bufAddr, metadataLen := c.metadataLen, dataLen := c.dataLen,
    cdw10 := c.cdw10, cdw11 := c.cdw11, cdw12 := c.cdw12, cdw13 := c.cdw13, cdw14 := c.cdw14, cdw15 := c.cdw15,
    timeoutMs := c.timeoutMs, result := c.result }

/-- plat_linux/nvme_driver.go:102-119: the record built by `DoNvmeIoPassthru` (no assignment to `DataLen`). -/
def ioRecord (c : NvmeCmd) (addr : BitVec 64) : KNvme :=
  { opcode := c.opcode, flags := c.flags, rsvd1 := c.rsvd1, nsid := c.nsid, cdw2 := c.cdw2, cdw3 := c.cdw3,
    metadata := c.metadata, addr := addr, metadataLen := c.metadataLen, dataLen := 0,
    cdw10 := c.cdw10, cdw11 := c.cdw11, cdw12 := c.cdw12, cdw13 := c.cdw13, cdw14 := c.cdw14, cdw15 := c.cdw15,
    timeoutMs := c.timeoutMs, result := c.result }

/-- What the kernel does to the caller's buffer (contract above). A record with an explicit `DataAddr` names other
memory. -/
def NvRep.stored (r : NvRep) (c : NvmeCmd) (k : KNvme) : Option Bytes :=
  if c.dataAddr ≠ 0#64 then c.dataBuffer
  else c.dataBuffer.map (fun b => storeInto b (r.data.take k.dataLen.toNat))

/-- plat_linux/nvme_driver.go:77-99 `DoNvmeAdminPassthru`: error and content of `DataBuffer` afterwards. -/
def nvAdmin (bufAddr : BitVec 64) (c : NvmeCmd) : NvM (Option GoErr × Option Bytes) := do
  let r ← OutT.ask (.cmd NVME_IOCTL_ADMIN_CMD (adminRecord c bufAddr) c.dataBuffer)
  OutT.ret (ioctlErr r.ret r.errno, r.stored c (adminRecord c bufAddr))

/-- plat_linux/nvme_driver.go:101-122 `DoNvmeIoPassthru`. -/
def nvIoPassthru (bufAddr : BitVec 64) (c : NvmeCmd) : NvM (Option GoErr × Option Bytes) := do
  let a ← OutT.lift (passthruDataAddr c bufAddr)
  let r ← OutT.ask (.cmd NVME_IOCTL_IO_CMD (ioRecord c a) c.dataBuffer)
  OutT.ret (ioctlErr r.ret r.errno, r.stored c (ioRecord c a))

/-- plat_linux/nvme_driver.go:125-137: the record built by `DoNvmeIo`. -/
def userIoRecord (io : UserIo) : UserIo :=
  { opcode := io.opcode, flags := io.flags, control := io.control, nblocks := io.nblocks, rsvd := io.rsvd,
    metadata := io.metadata, addr := io.addr, slba := io.slba, dsmgmt := io.dsmgmt, reftag := io.reftag,
    apptag := io.apptag, appmask := io.appmask }

/-- plat_linux/nvme_driver.go:124-140 `DoNvmeIo`. -/
def nvIo (io : UserIo) : NvM (Option GoErr) := do
  let r ← OutT.ask (.io NVME_IOCTL_SUBMIT_IO (userIoRecord io))
  OutT.ret (ioctlErr r.ret r.errno)

/-- plat_linux/nvme_driver.go:60-67 (opcode nvme/types.go:167): the identify command. -/
def identifyCmd : NvmeCmd :=
  { opcode := 0x06#8, nsid := 0, dataBuffer := some (zeros 4096), dataLen := 4096, cdw10 := 1, cdw11 := 0 }

/-- plat_linux/nvme_driver.go:37-75 `openImpl` and `ReadIdentify`: the identity of the new handle, or the error. The
length check of line 45 cannot fail: the buffer was made with 4096 bytes. -/
def nvOpen (bufAddr : BitVec 64) : NvM (Res Bytes) := do
  let (e, d) ← nvAdmin bufAddr identifyCmd
  match e with
  | some e => OutT.ret (.err e)
  | none =>
    let id := d.getD []
    if id.length ≠ 4096 then OutT.ret (.err (.msg s!"invalid identity size: {id.length}")) else OutT.ret (.ok id)

/-- plat_linux/nvme_driver.go:142-168: the NVMe driver handle as the driver behind a drive handle, except
`NvmeGetLogPage`. `DrivingNvme` is 2 (common/driver.go:18-22). It has no ATA interface, so taskfile requests never reach
it. -/
def nvDriver0 (bufAddr : BitVec 64) (behind : Nat → Byte) : DrvReq → NvM DrvRep
  | .sec _ _ _ _ data _ => OutT.ret { err := some (.msg "not supported"), data := data, behind := behind }
  | .nvmeAdmin c => do
    let (e, d) ← nvAdmin bufAddr c
    OutT.ret { err := e, data := d.getD [], behind := behind }
  | .close => do
    let _ ← OutT.ask .close
    OutT.ret {}
  | .drivingType => OutT.ret { num := 2 }
  | .driverName => OutT.ret { data := "LinuxNvmeDriver".toUTF8.toList.map (fun b => BitVec.ofNat 8 b.toNat) }
  | .taskFile _ _ _ _ _ => OutT.panic
  | .taskNil _ _ _ _ => OutT.panic
  | .logPage _ _ _ _ => OutT.panic

/-- plat_linux/nvme_driver.go:162-164: `NvmeGetLogPage` runs the generic function on the handle itself. -/
def nvDriver (bufAddr : BitVec 64) (behind : Nat → Byte) : DrvReq → NvM DrvRep
  | .logPage nsid logId rae size => do
    let (d, e) ← OutT.interp (nvDriver0 bufAddr behind) (nvmeLogPage nsid logId rae size)
    OutT.ret { err := e, data := d, behind := behind }
  | q => nvDriver0 bufAddr behind q

end Dparm
