import Verif.Model.Sg
import Verif.Model.Nvme
/-!
# The records of the Linux drivers, byte by byte

`Model/Sg.lean` and `Model/Nvme.lean` hand the kernel a structured request. Here the same functions build the bytes of the Go records
(plat_linux/sg_types.go:3-32, nvme_types.go:3-39) the third argument of the `ioctl` points to, one assignment after the other, and read
status and sense data back from those bytes. Layout of Go structs on 64-bit little-endian platforms.
-/
namespace Dparm
open Spec (leBytes leVal)

/-- Offsets of the fields of a Go struct: each field, of size 1, 2, 4 or 8, is aligned to its size (see `goSizeof`, Model/Ioctl.lean). -/
def goOffsets (fields : List Nat) : List Nat := go 0 fields
where
  /-- the fields from offset `off` on -/
  go : Nat → List Nat → List Nat
    | _, [] => []
    | off, s :: r => (off + s - 1) / s * s :: go ((off + s - 1) / s * s + s) r

/-- The assignment of a number to a field (given by its index) of a struct in memory. -/
def setField (fields : List Nat) (m : Bytes) (w : Nat × Nat) : Bytes :=
  copyAt m ((goOffsets fields).getD w.1 0) (leBytes (fields.getD w.1 0) w.2)

/-- Assignments in order. -/
def setFields (fields : List Nat) (m : Bytes) (ws : List (Nat × Nat)) : Bytes := ws.foldl (setField fields) m

/-! ## NVMe -/

/-- An ioctl of the NVMe driver: number, memory of the record, and the content of the caller's data buffer. -/
structure RawNv where
  op : BitVec 64
  record : Bytes
  buf : Option Bytes := none

/-- plat_linux/nvme_driver.go:78-96: the assignments of `DoNvmeAdminPassthru`. -/
def adminBytes (c : NvmeCmd) (bufAddr : BitVec 64) : Bytes :=
  setFields passthruFields (zeros (goSizeof passthruFields))
    [(0, c.opcode.toNat), (1, c.flags.toNat), (2, c.rsvd1.toNat), (3, c.nsid.toNat), (4, c.cdw2.toNat), (5, c.cdw3.toNat),
     (6, c.metadata.toNat), (7, (adminDataAddr c bufAddr).toNat), (8, c.metadataLen.toNat), (9, c.dataLen.toNat), (10, c.cdw10.toNat),
     (11, c.cdw11.toNat), (12, c.cdw12.toNat), (13, c.cdw13.toNat), (14, c.cdw14.toNat), (15, c.cdw15.toNat), (16, c.timeoutMs.toNat),
     (17, c.result.toNat)]

/-- plat_linux/nvme_driver.go:102-119: the assignments of `DoNvmeIoPassthru` (none to `DataLen`). -/
def ioPassthruBytes (c : NvmeCmd) (addr : BitVec 64) : Bytes :=
  setFields passthruFields (zeros (goSizeof passthruFields))
    [(0, c.opcode.toNat), (1, c.flags.toNat), (2, c.rsvd1.toNat), (3, c.nsid.toNat), (4, c.cdw2.toNat), (5, c.cdw3.toNat),
     (6, c.metadata.toNat), (7, addr.toNat), (8, c.metadataLen.toNat), (10, c.cdw10.toNat),
     (11, c.cdw11.toNat), (12, c.cdw12.toNat), (13, c.cdw13.toNat), (14, c.cdw14.toNat), (15, c.cdw15.toNat), (16, c.timeoutMs.toNat),
     (17, c.result.toNat)]

/-- plat_linux/nvme_driver.go:125-137: the assignments of `DoNvmeIo`. -/
def userIoBytes (io : UserIo) : Bytes :=
  setFields userIoFields (zeros (goSizeof userIoFields))
    [(0, io.opcode.toNat), (1, io.flags.toNat), (2, io.control.toNat), (3, io.nblocks.toNat), (4, io.rsvd.toNat), (5, io.metadata.toNat),
     (6, io.addr.toNat), (7, io.slba.toNat), (8, io.dsmgmt.toNat), (9, io.reftag.toNat), (10, io.apptag.toNat), (11, io.appmask.toNat)]

/-- plat_linux/nvme_driver.go:77-99 `DoNvmeAdminPassthru`. The record's `Result` is not copied back to the caller. -/
def rawAdmin (bufAddr : BitVec 64) (c : NvmeCmd) : OutT RawNv NvRep (Option GoErr × Option Bytes) := do
  let r ← OutT.ask { op := NVME_IOCTL_ADMIN_CMD, record := adminBytes c bufAddr, buf := c.dataBuffer }
  OutT.ret (ioctlErr r.ret r.errno, r.stored c (adminRecord c bufAddr))

/-- plat_linux/nvme_driver.go:101-122 `DoNvmeIoPassthru`. -/
def rawIoPassthru (bufAddr : BitVec 64) (c : NvmeCmd) : OutT RawNv NvRep (Option GoErr × Option Bytes) := do
  let a ← OutT.lift (passthruDataAddr c bufAddr)
  let r ← OutT.ask { op := NVME_IOCTL_IO_CMD, record := ioPassthruBytes c a, buf := c.dataBuffer }
  OutT.ret (ioctlErr r.ret r.errno, r.stored c (ioRecord c a))

/-- plat_linux/nvme_driver.go:124-140 `DoNvmeIo`. -/
def rawIo (io : UserIo) : OutT RawNv NvRep (Option GoErr) := do
  let r ← OutT.ask { op := NVME_IOCTL_SUBMIT_IO, record := userIoBytes io }
  OutT.ret (ioctlErr r.ret r.errno)

/-! ## SCSI generic -/

/-- plat_linux/sg_types.go:3-26 `SG_IO_HDR`: field sizes (pointers and `uintptr` have 8 bytes). -/
def sgFields : List Nat := [4, 4, 1, 1, 2, 4, 8, 8, 8, 4, 4, 4, 8, 1, 1, 1, 1, 2, 2, 4, 4, 4]

/-- plat_linux/sg_types.go:28-32: `SenseData` follows the header and the four bytes of `Filter`. -/
def sgSenseOffset : Nat := goSizeof sgFields + 4

/-- plat_linux/sg_types.go:28-32: size of `SG_IO_HDR_WITH_SENSE_BUF`, a multiple of 8. -/
def sgRecordSize : Nat := (sgSenseOffset + 32 + 7) / 8 * 8

/-- Where the runtime put the record, the slice header `dataBuffer` and the CDB. -/
structure SgPlaces where
  record : Nat
  header : Nat
  cmd : Nat

/-- The number in `Dxferp`. -/
def Dxfer.addr (p : SgPlaces) : Dxfer → Nat
  | .mem a _ => a
  | .raw a => a
  | .sliceHeader => p.header

/-- An SG_IO ioctl: number, memory of the record, memory `Cmdp` points to, and what is at the address in `Dxferp`. -/
structure RawSg where
  op : Nat
  record : Bytes
  cmd : Bytes
  mem : Dxfer

/-- Its outcome: error, and the record and the memory at `Dxferp` afterwards. -/
structure RawSgRep where
  err : Option GoErr := none
  record : Bytes := []
  mem : Bytes := []

/-- plat_linux/sg_driver.go:95-102,135-142,176-183,193-209,223: the assignments of one round of `doTaskFileCmd` to the record `m`, in order. -/
def sgTaskRound (p : SgPlaces) (rw dma : Bool) (tf : Tf) (data : Option Bytes) (timeoutSecs dxferp : Nat) (m : Bytes) : Bytes :=
  setFields sgFields m
    [(0, 0x53), (9, timeoutSecs), (1, (BitVec.ofInt 32 (sgDir data.isSome rw)).toNat), (6, p.header), (3, 32), (8, p.record + sgSenseOffset),
     (11, (tfToLba tf).toNat), (2, (sgTaskCdb tf data.isSome rw dma).length), (7, p.cmd), (5, (data.getD []).length), (6, dxferp)]

/-- plat_linux/sg_driver.go:325-329,346-351,358-366,379: the same for `scsiSecurityCommand`. -/
def sgSecRound (p : SgPlaces) (rw : Bool) (protocol : Byte) (comId : BitVec 16) (data : Bytes) (timeoutSecs dxferp : Nat) (m : Bytes) : Bytes :=
  setFields sgFields m
    [(0, 0x53), (9, timeoutSecs % 2 ^ 32 * 1000), (1, (BitVec.ofInt 32 (if rw then -2 else -3)).toNat), (16, 32), (8, p.record + sgSenseOffset),
     (2, (sgSecCdb rw protocol comId data.length).length), (5, data.length), (7, p.cmd), (6, dxferp)]

/-- plat_linux/sg_driver.go:243-258,397-408: `Status` and `SenseData` of the record. -/
def sgBack (m : Bytes) : SgOut :=
  { status := m.getD ((goOffsets sgFields).getD 13 0) 0#8, sense := slice m sgSenseOffset 32 }

/-- plat_linux/sg_driver.go:212-220,368-376: the caller's buffer after the first ioctl (see `sgAfterFirst`). -/
def rawAfterFirst (rw : Bool) (data : Bytes) (ab : Option ABuf) (r : RawSgRep) : P Bytes :=
  match ab with
  | none => .ret r.mem
  | some ab =>
    if r.err = none && !rw then do
      let (_, d, _) ← (({ ab with mem := copyAt ab.mem ab.off r.mem } : ABuf).resetRead).read data.length
      .ret (storeInto data d)
    else .ret data

/-- The same for a buffer that may be nil. -/
def rawTaskAfter (rw : Bool) (data : Option Bytes) (ab : Option ABuf) (r : RawSgRep) : P (Option Bytes) :=
  match data with
  | none => .ret none
  | some d => do .ret (some (← rawAfterFirst rw d ab r))

/-- plat_linux/sg_driver.go:82-283 `doTaskFileCmd` on bytes. The second round (221-239) hands over the record with its own size in `Dxferp`;
after success the snapshot of the record taken before the ioctl (226) is copied back (235), which undoes what the kernel wrote; the data
copied back (237) is the snapshot of the data itself. -/
def rawTaskFile (p : SgPlaces) (rw dma : Bool) (tf : Tf) (data : Option Bytes) (addr base : Nat) (timeoutSecs : Nat) :
    OutT RawSg RawSgRep (Option GoErr × Tf × Option Bytes) := do
  let data := sgZeroOut rw data
  let (x, ab) ← OutT.lift (sgTaskMem rw data addr base)
  let r ← OutT.ask { op := 0x2285, record := sgTaskRound p rw dma tf data timeoutSecs (x.addr p) (zeros sgRecordSize),
                     cmd := sgTaskCdb tf data.isSome rw dma, mem := x }
  let data ← OutT.lift (rawTaskAfter rw data ab r)
  match r.err with
  | none =>
    let (e, tf) := sgTaskFinish none (sgBack r.record) tf
    OutT.ret (e, tf, data)
  | some _ =>
    let snapshot := sgTaskRound p rw dma tf data timeoutSecs sgRecordSize r.record
    let r2 ← OutT.ask { op := 0x2285, record := snapshot, cmd := sgTaskCdb tf data.isSome rw dma, mem := .raw sgRecordSize }
    match r2.err with
    | some e2 =>
      let (e, tf) := sgTaskFinish (some e2) (sgBack r2.record) tf
      OutT.ret (e, tf, data)
    | none =>
      let (e, tf) := sgTaskFinish none (sgBack snapshot) tf
      OutT.ret (e, tf, data)

/-- plat_linux/sg_driver.go:313-414 `scsiSecurityCommand` on bytes. -/
def rawSecurity (p : SgPlaces) (rw : Bool) (protocol : Byte) (comId : BitVec 16) (data : Bytes) (addr base : Nat) (timeoutSecs : Nat) :
    OutT RawSg RawSgRep (Option GoErr × Bytes) := do
  let data := if rw then data else zeros data.length
  let (x, ab) ← OutT.lift (sgFirstMem rw data addr base)
  let r ← OutT.ask { op := 0x2285, record := sgSecRound p rw protocol comId data timeoutSecs (x.addr p) (zeros sgRecordSize),
                     cmd := sgSecCdb rw protocol comId data.length, mem := x }
  let data ← OutT.lift (rawAfterFirst rw data ab r)
  match r.err with
  | none => OutT.ret (sgSecFinish none (sgBack r.record), data)
  | some _ =>
    let snapshot := sgSecRound p rw protocol comId data timeoutSecs sgRecordSize r.record
    let r2 ← OutT.ask { op := 0x2285, record := snapshot, cmd := sgSecCdb rw protocol comId data.length, mem := .raw sgRecordSize }
    match r2.err with
    | some e2 => OutT.ret (sgSecFinish (some e2) (sgBack r2.record), data)
    | none => OutT.ret (sgSecFinish none (sgBack snapshot), data)

end Dparm
