import Verif.Model.Records
import Verif.Spec.Sg
/-!
# Specification: what the kernel reads from and writes to the records of its ioctls

Offsets of include/uapi/linux/nvme_ioctl.h (`struct nvme_passthru_cmd`, `struct nvme_user_io`) and include/scsi/sg.h (`struct sg_io_hdr`) on
64-bit little-endian machines.
-/
namespace Dparm.Spec
open Dparm

/-- An unsigned number of the memory. -/
def num (m : Bytes) (off size : Nat) : Nat := leVal (slice m off size)

/-! ## NVMe -/

/-- `struct nvme_passthru_cmd`. -/
def passthruAt (m : Bytes) : KNvme :=
  { opcode := BitVec.ofNat _ (num m 0 1), flags := BitVec.ofNat _ (num m 1 1), rsvd1 := BitVec.ofNat _ (num m 2 2), nsid := BitVec.ofNat _ (num m 4 4),
    cdw2 := BitVec.ofNat _ (num m 8 4), cdw3 := BitVec.ofNat _ (num m 12 4), metadata := BitVec.ofNat _ (num m 16 8), addr := BitVec.ofNat _ (num m 24 8),
    metadataLen := BitVec.ofNat _ (num m 32 4), dataLen := BitVec.ofNat _ (num m 36 4), cdw10 := BitVec.ofNat _ (num m 40 4),
    cdw11 := BitVec.ofNat _ (num m 44 4), cdw12 := BitVec.ofNat _ (num m 48 4), cdw13 := BitVec.ofNat _ (num m 52 4), cdw14 := BitVec.ofNat _ (num m 56 4),
    cdw15 := BitVec.ofNat _ (num m 60 4), timeoutMs := BitVec.ofNat _ (num m 64 4), result := BitVec.ofNat _ (num m 68 4) }

/-- `struct nvme_user_io`. -/
def userIoAt (m : Bytes) : UserIo :=
  { opcode := BitVec.ofNat _ (num m 0 1), flags := BitVec.ofNat _ (num m 1 1), control := BitVec.ofNat _ (num m 2 2), nblocks := BitVec.ofNat _ (num m 4 2),
    rsvd := BitVec.ofNat _ (num m 6 2), metadata := BitVec.ofNat _ (num m 8 8), addr := BitVec.ofNat _ (num m 16 8), slba := BitVec.ofNat _ (num m 24 8),
    dsmgmt := BitVec.ofNat _ (num m 32 4), reftag := BitVec.ofNat _ (num m 36 4), apptag := BitVec.ofNat _ (num m 40 2),
    appmask := BitVec.ofNat _ (num m 42 2) }

/-- The kernel's NVMe ioctls: the number says how large the record is (bits 16 to 29), and the record must be there. Number 42h reads an I/O
record, the others a command record. -/
def kernelNv (q : RawNv) : NvM NvRep :=
  if q.record.length = q.op.toNat / 65536 % 16384 then
    if q.op = 0x40304E42 then OutT.ask (.io q.op (userIoAt q.record)) else OutT.ask (.cmd q.op (passthruAt q.record) q.buf)
  else OutT.ret { ret := 0, errno := 14 }

/-! ## SCSI generic -/

/-- `struct sg_io_hdr`, the fields the kernel reads. -/
structure SgHeader where
  interfaceId : Nat
  direction : Int
  cmdLen : Nat
  mxSbLen : Nat
  iovecCount : Nat
  dxferLen : Nat
  dxferp : BitVec 64
  cmdp : BitVec 64
  sbp : BitVec 64
  timeout : BitVec 32
  flags : Nat
  packId : BitVec 32
  usrPtr : Nat
deriving DecidableEq

/-- The header at the begin of the memory. -/
def sgHeaderAt (m : Bytes) : SgHeader :=
  { interfaceId := num m 0 4, direction := (BitVec.ofNat 32 (num m 4 4)).toInt, cmdLen := num m 8 1, mxSbLen := num m 9 1, iovecCount := num m 10 2,
    dxferLen := num m 12 4, dxferp := BitVec.ofNat _ (num m 16 8), cmdp := BitVec.ofNat _ (num m 24 8), sbp := BitVec.ofNat _ (num m 32 8),
    timeout := BitVec.ofNat _ (num m 40 4), flags := num m 44 4, packId := BitVec.ofNat _ (num m 48 4), usrPtr := num m 56 8 }

/-- The kernel's SG_IO (2285h): it accepts interface 'S' without scatter list and flags, runs the command whose CDB is at `cmdp` on the memory
at `dxferp`, and writes status and the other output fields (`rest`, bytes 65 to 83 of the header) and at most `mx_sb_len` sense bytes at
`sbp`; and for a transfer from the device at most `dxfer_len` bytes to that memory. -/
def kernelSg (p : SgPlaces) (rest : SgReq → SgRep → Bytes) (q : RawSg) : SgM RawSgRep :=
  let h := sgHeaderAt q.record
  if q.op = 0x2285 ∧ 88 ≤ q.record.length ∧ h.interfaceId = 83 ∧ h.iovecCount = 0 ∧ h.flags = 0 then do
    let k : SgReq :=
      { dir := h.direction, cdb := if h.cmdp = BitVec.ofNat 64 p.cmd then q.cmd.take h.cmdLen else [], mxSbLen := h.mxSbLen, dxferLen := h.dxferLen,
        dxferp := if h.dxferp = BitVec.ofNat 64 (q.mem.addr p) then q.mem else .raw h.dxferp.toNat, timeout := h.timeout, packId := h.packId }
    let a ← OutT.ask (.sgIo k)
    OutT.ret { err := a.err,
               record := copyAt (copyAt q.record 64 (a.status :: rest k a)) (h.sbp - BitVec.ofNat 64 p.record).toNat (a.sense.take h.mxSbLen),
               mem := match q.mem with
                 | .mem _ c => if h.direction = -3 then delivered c (a.data.take h.dxferLen) else c
                 | _ => [] }
  else OutT.ret { err := some (.errno 22), record := q.record }

end Dparm.Spec
