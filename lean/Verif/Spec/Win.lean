import Verif.Spec.Sg
import Verif.Model.Win
/-!
# Specification: the pass-through records of Windows

Layouts from ntddscsi.h on 64-bit Windows, read as byte offsets and little-endian numbers.
-/
namespace Dparm.Spec
open Dparm

/-- ATA_PASS_THROUGH_DIRECT / ATA_PASS_THROUGH_EX, 48 bytes. -/
structure AtaView where
  length : Nat
  flags : Nat
  address : Bytes
  transferLength : Nat
  timeout : Nat
  reserved : Bytes
  dataBuffer : Nat
  previous : Bytes
  current : Bytes
deriving DecidableEq, Repr

/-- Decoding by offset. -/
def ataView (p : Bytes) : AtaView :=
  { length := leVal (slice p 0 2), flags := leVal (slice p 2 2), address := slice p 4 4,
    transferLength := leVal (slice p 8 4), timeout := leVal (slice p 12 4), reserved := slice p 16 8,
    dataBuffer := leVal (slice p 24 8), previous := slice p 32 8, current := slice p 40 8 }

/-- The register image of a taskfile: features, sector count, the LBA bytes, device, command. -/
def currentRegs (tf : Tf) : Bytes :=
  [tf.lob.feat, tf.lob.nsect, tf.lob.lbal, tf.lob.lbam, tf.lob.lbah, tf.dev, tf.command, 0]

/-- The high-order registers of a 48-bit command. -/
def previousRegs (tf : Tf) : Bytes := [tf.hob.feat, tf.hob.nsect, tf.hob.lbal, tf.hob.lbam, tf.hob.lbah, 0, 0, 0]

/-- Data-in is flag 2, data-out flag 4, a 48-bit command flag 8. -/
def ataFlagsOf (rw : Bool) (tf : Tf) : Nat := (if rw then 4 else 2) + (if tf.isLba48 = 0 then 0 else 8)

/-- SCSI_PASS_THROUGH_DIRECT followed by a filler and 32 bytes of sense data, 96 bytes. -/
structure ScsiView where
  length : Nat
  status : Nat
  address : Bytes
  cdbLength : Nat
  senseLength : Nat
  dataIn : Nat
  transferLength : Nat
  timeout : Nat
  dataBuffer : Nat
  senseOffset : Nat
  cdb : Bytes
  sense : Bytes
deriving DecidableEq, Repr

/-- Decoding by offset; the CDB has the length the record announces. -/
def scsiView (p : Bytes) : ScsiView :=
  { length := leVal (slice p 0 2), status := leVal (slice p 2 1), address := slice p 3 3,
    cdbLength := leVal (slice p 6 1), senseLength := leVal (slice p 7 1), dataIn := leVal (slice p 8 1),
    transferLength := leVal (slice p 12 4), timeout := leVal (slice p 16 4), dataBuffer := leVal (slice p 24 8),
    senseOffset := leVal (slice p 32 4), cdb := slice p 36 (leVal (slice p 6 1)), sense := slice p 60 32 }

/-- The data a pass-through request hands to Windows: the memory of a direct request, or the part of a combined buffer
that begins at the offset in its `DataBuffer` field. -/
def payload : WReq → Option Bytes
  | .ioctl _ _ inb _ none => some (inb.drop (leVal (slice inb 24 8)))
  | .ioctl _ _ _ _ (some (_, c)) => some c
  | _ => none

/-- Memory after the kernel delivered `got` into it in a read of all of `m` through a 32-bit length field. -/
def receivedInto (m got : Bytes) : Bytes := delivered m (got.take (m.length % 2 ^ 32))

/-- Bit 0 (ERR) or bit 3 (DRQ). -/
def errOrDrq (b : Byte) : Prop := b.toNat % 2 = 1 ∨ b.toNat / 8 % 2 = 1

instance (b : Byte) : Decidable (errOrDrq b) := inferInstanceAs (Decidable (_ ∨ _))

/-- The three commands the Windows pass-through drivers offer: an ATA taskfile through the ATA driver, one through the
SCSI driver, a security protocol command through the SCSI driver (also used by the Windows NVMe driver). -/
inductive PassOp where
  | ataTask (tf : Tf)
  | scsiTask (tf : Tf)
  | scsiSecurity (protocol : Byte) (comId : BitVec 16)

/-- The call: handle, direction, buffer, address of the buffer, place of the aligned copy, timeout. -/
def PassOp.prog (op : PassOp) (h : Nat) (rw : Bool) (data : Bytes) (addr base timeoutSecs : Nat) :
    WinM (Option GoErr × Bytes) :=
  match op with
  | .ataTask tf => winAtaTask h rw tf data addr base timeoutSecs
  | .scsiTask tf => winScsiTask h rw tf data addr base timeoutSecs
  | .scsiSecurity p c => winScsiSec h rw p c data addr base timeoutSecs

/-- Control codes (ntddscsi.h): ATA_PASS_THROUGH_DIRECT, ATA_PASS_THROUGH, SCSI_PASS_THROUGH_DIRECT, SCSI_PASS_THROUGH;
and the size of the record. -/
def PassOp.directCode : PassOp → Nat
  | .ataTask _ => 0x4d030
  | _ => 0x4d014
def PassOp.bufferedCode : PassOp → Nat
  | .ataTask _ => 0x4d02c
  | _ => 0x4d004
def PassOp.recordSize : PassOp → Nat
  | .ataTask _ => 48
  | _ => 96

/-- What a SCSI record reports: an error exactly if the sense key (fixed format) is not 0, with the status and the first
18 bytes of sense data. -/
def scsiReport (p : Bytes) : Option GoErr :=
  if fixedKey (slice p 60 32) = 0 then none else some (.dparm (p.getD 2 0) (slice p 60 18))

/-- What an ATA status byte reports. -/
def ataReport (status : Byte) : Option GoErr := if errOrDrq status then some (.dparm status []) else none

end Dparm.Spec
