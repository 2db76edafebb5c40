import Verif.Spec.Win
import Verif.Spec.Volume
import Verif.Model.WinNvme
/-!
# Specification: records of the Windows NVMe drivers
-/
namespace Dparm.Spec
open Dparm

/-- A number written in decimal, without leading zeros. -/
structure DecimalOf (n : Nat) (text : Bytes) : Prop where
  digits : ∀ c ∈ text, Digit c
  nonempty : text ≠ []
  value : numberOf text = n
  short : text.head? = some 0x30 → text = [0x30]

/-- SRB_IO_CONTROL (ntddscsi.h, 28 bytes) followed by the NVMe pass-through record of the miniport drivers: the 64 bytes of
the submission queue entry at 52, the completion queue entry at 116, then direction, queue, lengths, and the data at
152. -/
structure MiniportView where
  headerLength : Nat
  signature : Bytes
  timeout : Nat
  controlCode : Nat
  returnCode : Nat
  length : Nat
  vendor : Bytes
  opcode : Byte
  /-- second byte of dword 0 (fused operation, PRP or SGL) and the command identifier -/
  dw0high : Bytes
  nsid : Nat
  /-- dwords 2, 3, metadata pointer, PRP entries -/
  dw2to9 : Bytes
  cdw10 : Nat
  cdw11 : Nat
  cdw12 : Nat
  cdw13 : Nat
  cdw14 : Nat
  cdw15 : Nat
  completion : Bytes
  direction : Nat
  queueId : Nat
  dataLength : Nat
  metaLength : Nat
  returnLength : Nat
  data : Bytes
deriving DecidableEq

/-- Decoding by offset. -/
def miniportView (p : Bytes) : MiniportView :=
  { headerLength := leVal (slice p 0 4), signature := slice p 4 8, timeout := leVal (slice p 12 4),
    controlCode := leVal (slice p 16 4), returnCode := leVal (slice p 20 4), length := leVal (slice p 24 4),
    vendor := slice p 28 24, opcode := p.getD 52 0, dw0high := slice p 53 3, nsid := leVal (slice p 56 4),
    dw2to9 := slice p 60 32, cdw10 := leVal (slice p 92 4), cdw11 := leVal (slice p 96 4),
    cdw12 := leVal (slice p 100 4), cdw13 := leVal (slice p 104 4), cdw14 := leVal (slice p 108 4),
    cdw15 := leVal (slice p 112 4), completion := slice p 116 16, direction := leVal (slice p 132 4),
    queueId := leVal (slice p 136 4), dataLength := leVal (slice p 140 4), metaLength := leVal (slice p 144 4),
    returnLength := leVal (slice p 148 4), data := slice p 152 4096 }

/-- The record every request starts from: only the fields given are not 0. -/
def miniportOf (opcode : Byte) (nsid cdw10 cdw11 cdw12 cdw13 cdw14 cdw15 : Nat) (data : Bytes) : MiniportView :=
  { headerLength := 28, signature := ascii "NvmeMini", timeout := 40, controlCode := 0xe0002000, returnCode := 0,
    length := 4220, vendor := zeros 24, opcode := opcode, dw0high := zeros 3, nsid := nsid, dw2to9 := zeros 32,
    cdw10 := cdw10, cdw11 := cdw11, cdw12 := cdw12, cdw13 := cdw13, cdw14 := cdw14, cdw15 := cdw15,
    completion := zeros 16, direction := 2, queueId := 0, dataLength := 4096, metaLength := 0, returnLength := 4248,
    data := data }

/-- Status field of an NVMe completion queue entry: bits 31:17 of dword 3. -/
def completionStatus (completion : Bytes) : Nat := leVal (slice completion 12 4) / 2 ^ 17

/-- The memory a command refers to: `DataLen` bytes at `DataAddr` if that is given, otherwise the buffer. -/
def referredTo (c : NvmeCmd) (mem : Nat → Byte) : Bytes :=
  if c.dataAddr = 0 then c.dataBuffer.getD [] else (List.range c.dataLen.toNat).map mem

/-- STORAGE_PROPERTY_QUERY with STORAGE_PROTOCOL_SPECIFIC_DATA (winioctl.h). -/
structure QueryView where
  propertyId : Nat
  queryType : Nat
  protocolType : Nat
  dataType : Nat
  requestValue : Nat
  requestSubValue : Nat
  dataOffset : Nat
  dataLength : Nat
  fixedReturn : Nat
  subValues : Bytes
  data : Bytes
deriving DecidableEq

/-- Decoding by offset. -/
def queryView (p : Bytes) : QueryView :=
  { propertyId := leVal (slice p 0 4), queryType := leVal (slice p 4 4), protocolType := leVal (slice p 8 4),
    dataType := leVal (slice p 12 4), requestValue := leVal (slice p 16 4), requestSubValue := leVal (slice p 20 4),
    dataOffset := leVal (slice p 24 4), dataLength := leVal (slice p 28 4), fixedReturn := leVal (slice p 32 4),
    subValues := slice p 36 12, data := p.drop 48 }

/-- Handles a run obtained from `CreateFile` (answered without error), and those it closed. -/
def handlesOpened (t : Prog.Trace WReq WRep) : List Nat :=
  t.filterMap (fun x => match x.1 with
    | .openDevice _ => if x.2.err = none then some x.2.handle else none
    | _ => none)
def handlesClosed (t : Prog.Trace WReq WRep) : List Nat :=
  t.filterMap (fun x => match x.1 with
    | .closeHandle h => some h
    | _ => none)

end Dparm.Spec
