import Verif.Model.LinuxSystem
import Verif.Spec.Sg
/-!
# Vocabulary for what the whole program does to a Linux system, read off the system calls
-/
namespace Dparm
open Spec

/-- The CDB is an ATA pass-through command with this ATA command. -/
def isAtaCommand (cdb : Bytes) (command : Byte) : Bool :=
  match satDecode cdb with
  | some s => s.command == command
  | none => false

/-- NVMe Identify commands: descriptor and answer. -/
def nvmeIdentifies (tr : Prog.Trace LReq LRep) : List (Nat × NvRep) :=
  tr.filterMap (fun x => match x.1 with
    | .nvme fd _ rec _ => if rec.opcode = 0x06 then some (fd, x.2.nv) else none
    | _ => none)

/-- ATA IDENTIFY DEVICE commands: descriptor and answer. -/
def ataIdentifies (tr : Prog.Trace LReq LRep) : List (Nat × SgRep) :=
  tr.filterMap (fun x => match x.1 with
    | .sgIo fd q => if isAtaCommand q.cdb 0xec then some (fd, x.2.sg) else none
    | _ => none)

/-- Descriptors closed, in order. -/
def fdsClosed (tr : Prog.Trace LReq LRep) : List Nat :=
  tr.filterMap (fun x => match x.1 with
    | .os (.closeFd fd) => some fd
    | _ => none)

/-- Calls of `unix.Open`: path and answer. -/
def fdsOpened (tr : Prog.Trace LReq LRep) : List (Bytes × FRep) :=
  tr.filterMap (fun x => match x.1 with
    | .os (.openDev p) => some (p, x.2.os)
    | _ => none)

/-- Calls of `unix.Stat`: path and answer. -/
def nodesStated (tr : Prog.Trace LReq LRep) : List (Bytes × FRep) :=
  tr.filterMap (fun x => match x.1 with
    | .os (.stat p) => some (p, x.2.os)
    | _ => none)

/-- The calls of the factory itself, as the factory made them. -/
def ownCalls (tr : Prog.Trace LReq LRep) : Prog.Trace FReq FRep :=
  tr.filterMap (fun x => match x.1 with
    | .os q => some (q, x.2.os)
    | _ => none)

/-- The NVMe driver accepts a drive that answered its Identify command with `a`. -/
def NvmeAccepts (a : NvRep) : Prop := a.errno = 0 ∧ a.ret = 0

/-- The SG driver accepts a drive whose IDENTIFY DEVICE requests were answered with these: at least one went through, and
the low half of byte 2 of the sense area of the first one (zero before) is zero. -/
def SgAccepts : List SgRep → Prop
  | [] => False
  | a :: rest => (∃ r ∈ a :: rest, r.err = none) ∧ fixedKey (senseArea (zeros 32) a.sense) = 0

/-- An NVMe admin command that only reads: Identify, or Security Receive of protocol 1 for ComID 1 (cdw10: protocol in the
top byte, ComID in the two middle bytes). -/
def NvmeReadsOnly (rec : KNvme) : Prop :=
  rec.opcode = 0x06 ∨ (rec.opcode = 0x82 ∧ rec.cdw10.toNat = 1 * 2 ^ 24 + 1 * 2 ^ 8)

/-- An SG_IO request that only reads: the transfer is from the device, and the command is IDENTIFY DEVICE (0xec), TRUSTED
RECEIVE (0x5c, PIO data-in, protocol 1 in the features register, ComID 1 in LBA mid/high) or SECURITY PROTOCOL IN (0xa2) of
protocol 1 for ComID 1. -/
def SgReadsOnly (q : SgReq) : Prop :=
  q.dir = -3 ∧
  ((∃ s, satDecode q.cdb = some s ∧ s.command = 0xec ∧ s.protocol = 4 ∧ s.tDir = 1) ∨
   (∃ s, satDecode q.cdb = some s ∧ s.command = 0x5c ∧ s.protocol = 4 ∧ s.tDir = 1 ∧ s.feat = 1 ∧ s.lbam = 1 ∧ s.lbah = 0) ∨
   (q.cdb.take 4 = [0xa2, 1, 0, 1]))

/-- What opening drives may do: every ioctl that reaches a drive reads. -/
def ReadsOnly : LReq → Prop
  | .os _ => True
  | .place => True
  | .nvme _ op rec _ => op = 0xC0484E41 ∧ NvmeReadsOnly rec
  | .nvmeIo _ _ _ => False
  | .sgIo _ q => SgReadsOnly q

end Dparm
