import Verif.Model.HandleSystem
import Verif.Spec.TcgSystem
/-!
# Vocabulary: one ATA command of an opened drive as system calls
-/
namespace Dparm.Spec
open Dparm

/-- The command `q` on the descriptor `fd`: issued once if that succeeds, else a second time with the number 128 as data
address. The first answer, and the second if there is one. -/
inductive SgIoctls (fd : Nat) (q : SgReq) : Prog.Trace LReq LRep → LRep → Option LRep → Prop
  | once {r : LRep} (ok : r.sg.err = none) : SgIoctls fd q [(.sgIo fd q, r)] r none
  | twice {r r₂ : LRep} (bad : r.sg.err ≠ none) :
      SgIoctls fd q [(.sgIo fd q, r), (.sgIo fd { q with dxferp := .raw 128 }, r₂)] r (some r₂)

/-- What happens to the data of an ATA command: a nil buffer is no transfer; otherwise the ioctl's memory is aligned to 512
bytes; when writing, the caller's buffer and the memory hold zeros; when reading, the caller gets what the first ioctl
delivered, or if that failed possibly keeps his bytes. -/
def AtaData (rw : Bool) (q : SgReq) (r : LRep) : Option Bytes → Option Bytes → Prop
  | none, after => q.dxferp = .sliceHeader ∧ after = none
  | some b, after => ∃ addr m b', q.dxferp = .mem addr m ∧ addr % 512 = 0 ∧ after = some b' ∧
      if rw then m = zeros b.length ∧ b' = zeros b.length
      else (m = b ∨ m = zeros b.length) ∧ (r.sg.err = none → b' = delivered m r.sg.data) ∧
        (b' = delivered m r.sg.data ∨ b' = b)

/-- The error and the registers the caller gets. If both ioctls failed: the second error, and the registers of the sense
area as the two left it. Otherwise the first answer's sense area `s` decides: with a non-zero (fixed format) sense key an
error carrying status and sense, registers untouched; else no error and the registers found there. -/
def AtaResult (tf : Tf) (r : LRep) (r₂ : Option LRep) (e : Option GoErr) (tf' : Tf) : Prop :=
  let s := senseArea (zeros 32) r.sg.sense
  (∀ x, r₂ = some x → x.sg.err ≠ none → e = x.sg.err ∧ AtaReturn (senseArea s x.sg.sense) tf tf') ∧
  ((∀ x, r₂ = some x → x.sg.err = none) →
    (fixedKey s ≠ 0 → e = some (.dparm r.sg.status (s.take 18)) ∧ tf' = tf) ∧
    (fixedKey s = 0 → e = none ∧ AtaReturn s tf tf'))

/-- One ATA command on a SCSI generic drive: the system calls, and error, taskfile and buffer afterwards. -/
inductive AtaOnScsi (fd : Nat) (rw dma : Bool) (tf : Tf) (data : Option Bytes) (secs : Nat) :
    Prog.Trace LReq LRep → Option GoErr → Tf → Option Bytes → Prop
  | mk {pl : LRep} {q : SgReq} {u : Prog.Trace LReq LRep} {r : LRep} {r₂ : Option LRep} {e : Option GoErr} {tf' : Tf}
      {after : Option Bytes}
      (cmd : satDecode q.cdb = some (satOf tf data.isSome rw dma))
      (cdb : q.cdb.length = if tf.isLba48 = 0 then 12 else 16)
      (dir : q.dir = if data.isSome then (if rw then -2 else -3) else -1)
      (len : q.dxferLen = (data.getD []).length)
      (timeout : q.timeout.toNat = secs % 2 ^ 32)
      (io : SgIoctls fd q u r r₂)
      (mem : AtaData rw q r data after)
      (result : AtaResult tf r r₂ e tf') :
      AtaOnScsi fd rw dma tf data secs ((.place, pl) :: u) e tf' after

/-! ## NVMe log pages -/

/-- The record `k` is a Get Log Page command (NVM Express Base 1.4, 5.14) for the namespace, log and retain flag given, at
offset 0 and without log specific fields, for as many dwords as fit into `size` bytes; the kernel may move `size` bytes and
applies its default timeout. -/
structure IsGetLogPage (nsid logId : BitVec 32) (rae : Bool) (size : Nat) (k : KNvme) : Prop where
  opcode : k.opcode = 0x02
  nsid : k.nsid = nsid
  lid : k.cdw10.toNat % 256 = logId.toNat
  noLsp : k.cdw10.toNat / 256 % 128 = 0
  rae : k.cdw10.toNat / 32768 % 2 = if rae then 1 else 0
  dwords : k.cdw11.toNat % 65536 * 65536 + k.cdw10.toNat / 65536 + 1 = size / 4
  noLsi : k.cdw11.toNat / 65536 = 0
  offset : k.cdw12 = 0 ∧ k.cdw13 = 0
  others : k.cdw2 = 0 ∧ k.cdw3 = 0 ∧ k.cdw14 = 0 ∧ k.cdw15 = 0 ∧ k.flags = 0 ∧ k.metadata = 0 ∧ k.metadataLen = 0
  length : k.dataLen.toNat = size
  timeout : k.timeoutMs = 0

/-- Admin ioctls on `fd` with commands of the given kind, one after another into one buffer: its content before the first
and after the last. -/
inductive LogReads (fd : Nat) (cmd : KNvme → Prop) : Bytes → Prog.Trace LReq LRep → Bytes → Prop
  | nil {b : Bytes} : LogReads fd cmd b [] b
  | cons {b out : Bytes} {k : KNvme} {r : LRep} {t : Prog.Trace LReq LRep} (is : cmd k)
      (rest : LogReads fd cmd (delivered b r.nv.data) t out) :
      LogReads fd cmd b ((.nvme fd 0xC0484E41 k (some b), r) :: t) out

end Dparm.Spec
