import Verif.Spec.TperScsi
import Verif.Spec.SharedDrive
import Verif.Model.Concurrent
/-!
# Specification: a drive that guards its credentials, seen through the system calls of a computer

Nothing is said about the answers of the system, about which descriptor leads to which drive, or about what a drive does with
commands other than packets for its ComID.
-/
namespace Dparm.Spec
open Dparm

/-- The CDB transfers data to a SCSI or ATA device as a message of security protocol 1 for the ComID: SECURITY PROTOCOL OUT, or
TRUSTED SEND (5Eh, 5Fh for DMA) in an ATA pass-through command. -/
def CdbSends (comId : BitVec 16) (cdb : Bytes) : Prop :=
  (cdb[0]? = some 0xb5 ∧ cdb[1]? = some 1 ∧ beVal (slice cdb 2 2) = comId.toNat) ∨
  ∃ s, satDecode cdb = some s ∧ (s.command = 0x5e ∨ s.command = 0x5f) ∧ s.feat = 1 ∧ s.lbam + 256 * s.lbah = comId.toNat

/-- The system call hands these bytes to a device as a message of security protocol 1 for the ComID: NVMe Security Send (81h), or
SG_IO with such a CDB and any direction but from-device. (An SG_IO that names a number instead of memory hands over nothing.) -/
def Hands (comId : BitVec 16) (data : Bytes) : AReq → Prop
  | .sys (.nvme _ _ k buf) => k.opcode = 0x81 ∧ (securityOf k).secp = 1 ∧ (securityOf k).spsp = comId.toNat ∧ buf = some data
  | .sys (.sgIo _ q) => q.dir ≠ -3 ∧ CdbSends comId q.cdb ∧ HasMemory q data
  | _ => False

/-- Credentials and open sessions are as before, or sessions were lost. -/
def Unmoved (s s' : DriveState) : Prop :=
  s'.sid = s.sid ∧ s'.reverts = s.reverts ∧ ∀ o ∈ s'.sessions, o ∈ s.sessions

/-- The drive `dr` is somewhere in the computer; `st` gives its state after each history of requests. A request either does not
move it, or hands it (in the sense of `hands`) a packet with its ComID, which it performs as the reference drive does. -/
def GuardedBy {Q R : Type} (hands : Bytes → Q → Prop) (dr : Drive) (st : Prog.Trace Q R → DriveState) : Prop :=
  ∀ h q r, Unmoved (st h) (st (h ++ [(q, r)])) ∨
    ∃ data p tper w, hands data q ∧ readPacket data = some p ∧ p.comId = dr.comId.toNat ∧
      st (h ++ [(q, r)]) = { dr.perform tper (st h) p with wait := w }

/-- The same, for the system calls of Linux. -/
def Guarded (dr : Drive) (st : Prog.Trace AReq ARep → DriveState) : Prop := GuardedBy (Hands dr.comId) dr st

/-- A wrong password: as PSID not the PSID, as SID none whose derived key is the SID credential. -/
def WrongPassword (dr : Drive) (sid : Bytes) (kdf : Kdf) (d : Device) (pw : Bytes) (psid : Bool) : Prop :=
  if psid then pw ≠ dr.psid else 0xd0 :: 0x20 :: kdf.key (pw.take 32) d.serial ≠ sid

/-- The bytes are a packet for the drive with a StartSession that presents the PSID of the drive as PSID, or the SID credential as
SID. -/
def ShowsKey (dr : Drive) (sid : Bytes) (data : Bytes) : Prop :=
  ∃ p c a, readPacket data = some p ∧ p.comId = dr.comId.toNat ∧ readCall p.tokens = some c ∧
    c.invoking = smUid ∧ c.method = mStartSession ∧ readStart c.args = some a ∧
    ((a.authority = some psidAuthority ∧ a.challenge = some dr.psid) ∨ (a.authority = some sidAuthority ∧ a.challenge = some sid))

/-- Whatever the device answers, nothing the call sends shows the key. -/
def _root_.Dparm.TcgCall.Keyless (dr : Drive) (sid : Bytes) (ctx : Ctx) (d : Device) (c : TcgCall) : Prop :=
  ∀ env hist, ∀ x ∈ (OutT.run env hist (c.prog ctx d)).2, ∀ dma data secs,
    x.1 = .sec true dma 1 dr.comId data secs → ¬ ShowsKey dr sid data

/-- The caller has not got the key: packets of its own do not show it, `RevertTPer` is called with wrong passwords only, and calls on
sessions do not send the key. -/
def _root_.Dparm.LinuxCall.Unprivileged (dr : Drive) (sid : Bytes) (ctx : Ctx) : LinuxCall → Prop
  | .security _ rw _ p c buf _ => ¬ (rw = true ∧ p = 1 ∧ c = dr.comId ∧ ShowsKey dr sid buf)
  | .revert _ d pw psid _ => WrongPassword dr sid ctx.kdf d pw psid
  | .tcg _ d c => c.Keyless dr sid ctx d
  | _ => True

end Dparm.Spec
