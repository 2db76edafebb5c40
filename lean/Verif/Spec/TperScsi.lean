import Verif.Spec.TperLinux
import Verif.Spec.LinuxSystem
/-!
# Specification: a conforming TCG drive behind the Linux SCSI generic driver

As `Spec/TperLinux.lean`, for SG_IO.
-/
namespace Dparm.Spec
open Dparm

/-- The SG_IO request on `fd`. -/
abbrev sgIoctl (fd : Nat) (q : SgReq) : AReq := .sys (.sgIo fd q)

/-- The request names this memory of the program. -/
def HasMemory (q : SgReq) (m : Bytes) : Prop := ∃ addr, q.dxferp = .mem addr m

/-- A SECURITY PROTOCOL IN or OUT command, or an ATA TRUSTED command, of protocol 1 for the ComID, on the descriptor. -/
def TouchesTcgScsi (fd : Nat) (comId : BitVec 16) : AReq → Prop
  | .sys (.sgIo fd' q) => fd' = fd ∧
      ((q.cdb[0]? = some 0xa2 ∨ q.cdb[0]? = some 0xb5) ∧ q.cdb[1]? = some 1 ∧ beVal (slice q.cdb 2 2) = comId.toNat ∨
       ∃ s, satDecode q.cdb = some s ∧ 0x5c ≤ s.command ∧ s.command ≤ 0x5f ∧ s.feat = 1 ∧
         s.lbam + 256 * s.lbah = comId.toNat)
  | _ => False

/-- The environment behaves as the drive `dr` behind the descriptor `fd` of a SCSI disk: SG_IO executes SECURITY PROTOCOL
IN and OUT, NVMe ioctls are refused. `st` gives the drive's state after each history. -/
structure ScsiConforming (fd : Nat) (dr : Drive) (maxWait : Nat) (env : Prog.Env AReq ARep)
    (st : Prog.Trace AReq ARep → DriveState) : Prop where
  send : ∀ h q data p, IsSecurityProtocol true 1 dr.comId data.length q → HasMemory q data → data.length ≤ 4096 →
    512 ∣ data.length → readPacket data = some p → p.comId = dr.comId.toNat →
    (env h (sgIoctl fd q)).sys.sg.err = none ∧
    ∃ tper w, tper < 2 ^ 32 ∧ w ≤ maxWait ∧
      st (h ++ [(sgIoctl fd q, env h (sgIoctl fd q))]) = { dr.perform tper (st h) p with wait := w }
  notReady : ∀ h q a w, IsSecurityProtocol false 1 dr.comId 2048 q → HasMemory q (zeros 2048) →
    (st h).answer = some a → (st h).wait = w + 1 →
    (env h (sgIoctl fd q)).sys.sg.err = none ∧ NotReady (env h (sgIoctl fd q)).sys.sg.data ∧
    st (h ++ [(sgIoctl fd q, env h (sgIoctl fd q))]) = { st h with wait := w }
  ready : ∀ h q a, IsSecurityProtocol false 1 dr.comId 2048 q → HasMemory q (zeros 2048) →
    (st h).answer = some a → (st h).wait = 0 →
    (env h (sgIoctl fd q)).sys.sg.err = none ∧
    (∃ ts, a.Encodes ts ∧ CarriesTokens (env h (sgIoctl fd q)).sys.sg.data ts) ∧
    st (h ++ [(sgIoctl fd q, env h (sgIoctl fd q))]) = { st h with answer := none }
  discovery : ∀ h q, IsSecurityProtocol false 1 1 2048 q → HasMemory q (zeros 2048) →
    (env h (sgIoctl fd q)).sys.sg.err = none ∧ AnnouncesOpal dr.comId (env h (sgIoctl fd q)).sys.sg.data
  other : ∀ h q, ¬ TouchesTcgScsi fd dr.comId q → st (h ++ [(q, env h q)]) = st h
  noNvme : ∀ h op k buf, (env h (.sys (.nvme fd op k buf))).sys.nv.errno ≠ 0
  reserved : dr.comId ≠ 1

/-- The node opens as the descriptor `fd` and IDENTIFY DEVICE succeeds on it, without sense data. -/
structure ScsiNode (fd : Nat) (path : Bytes) (env : Prog.Env AReq ARep) : Prop where
  opens : ∀ h, (env h (.sys (.os (.openDev path)))).sys.os.err = none ∧ (env h (.sys (.os (.openDev path)))).sys.os.fd = fd
  identifies : ∀ h q, isAtaCommand q.cdb 0xec = true → (env h (sgIoctl fd q)).sys.sg.err = none ∧
    (env h (sgIoctl fd q)).sys.sg.sense = []

end Dparm.Spec
