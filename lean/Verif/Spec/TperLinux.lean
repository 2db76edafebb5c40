import Verif.Spec.Tper
import Verif.Spec.TcgSystem
import Verif.Spec.Discovery
/-!
# Specification: a conforming TCG drive behind the Linux NVMe driver

The reference drive of `Spec/Tper.lean` seen through the system calls: what the kernel answers to the admin
ioctls on one descriptor.
-/
namespace Dparm.Spec
open Dparm

/-- The ioctl was executed and the NVMe status is 0. -/
def NvmeOk (a : ARep) : Prop := a.sys.nv.errno = 0 ∧ a.sys.nv.ret = 0

/-- The admin ioctl on `fd` with record `k` and buffer `buf`. -/
abbrev adminIoctl (fd : Nat) (k : KNvme) (buf : Bytes) : AReq := .sys (.nvme fd 0xC0484E41 k (some buf))

/-- A Security Send or Security Receive of protocol 1 for the ComID, on the descriptor. -/
def TouchesTcg (fd : Nat) (comId : BitVec 16) : AReq → Prop
  | .sys (.nvme fd' _ k _) => fd' = fd ∧ (k.opcode = 0x81 ∨ k.opcode = 0x82) ∧ (securityOf k).secp = 1 ∧
      (securityOf k).spsp = comId.toNat
  | _ => False

/-- A Level 0 discovery response of an Opal drive with the base ComID: 2048 bytes; bytes 0 to 3 count what follows
them; bytes 32 to 47 (vendor specific) are zero; from byte 48 on follow descriptors, at least one of them of Opal 1
(0200h) or Opal 2 (0203h), and each such one has eight or more bytes and names the ComID in bytes 4 and 5. -/
def AnnouncesOpal (comId : BitVec 16) (data : Bytes) : Prop :=
  ∃ ds : List Bytes, data.length = 2048 ∧ slice data 32 16 = zeros 16 ∧ (∀ d ∈ ds, IsDescriptor d) ∧
    ds.flatten <+: data.drop 48 ∧ 48 + ds.flatten.length = beVal (data.take 4) + 4 ∧
    (Reports ds 0x200 ∨ Reports ds 0x203) ∧
    ∀ d ∈ ds, descCode d = 0x200 ∨ descCode d = 0x203 → 8 ≤ d.length ∧ beVal (slice d 4 2) = comId.toNat

/-- The environment behaves as the drive `dr` behind the descriptor `fd`; `st` gives the drive's state after each
history. Only Security Send and Receive of protocol 1 for its ComID concern it; it answers discovery (protocol 1,
ComID 1) at any time. -/
structure NvmeConforming (fd : Nat) (dr : Drive) (maxWait : Nat) (env : Prog.Env AReq ARep)
    (st : Prog.Trace AReq ARep → DriveState) : Prop where
  send : ∀ h k data p, IsNvmeSecurity true 1 dr.comId data.length k → data.length ≤ 4096 → 512 ∣ data.length →
    readPacket data = some p → p.comId = dr.comId.toNat →
    NvmeOk (env h (adminIoctl fd k data)) ∧
    ∃ tper w, tper < 2 ^ 32 ∧ w ≤ maxWait ∧
      st (h ++ [(adminIoctl fd k data, env h (adminIoctl fd k data))]) = { dr.perform tper (st h) p with wait := w }
  notReady : ∀ h k a w, IsNvmeSecurity false 1 dr.comId 2048 k → (st h).answer = some a → (st h).wait = w + 1 →
    NvmeOk (env h (adminIoctl fd k (zeros 2048))) ∧
    NotReady (env h (adminIoctl fd k (zeros 2048))).sys.nv.data ∧
    st (h ++ [(adminIoctl fd k (zeros 2048), env h (adminIoctl fd k (zeros 2048)))]) = { st h with wait := w }
  ready : ∀ h k a, IsNvmeSecurity false 1 dr.comId 2048 k → (st h).answer = some a → (st h).wait = 0 →
    NvmeOk (env h (adminIoctl fd k (zeros 2048))) ∧
    (∃ ts, a.Encodes ts ∧ CarriesTokens (env h (adminIoctl fd k (zeros 2048))).sys.nv.data ts) ∧
    st (h ++ [(adminIoctl fd k (zeros 2048), env h (adminIoctl fd k (zeros 2048)))]) = { st h with answer := none }
  discovery : ∀ h k, IsNvmeSecurity false 1 1 2048 k →
    NvmeOk (env h (adminIoctl fd k (zeros 2048))) ∧
    AnnouncesOpal dr.comId (env h (adminIoctl fd k (zeros 2048))).sys.nv.data
  other : ∀ h q, ¬ TouchesTcg fd dr.comId q → st (h ++ [(q, env h q)]) = st h
  reserved : dr.comId ≠ 1

/-- The node opens as the descriptor `fd`; NVMe Identify succeeds on it and SG_IO is refused. -/
structure NvmeNode (fd : Nat) (path : Bytes) (env : Prog.Env AReq ARep) : Prop where
  opens : ∀ h, (env h (.sys (.os (.openDev path)))).sys.os.err = none ∧ (env h (.sys (.os (.openDev path)))).sys.os.fd = fd
  identifies : ∀ h op k buf, k.opcode = 0x06 → NvmeOk (env h (.sys (.nvme fd op k buf)))
  noSg : ∀ h q, (env h (.sys (.sgIo fd q))).sys.sg.err ≠ none

/-- No two clock readings are more than 10 s apart. -/
def PromptSystem (env : Prog.Env AReq ARep) : Prop :=
  ∀ h h', (env h' .now).time ≤ (env h .now).time + 10000000000

end Dparm.Spec
