import Verif.Model.TcgSystem
import Verif.Spec.Nvme
import Verif.Spec.Sg
import Verif.Spec.Session
/-!
# Vocabulary for TCG operations on a Linux drive, read off the system calls
-/
namespace Dparm.Spec
open Dparm

/-- The requests of the TCG layer on a ComID: sends of whole 512-byte blocks (at most 120) and receives into 2048 zero
bytes, by protocol 1 without DMA and with 5 s timeout; sleeps of 25 ms. -/
def TcgAsk (comId : BitVec 16) : SecReq → Prop
  | .now => True
  | .sleep ns => ns = 25000000
  | .sec true dma p c data to => dma = false ∧ p = 1 ∧ c = comId ∧ to = 5 ∧
      512 ≤ data.length ∧ data.length ≤ 61440 ∧ 512 ∣ data.length
  | .sec false dma p c data to => dma = false ∧ p = 1 ∧ c = comId ∧ to = 5 ∧ data = zeros 2048

/-- A drive bound to the descriptor `fd` by the NVMe driver. -/
def NvmeDrive (o : Opened) (fd : Nat) : Prop :=
  o.source = some (0, fd) ∧ ∃ id, o.handle.dh = some { ata := false, nvme := true, identity := id }
/-- A drive bound to the descriptor `fd` by the SCSI generic driver. -/
def ScsiDrive (o : Opened) (fd : Nat) : Prop :=
  o.source = some (1, fd) ∧ ∃ id, o.handle.dh = some { ata := true, nvme := false, identity := id }
/-- A drive no driver accepted. -/
def NoDriver (o : Opened) : Prop := o.source = none ∧ o.handle.dh = none

/-- The error a caller sees for the answer of an NVMe ioctl: the error number, else a non-zero NVMe status, else none. -/
def nvmeVerdict (a : NvRep) : Option GoErr :=
  if a.errno ≠ 0 then some (.errno a.errno) else if a.ret ≠ 0 then some (.errno a.ret) else none

/-- The record `k` is an NVMe Security Send (`out`) or Security Receive command of the protocol and ComID, for a buffer of
`n` bytes; no namespace, the kernel's default timeout. -/
structure IsNvmeSecurity (out : Bool) (protocol : Byte) (comId : BitVec 16) (n : Nat) (k : KNvme) : Prop where
  opcode : k.opcode = if out then 0x81 else 0x82
  fields : securityOf k = { secp := protocol.toNat, spsp := comId.toNat, nssf := 0, tl := n }
  length : k.dataLen.toNat = n
  nsid : k.nsid = 0
  timeout : k.timeoutMs = 0

/-- A conversation of the TCG layer (left) as requests of the whole program on an NVMe drive with descriptor `fd` (right):
one admin ioctl (0xC0484E41) per security command, with the very buffer; the answer is what the ioctl said and delivered.
(`place` entries stand for the Go runtime choosing addresses; they are no system calls.) -/
inductive OnNvme (fd : Nat) : Prog.Trace SecReq SecRep → Prog.Trace AReq ARep → Prop
  | nil : OnNvme fd [] []
  | now {a : ARep} {T t} (rest : OnNvme fd T t) : OnNvme fd ((.now, { time := a.time }) :: T) ((.now, a) :: t)
  | sleep {ns : Nat} {a : ARep} {T t} (rest : OnNvme fd T t) : OnNvme fd ((.sleep ns, {}) :: T) ((.sleep ns, a) :: t)
  | sec {out dma : Bool} {p : Byte} {c : BitVec 16} {buf : Bytes} {to : Nat} {k : KNvme} {a₁ a₂ a : ARep} {T t}
      (cmd : IsNvmeSecurity out p c buf.length k) (rest : OnNvme fd T t) :
      OnNvme fd
        ((.sec out dma p c buf to,
          { err := nvmeVerdict a.sys.nv, data := delivered buf a.sys.nv.data, behind := a₂.sys.behind }) :: T)
        ((.sys .place, a₁) :: (.sys .place, a₂) :: (.sys (.nvme fd 0xC0484E41 k (some buf)), a) :: t)

/-- The payloads of the Security Send commands (opcode 81h) in a history, oldest first. -/
def nvmeSent (t : Prog.Trace AReq ARep) : List Bytes :=
  t.filterMap (fun x => match x.1 with
    | .sys (.nvme _ _ k buf) => if k.opcode = 0x81 then some (buf.getD []) else none
    | _ => none)

/-- What a TCG operation may do to an NVMe drive with descriptor `fd` on a ComID: Security Send, and Security Receive of
2048 bytes into a zeroed buffer, both of protocol 1; waiting 25 ms; reading the clock. -/
def TcgOnNvmeOnly (fd : Nat) (comId : BitVec 16) : AReq → Prop
  | .now => True
  | .sleep ns => ns = 25000000
  | .sys .place => True
  | .sys (.nvme fd' op k buf) => fd' = fd ∧ op = 0xC0484E41 ∧
      ((∃ b, buf = some b ∧ IsNvmeSecurity true 1 comId b.length k) ∨
       (buf = some (zeros 2048) ∧ IsNvmeSecurity false 1 comId 2048 k))
  | .sys _ => False

/-- The history ends with a Security Receive of 2048 bytes that succeeded and whose data was parsed to the response `r`. -/
def AnsweredOnNvme (fd : Nat) (t : Prog.Trace AReq ARep) (r : Resp) : Prop :=
  ∃ before p c k a₂ a, t = before ++ [(.sys .place, a₂), (.sys (.nvme fd 0xC0484E41 k (some (zeros 2048))), a)] ∧
    IsNvmeSecurity false p c 2048 k ∧ a.sys.nv.errno = 0 ∧ a.sys.nv.ret = 0 ∧
    Resp.commit ⟨delivered (zeros 2048) a.sys.nv.data, []⟩ a₂.sys.behind = (r, none)

/-! ## SCSI generic -/

/-- The SG_IO request `q` is a SECURITY PROTOCOL OUT (B5h, `out`) or IN (A2h) command of the protocol and ComID for `n`
bytes (SPC-4, 6.40 and 6.41). -/
structure IsSecurityProtocol (out : Bool) (protocol : Byte) (comId : BitVec 16) (n : Nat) (q : SgReq) : Prop where
  length : q.cdb.length = 12
  opcode : q.cdb[0]? = some (if out then 0xb5 else 0xa2)
  protocol : q.cdb[1]? = some protocol
  comId : beVal (slice q.cdb 2 2) = comId.toNat
  transfer : beVal (slice q.cdb 6 4) = n
  rest : slice q.cdb 4 2 = [0, 0] ∧ slice q.cdb 10 2 = [0, 0]
  direction : q.dir = if out then -2 else -3
  memory : q.dxferLen = n

/-- The SG_IO request `q` is an ATA TRUSTED SEND (5Eh, `out`) or TRUSTED RECEIVE (5Ch) command, without DMA, of the protocol
and ComID for `n` bytes, as a SAT layer decodes it. -/
def IsTrusted (out : Bool) (protocol : Byte) (comId : BitVec 16) (n : Nat) (q : SgReq) : Prop :=
  q.dir = (if out then -2 else -3) ∧ q.dxferLen = n ∧
  ∃ s, satDecode q.cdb = some s ∧ s.command = (if out then 0x5e else 0x5c) ∧ s.protocol = (if out then 5 else 4) ∧
    s.feat = protocol.toNat ∧ s.nsect = n / 512 % 256 ∧ s.lbal = 0 ∧ s.lbam = comId.toNat % 256 ∧
    s.lbah = comId.toNat / 256 ∧ s.dev = 0 ∧ s.extend = 0

/-- A command `q` on the descriptor `fd`: issued once if that succeeds, else a second time with the number 128 as data
address. First answer and verdict. -/
inductive ScsiIo (fd : Nat) (q : SgReq) : Prog.Trace AReq ARep → ARep → Option GoErr → Prop
  | once {a : ARep} (ok : a.sys.sg.err = none) : ScsiIo fd q [(.sys (.sgIo fd q), a)] a none
  | twice {a a₂ : ARep} (bad : a.sys.sg.err ≠ none) :
      ScsiIo fd q [(.sys (.sgIo fd q), a), (.sys (.sgIo fd { q with dxferp := .raw 128 }), a₂)] a a₂.sys.sg.err

/-- What a receive leaves in the caller's buffer: after success of the first ioctl what that one delivered into its memory
`m`; otherwise possibly what was there before. -/
def Arrived (old m new : Bytes) (a : ARep) : Prop :=
  (a.sys.sg.err = none → new = delivered m a.sys.sg.data) ∧ (new = delivered m a.sys.sg.data ∨ new = old)

/-- One security command on a SCSI generic drive and the answer the TCG layer gets: a SECURITY PROTOCOL command with the
caller's bytes; if that fails, an ATA TRUSTED command, whose memory holds zeros when sending. -/
inductive ScsiSecurity (fd : Nat) (out : Bool) (p : Byte) (c : BitVec 16) (buf : Bytes) :
    Prog.Trace AReq ARep → SecRep → Prop
  | direct {q : SgReq} {u : Prog.Trace AReq ARep} {a₁ a : ARep} {addr : Nat} {m : Bytes} {rep : SecRep}
      (cmd : IsSecurityProtocol out p c buf.length q) (mem : q.dxferp = .mem addr m)
      (held : m = if out then buf else zeros buf.length)
      (io : ScsiIo fd q u a none) (ok : rep.err = none)
      (data : if out then rep.data = buf else Arrived (zeros buf.length) m rep.data a) :
      ScsiSecurity fd out p c buf ((.sys .place, a₁) :: u) rep
  | fallback {q q' : SgReq} {u v : Prog.Trace AReq ARep} {a₁ a a₂ a' : ARep} {addr addr' : Nat} {m m' now : Bytes} {e : GoErr}
      {w : Option GoErr} {rep : SecRep}
      (cmd : IsSecurityProtocol out p c buf.length q) (mem : q.dxferp = .mem addr m)
      (held : m = if out then buf else zeros buf.length)
      (io : ScsiIo fd q u a (some e))
      (between : if out then now = buf else Arrived (zeros buf.length) m now a)
      (cmd' : IsTrusted out p c buf.length q') (mem' : q'.dxferp = .mem addr' m')
      (held' : if out then m' = zeros buf.length else m' = now ∨ m' = zeros buf.length)
      (io' : ScsiIo fd q' v a' w) (bad : w ≠ none → rep.err = w)
      (data : if out then rep.data = zeros buf.length else Arrived now m' rep.data a') :
      ScsiSecurity fd out p c buf ((.sys .place, a₁) :: u ++ (.sys .place, a₂) :: v) rep

/-- A conversation of the TCG layer (left) as requests of the whole program on a SCSI generic drive. -/
inductive OnScsi (fd : Nat) : Prog.Trace SecReq SecRep → Prog.Trace AReq ARep → Prop
  | nil : OnScsi fd [] []
  | now {a : ARep} {T t} (rest : OnScsi fd T t) : OnScsi fd ((.now, { time := a.time }) :: T) ((.now, a) :: t)
  | sleep {ns : Nat} {a : ARep} {T t} (rest : OnScsi fd T t) : OnScsi fd ((.sleep ns, {}) :: T) ((.sleep ns, a) :: t)
  | sec {out : Bool} {p : Byte} {c : BitVec 16} {buf : Bytes} {to : Nat} {rep : SecRep} {u T t}
      (cmd : ScsiSecurity fd out p c buf u rep) (rest : OnScsi fd T t) :
      OnScsi fd ((.sec out false p c buf to, rep) :: T) (u ++ t)

/-- The payloads of the SECURITY PROTOCOL OUT commands (B5h) that name memory of the program, oldest first. -/
def scsiSent (t : Prog.Trace AReq ARep) : List Bytes :=
  t.filterMap (fun x => match x.1 with
    | .sys (.sgIo _ q) => match q.dxferp with
      | .mem _ m => if q.cdb[0]? = some 0xb5 then some m else none
      | _ => none
    | _ => none)

/-- What a TCG operation may do to a SCSI generic drive with descriptor `fd` on a ComID: SECURITY PROTOCOL OUT, SECURITY
PROTOCOL IN of 2048 bytes, TRUSTED SEND of zeros (or with the number 128 for an address), TRUSTED RECEIVE of 2048 bytes,
all of protocol 1; waiting 25 ms; reading the clock. -/
def TcgOnScsiOnly (fd : Nat) (comId : BitVec 16) : AReq → Prop
  | .now => True
  | .sleep ns => ns = 25000000
  | .sys .place => True
  | .sys (.sgIo fd' q) => fd' = fd ∧
      ((∃ n, IsSecurityProtocol true 1 comId n q) ∨ IsSecurityProtocol false 1 comId 2048 q ∨
       (∃ n, IsTrusted true 1 comId n q ∧ ∀ a m, q.dxferp = .mem a m → m = zeros n) ∨
       IsTrusted false 1 comId 2048 q)
  | .sys _ => False

/-- The history ends with a receive of 2048 bytes that succeeded and whose data was parsed to the response `r`. -/
def AnsweredOnScsi (fd : Nat) (t : Prog.Trace AReq ARep) (r : Resp) : Prop :=
  ∃ before u rep p c, t = before ++ u ∧ ScsiSecurity fd false p c (zeros 2048) u rep ∧ rep.err = none ∧
    Resp.commit ⟨rep.data, []⟩ rep.behind = (r, none)

end Dparm.Spec
