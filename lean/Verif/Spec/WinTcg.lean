import Verif.Model.WinTcg
import Verif.Spec.WinSystem
import Verif.Spec.WinNvme
import Verif.Spec.TcgSystem
/-!
# Vocabulary for commands on a drive opened on Windows, read off the control requests
-/
namespace Dparm.Spec
open Dparm

/-- A drive bound to a driver of the kind `k`. -/
def WinBound (o : WinOpened) (k : WinDrv) : Prop :=
  o.drv = some k ∧ ∃ identity, o.handle.dh = some { ata := k.isAta, nvme := k.isNvme, identity := identity }

/-- A drive no driver accepted. -/
def WinUnbound (o : WinOpened) : Prop := o.drv = none ∧ o.handle.dh = none

/-- The driver is the one that talks to the SCSI miniport ("NvmeWinDriver"). -/
def OnMiniport (k : WinDrv) : Prop := ∃ h sh, k = .nvmeWin h sh

/-- The CDB is SECURITY PROTOCOL OUT (B5h, `out`) or IN (A2h) of the protocol and ComID for `n` bytes (SPC-4, 6.40, 6.41). -/
structure IsSecurityCdb (out : Bool) (protocol : Byte) (comId : BitVec 16) (n : Nat) (cdb : Bytes) : Prop where
  length : cdb.length = 12
  opcode : cdb[0]? = some (if out then 0xb5 else 0xa2)
  protocol : cdb[1]? = some protocol
  comId : beVal (slice cdb 2 2) = comId.toNat
  transfer : beVal (slice cdb 6 4) = n
  rest : slice cdb 4 2 = [0, 0] ∧ slice cdb 10 2 = [0, 0]

/-- The CDB is an ATA pass-through with the registers of TRUSTED SEND (5Eh, `out`) or TRUSTED RECEIVE (5Ch) of the protocol
and ComID for `n` bytes. (The protocol field is 0 on Windows, see C97.) -/
def IsTrustedCdb (out : Bool) (protocol : Byte) (comId : BitVec 16) (n : Nat) (cdb : Bytes) : Prop :=
  ∃ s, satDecode cdb = some s ∧ s.command = (if out then 0x5e else 0x5c) ∧ s.protocol = 0 ∧
    s.feat = protocol.toNat ∧ s.nsect = n / 512 % 256 ∧ s.lbal = 0 ∧ s.lbam = comId.toNat % 256 ∧
    s.lbah = comId.toNat / 256 ∧ s.dev = 0 ∧ s.extend = 0

/-- A SCSI pass-through record for such a command: direction, length and a timeout of 5 s; `trusted`: an ATA TRUSTED command
is allowed, too. -/
def ScsiTrusted (trusted out : Bool) (protocol : Byte) (comId : BitVec 16) (n : Nat) (v : ScsiView) : Prop :=
  v.dataIn = (if out then 0 else 1) ∧ v.transferLength = n ∧ v.timeout = 5 ∧
  (IsSecurityCdb out protocol comId n v.cdb ∨ trusted = true ∧ IsTrustedCdb out protocol comId n v.cdb)

/-- An ATA pass-through record for TRUSTED SEND or TRUSTED RECEIVE. -/
def AtaTrusted (out : Bool) (protocol : Byte) (comId : BitVec 16) (n : Nat) (v : AtaView) : Prop :=
  v.flags = (if out then 4 else 2) ∧ v.transferLength = n ∧ v.timeout = 5 ∧
  v.current = [protocol, BitVec.ofNat 8 (n / 512), 0, BitVec.ofNat 8 comId.toNat, BitVec.ofNat 8 (comId.toNat / 256), 0,
    if out then 0x5e else 0x5c, 0]

/-- The lengths of TCG transfers: sends of whole 512-byte blocks, at most 120; receives of 2048 bytes. -/
def TcgLength (out : Bool) (n : Nat) : Prop := if out then 512 ≤ n ∧ n ≤ 61440 ∧ 512 ∣ n else n = 2048

/-- What a TCG operation may do to a drive bound to the driver `k` on a ComID: security commands of protocol 1 by the
control codes of that driver on its own handle (the miniport driver: the second handle). The data sent, except through the
miniport, is zeros. Otherwise waiting 25 ms and reading the clock. -/
def TcgOnWindowsOnly (k : WinDrv) (comId : BitVec 16) : WAReq → Prop
  | .now => True
  | .sleep ns => ns = 25000000
  | .place => True
  | .sys (.ioctl h code inb n mem) => ∃ out len, TcgLength out len ∧ match k with
    | .ata h' => h = h' ∧ (code = 0x4d030 ∨ code = 0x4d02c) ∧ AtaTrusted out 1 comId len (ataView (inb.take 48)) ∧
        (out = true → payload (.ioctl h code inb n mem) = some (zeros len))
    | .scsi h' => h = h' ∧ (code = 0x4d014 ∨ code = 0x4d004) ∧ ScsiTrusted true out 1 comId len (scsiView (inb.take 96)) ∧
        (out = true → payload (.ioctl h code inb n mem) = some (zeros len))
    | .windowsNvme h' => h = h' ∧ (code = 0x4d014 ∨ code = 0x4d004) ∧
        ScsiTrusted false out 1 comId len (scsiView (inb.take 96)) ∧
        (out = true → payload (.ioctl h code inb n mem) = some (zeros len))
    | .nvmeWin _ sh => h = sh ∧ code = 0x4d008 ∧ len ≤ 4096 ∧ ∃ data, data.length = len ∧
        miniportView inb = miniportOf (if out then 0x81 else 0x82) 0 (1 * 2 ^ 24 + comId.toNat * 2 ^ 8) len 0 0 0 0
          (delivered (zeros 4096) data)
  | .sys _ => False

/-! ## The miniport driver -/

/-- A drive bound to the miniport driver; `sh` is the handle of the SCSI adapter. -/
def MiniportDrive (o : WinOpened) (sh : Nat) : Prop := ∃ h, WinBound o (.nvmeWin h sh)

/-- The record is a Security Send (81h, `out`) or Security Receive (82h) of the protocol and ComID for the bytes `buf`, in
NvmeMini form. (Its direction field says device to host in both cases, see C99.) -/
structure IsMiniportSecurity (out : Bool) (protocol : Byte) (comId : BitVec 16) (buf inb : Bytes) : Prop where
  length : inb.length = 4248
  record : miniportView inb = miniportOf (if out then 0x81 else 0x82) 0 (protocol.toNat * 2 ^ 24 + comId.toNat * 2 ^ 8)
    buf.length 0 0 0 0 (delivered (zeros 4096) buf)

/-- What the answer `a` to the record `inb` leaves in the caller's buffer: after success what its data area holds. -/
def miniportGot (buf inb : Bytes) (a : WRep) : Bytes :=
  if a.err = none then delivered buf ((miniportView (delivered inb a.out)).data.take buf.length) else buf

/-- A conversation of the TCG layer (left) as requests of the whole program on a drive of the miniport driver: one miniport
request (0x4d008) per security command of up to 4096 bytes, with those bytes; longer ones are refused without a request. -/
inductive OnWinNvme (sh : Nat) : Prog.Trace SecReq SecRep → Prog.Trace WAReq WARep → Prop
  | nil : OnWinNvme sh [] []
  | now {a : WARep} {T t} (rest : OnWinNvme sh T t) : OnWinNvme sh ((.now, { time := a.time }) :: T) ((.now, a) :: t)
  | sleep {ns : Nat} {a : WARep} {T t} (rest : OnWinNvme sh T t) : OnWinNvme sh ((.sleep ns, {}) :: T) ((.sleep ns, a) :: t)
  | sec {out dma : Bool} {p : Byte} {c : BitVec 16} {buf inb : Bytes} {to : Nat} {a₁ a₂ a : WARep} {T t}
      (short : buf.length ≤ 4096) (cmd : IsMiniportSecurity out p c buf inb) (rest : OnWinNvme sh T t) :
      OnWinNvme sh
        ((.sec out dma p c buf to, { err := a.sys.err, data := miniportGot buf inb a.sys, behind := a₂.behind }) :: T)
        ((.place, a₁) :: (.place, a₂) :: (.sys (.ioctl sh 0x4d008 inb 4248 none), a) :: t)
  | long {out dma : Bool} {p : Byte} {c : BitVec 16} {buf : Bytes} {to : Nat} {a₁ a₂ : WARep} {T t}
      (long : 4096 < buf.length) (rest : OnWinNvme sh T t) :
      OnWinNvme sh
        ((.sec out dma p c buf to, { err := some (.msg "too long data"), data := buf, behind := a₂.behind }) :: T)
        ((.place, a₁) :: (.place, a₂) :: t)

/-- The payloads of the Security Send commands (opcode 81h) in a history, oldest first: as many bytes of the data area as
dword 11 says. -/
def miniportSent (t : Prog.Trace WAReq WARep) : List Bytes :=
  t.filterMap (fun x => match x.1 with
    | .sys (.ioctl _ 0x4d008 inb _ _) =>
      if (miniportView inb).opcode = 0x81 then some ((miniportView inb).data.take (miniportView inb).cdw11) else none
    | _ => none)

/-- The history ends with a Security Receive of 2048 bytes that succeeded and whose data was parsed to the response `r`. -/
def AnsweredOnMiniport (sh : Nat) (t : Prog.Trace WAReq WARep) (r : Resp) : Prop :=
  ∃ before p c inb a₂ a, t = before ++ [(.place, a₂), (.sys (.ioctl sh 0x4d008 inb 4248 none), a)] ∧
    IsMiniportSecurity false p c (zeros 2048) inb ∧ a.sys.err = none ∧
    Resp.commit ⟨(miniportView (delivered inb a.sys.out)).data.take 2048, []⟩ a₂.behind = (r, none)

/-! ## ATA commands and log pages -/

/-- The requests `t` of the whole program are these Windows calls with these answers. -/
def SysCalls (u : Prog.Trace WReq WRep) (t : Prog.Trace WAReq WARep) : Prop :=
  t.map (fun x => (x.1, x.2.sys)) = u.map (fun x => (WAReq.sys x.1, x.2))

/-- The record carries the taskfile for `n` bytes: registers, direction, 48-bit flag, timeout; in an ATA record or, on the
SCSI driver, in an ATA PASS-THROUGH CDB (whose protocol and transfer fields are 0, see C97). -/
def CarriesTask (k : WinDrv) (rw : Bool) (tf : Tf) (n secs code : Nat) (inb : Bytes) : Prop :=
  match k with
  | .ata _ => (code = 0x4d030 ∨ code = 0x4d02c) ∧ (ataView (inb.take 48)).flags = ataFlagsOf rw tf ∧
      (ataView (inb.take 48)).transferLength = n % 2 ^ 32 ∧ (ataView (inb.take 48)).timeout = secs % 2 ^ 32 ∧
      (ataView (inb.take 48)).current = currentRegs tf ∧
      (tf.isLba48 ≠ 0 → (ataView (inb.take 48)).previous = previousRegs tf)
  | .scsi _ => (code = 0x4d014 ∨ code = 0x4d004) ∧ (scsiView (inb.take 96)).dataIn = (if rw then 0 else 1) ∧
      (scsiView (inb.take 96)).transferLength = n % 2 ^ 32 ∧ (scsiView (inb.take 96)).timeout = secs % 2 ^ 32 ∧
      satDecode (scsiView (inb.take 96)).cdb = some { satOf tf true rw false with
        protocol := 0, tLength := 0, byteBlock := 0, tDir := 0, ckCond := 0, extend := 0 }
  | _ => False

/-- The error: of the second request if that failed. Otherwise the ATA driver judges a status byte (after the second
request one it wrote itself, see C74), and the SCSI driver the sense key. -/
def AtaJudged (k : WinDrv) (tf : Tf) (u : Prog.Trace WReq WRep) (e : Option GoErr) : Prop :=
  match k, u with
  | .ata _, [x] => e = ataReport (if 46 < x.2.out.length then x.2.out.getD 46 0 else tf.command)
  | .ata _, [_, y] => (y.2.err = none → e = ataReport tf.command) ∧ (y.2.err ≠ none → e = y.2.err)
  | .scsi _, [x] => ∃ h code inb n m, x.1 = .ioctl h code inb n m ∧ e = scsiReport (delivered inb x.2.out)
  | .scsi _, [_, y] => (y.2.err = none → ∃ h code inb n m, y.1 = .ioctl h code inb n m ∧
        e = scsiReport ((delivered inb y.2.out).take 96)) ∧ (y.2.err ≠ none → e = y.2.err)
  | _, _ => False

/-- One ATA command on a Windows drive: the calls, the error and the buffer afterwards. -/
structure AtaOnWindows (k : WinDrv) (rw : Bool) (tf : Tf) (buf : Bytes) (secs : Nat) (u : Prog.Trace WReq WRep)
    (e : Option GoErr) (after : Bytes) : Prop where
  /-- one request if it succeeds, else a second one -/
  count : (∃ x, u = [x] ∧ x.2.err = none) ∨ (∃ x y, u = [x, y] ∧ x.2.err ≠ none)
  /-- on the drive's own handle, with the taskfile -/
  requests : ∀ x ∈ u, ∃ code inb n mem, x.1 = .ioctl k.handle code inb n mem ∧ CarriesTask k rw tf buf.length secs code inb
  /-- data written is zeros, and the caller's buffer, too -/
  written : rw = true → after = zeros buf.length ∧ ∀ x ∈ u, payload x.1 = some (zeros buf.length)
  /-- data read by the only request is what Windows delivered -/
  read : rw = false → after.length = buf.length ∧
    ∀ x, u = [x] → after = receivedInto buf x.2.mem ∨ after = receivedInto (zeros buf.length) x.2.mem
  judged : AtaJudged k tf u e

/-- The query for a log page (winioctl.h): protocol NVMe, log page data, no namespace. -/
def IsLogQuery (logId : BitVec 32) (size : Nat) (inb : Bytes) : Prop :=
  queryView inb = { propertyId := 50, queryType := 0, protocolType := 3, dataType := 2, requestValue := logId.toNat,
                    requestSubValue := 0, dataOffset := 40, dataLength := size, fixedReturn := 0, subValues := zeros 12,
                    data := zeros size }

end Dparm.Spec
