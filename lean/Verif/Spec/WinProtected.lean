import Verif.Spec.Protected
import Verif.Spec.WinTcg
import Verif.Model.WinClient
/-!
# Specification: a drive that guards its credentials, seen through the requests to Windows
-/
namespace Dparm.Spec
open Dparm

/-- The request hands these bytes to a device as a message of security protocol 1 for the ComID: an ATA pass-through record with
data-out and TRUSTED SEND (5Eh, 5Fh), a SCSI pass-through record with any direction but data-in and such a CDB, or a miniport
request with Security Send (whatever its direction field says, see C99). -/
def WinHands (comId : BitVec 16) (data : Bytes) : WAReq → Prop
  | .sys (.ioctl h code inb n mem) =>
    ((code = 0x4d030 ∨ code = 0x4d02c) ∧ (ataView (inb.take 48)).flags / 4 % 2 = 1 ∧
      (∃ f n l mid hi dev c x, (ataView (inb.take 48)).current = [f, n, l, mid, hi, dev, c, x] ∧ (c = 0x5e ∨ c = 0x5f) ∧ f = 1 ∧
        mid.toNat + 256 * hi.toNat = comId.toNat) ∧ payload (.ioctl h code inb n mem) = some data) ∨
    ((code = 0x4d014 ∨ code = 0x4d004) ∧ (scsiView (inb.take 96)).dataIn ≠ 1 ∧ CdbSends comId (scsiView (inb.take 96)).cdb ∧
      payload (.ioctl h code inb n mem) = some data) ∨
    (code = 0x4d008 ∧ (miniportView inb).opcode = 0x81 ∧ (miniportView inb).cdw10 / 2 ^ 24 = 1 ∧
      (miniportView inb).cdw10 / 2 ^ 8 % 2 ^ 16 = comId.toNat ∧ data = (miniportView inb).data.take (miniportView inb).cdw11)
  | _ => False

/-- The drive is somewhere in the computer, seen through the requests to Windows. -/
def WinGuarded (dr : Drive) (st : Prog.Trace WAReq WARep → DriveState) : Prop := GuardedBy (WinHands dr.comId) dr st

/-- The caller has not got the key: packets of its own do not show it (and are shorter than 4 GiB), `RevertTPer` is called with wrong
passwords only, and calls on sessions do not send the key. -/
def _root_.Dparm.WinClientCall.Unprivileged (dr : Drive) (sid : Bytes) (ctx : Ctx) : WinClientCall → Prop
  | .security _ rw _ p c buf _ => ¬ (rw = true ∧ p = 1 ∧ c = dr.comId ∧ (ShowsKey dr sid buf ∨ 2 ^ 32 ≤ buf.length))
  | .revert _ d pw psid _ => WrongPassword dr sid ctx.kdf d pw psid
  | .tcg _ d c => c.Keyless dr sid ctx d
  | _ => True

end Dparm.Spec
