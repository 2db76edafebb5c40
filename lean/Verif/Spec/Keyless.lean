import Verif.Spec.Protected
import Verif.Model.WinClient
import Verif.Spec.Session
/-!
# Specification: session calls of somebody who has not got the key
-/
namespace Dparm.Spec
open Dparm

/-- The call is one of the ready-made ones (no command of the caller's own for this drive), its raw arguments are UIDs and texts of
less than 20000 bytes, and if it is `Start` with PSID or SID, what it presents is wrong. -/
def _root_.Dparm.TcgCall.Guesses (dr : Drive) (sid : Bytes) (kdf : Kdf) (d : Dparm.Device) : TcgCall → Prop
  | .start s _ ch au => ch = [] ∨ ∃ u, au = .uid u ∧
      ¬ (u.bytes = psidAuthority ∧ challengeValue kdf s.noHash d.serial ch = dr.psid) ∧
      ¬ (u.bytes = sidAuthority ∧ challengeValue kdf s.noHash d.serial ch = sid)
  | .authenticate _ a _ => a.length < 20000
  | .send .. => ¬ (d.isAnySSC = true ∧ d.baseComId = dr.comId)
  | .exec p _ _ _ => ¬ (p = 1 ∧ d.isAnySSC = true ∧ d.baseComId = dr.comId)
  | .close _ => True
  | .table _ _ t _ _ => ∃ u : UID, t = 0xa8 :: u.bytes
  | .entTable _ t a b => (∃ u : UID, t = 0xa8 :: u.bytes) ∧ a.length < 20000 ∧ b.length < 20000

/-- Calls of somebody who guesses: no `SecurityCommand` with protocol 1 to the drive's ComID, and no right guess. -/
def _root_.Dparm.LinuxCall.Guessing (dr : Drive) (sid : Bytes) (kdf : Kdf) : LinuxCall → Prop
  | .security _ rw _ p c _ _ => ¬ (rw = true ∧ p = 1 ∧ c = dr.comId)
  | .revert _ d pw psid _ => WrongPassword dr sid kdf d pw psid
  | .tcg _ d c => c.Guesses dr sid kdf d
  | _ => True

/-- The same on Windows. -/
def _root_.Dparm.WinClientCall.Guessing (dr : Drive) (sid : Bytes) (kdf : Kdf) : WinClientCall → Prop
  | .security _ rw _ p c _ _ => ¬ (rw = true ∧ p = 1 ∧ c = dr.comId)
  | .revert _ d pw psid _ => WrongPassword dr sid kdf d pw psid
  | .tcg _ d c => c.Guesses dr sid kdf d
  | _ => True

end Dparm.Spec
