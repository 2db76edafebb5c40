import Verif.Spec.Tper
import Verif.Model.SharedDrive
/-!
# Specification: what a client of a conforming drive sees, in three numbers

A ledger for one drive and what `RevertTPer` and `GetDefaultPassword` return and do by it. No packets, sessions or times.
-/
namespace Dparm.Spec
open Dparm

/-- The SID credential, how many sessions are open, how often the drive was reverted to factory state. -/
structure Ledger where
  credential : Bytes
  opened : Nat
  reverts : Nat
deriving DecidableEq

/-- The ledger of a drive. -/
def DriveState.ledger (s : DriveState) : Ledger := ⟨s.sid, s.sessions.length, s.reverts⟩

/-- The password that reverts: the PSID, or one whose derived key for the drive's serial, after `D0 20`, is the credential. -/
def Ledger.opens (dr : Drive) (kdf : Kdf) (serial pw : Bytes) (psid : Bool) (b : Ledger) : Prop :=
  pw ≠ [] ∧ if psid then pw = dr.psid else [0xd0, 0x20] ++ kdf.key (pw.take 32) serial = b.credential

instance (dr : Drive) (kdf : Kdf) (serial pw : Bytes) (psid : Bool) (b : Ledger) : Decidable (b.opens dr kdf serial pw psid) := by
  unfold Ledger.opens
  infer_instance

/-- One operation: what it returns and the ledger afterwards. No session left: error 7. Reverting with the right password
resets the credential to the MSID and ends all sessions, with a wrong one it is refused with error 1, and with none it costs
a session on top. Reading the MSID costs a session. -/
def Ledger.step (dr : Drive) (kdf : Kdf) (b : Ledger) : TcgOp → TcgDone × Ledger
  | .revert d pw psid _ =>
    if dr.maxSessions ≤ b.opened then (.reverted (some (.tcg 7)), b)
    else if b.opens dr kdf d.serial pw psid then (.reverted none, ⟨dr.msid, 0, b.reverts + 1⟩)
    else (.reverted (some (.tcg 1)), { b with opened := b.opened + if pw = [] then 1 else 0 })
  | .defaultPassword _ =>
    if dr.maxSessions ≤ b.opened then (.password [] (some (.tcg 7)), b)
    else (.password dr.msid none, { b with opened := b.opened + 1 })

/-- Operations one after the other. -/
def Ledger.steps (dr : Drive) (kdf : Kdf) (b : Ledger) : List TcgOp → List TcgDone × Ledger
  | [] => ([], b)
  | op :: ops => ((b.step dr kdf op).1 :: ((b.step dr kdf op).2.steps dr kdf ops).1, ((b.step dr kdf op).2.steps dr kdf ops).2)

/-- The operation is for a device that is recognised as Opal with the ComID of the drive; a PSID has at most 400 bytes. -/
def OpOn (dr : Drive) : TcgOp → Prop
  | .revert d pw psid _ => (d.kind = .opal1 ∨ d.kind = .opal2) ∧ d.baseComId = dr.comId ∧ (psid = true → pw.length ≤ 400)
  | .defaultPassword d => (d.kind = .opal1 ∨ d.kind = .opal2) ∧ d.baseComId = dr.comId

/-- The operation is for this device; a PSID has at most 400 bytes. -/
def OpFor (d : Device) : TcgOp → Prop
  | .revert d' pw psid _ => d' = d ∧ (psid = true → pw.length ≤ 400)
  | .defaultPassword d' => d' = d

end Dparm.Spec
