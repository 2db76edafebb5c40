import Verif.Spec.Tper
import Verif.Model.SharedDrive
/-!
# Specification: one drive, several clients
-/
namespace Dparm.Spec
open Dparm

/-- A conforming drive whose state a fetch without a waiting answer does not change. (What such a fetch returns is left open:
an error, nothing, anything.) -/
structure SharedDrive (dr : Drive) (maxWait : Nat) (env : Prog.Env SecReq SecRep)
    (st : Prog.Trace SecReq SecRep → DriveState) : Prop extends Conforming dr maxWait env st where
  idle : ∀ h secs, (st h).answer = none →
    st (h ++ [(.sec false false 1 dr.comId (zeros 2048) secs, env h (.sec false false 1 dr.comId (zeros 2048) secs))]) = st h

/-- All goroutines talk to the same drive, and it does not know who asks. -/
def sameDrive (env : Prog.Env SecReq SecRep) : SysEnv SecReq SecRep := fun t _ q => env t.whole q

/-- A session in which the drive would be reverted. -/
def OpenSession.Privileged (o : OpenSession) : Prop :=
  o.write = true ∧ (o.authority = some sidAuthority ∨ o.authority = some psidAuthority)

/-- The operation is for this drive: Opal devices have its ComID; PSIDs have at most 400 bytes (passwords
can have any length, they are hashed). Devices of other kinds need
not fit (the library sends nothing for them). -/
def _root_.Dparm.TcgOp.Fits (dr : Drive) : TcgOp → Prop
  | .revert d pw psid _ => d.kind = .opal1 ∨ d.kind = .opal2 → d.baseComId = dr.comId ∧ (psid = true → pw.length ≤ 400)
  | .defaultPassword d => d.kind = .opal1 ∨ d.kind = .opal2 → d.baseComId = dr.comId

/-- Calls of `RevertTPer`. -/
def _root_.Dparm.TcgOp.isRevert : TcgOp → Bool
  | .revert .. => true
  | .defaultPassword _ => false

end Dparm.Spec
