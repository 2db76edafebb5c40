import Verif.Spec.TperScsi
import Verif.Spec.TperLinux
import Verif.Model.TcgSystem
/-!
# Specification: sessions on a drive that was opened
-/
namespace Dparm.Spec
open Dparm

/-- What a host presents when it starts a session: nothing with an empty password, else the password (as it is, or hashed) and the
authority it belongs to. -/
def shown (kdf : Kdf) (noHash : Bool) (serial password authority : Bytes) : Option (Bytes × Bytes) :=
  if password = [] then none else some (challengeValue kdf noHash serial password, authority)

/-- Whom the drive lets in: who presents nothing, who presents the PSID, who presents the credential the SID has now. -/
def LetsIn (dr : Drive) (σ : DriveState) (cred : Option (Bytes × Bytes)) : Prop :=
  cred = none ∨ cred = some (dr.psid, psidAuthority) ∨ cred = some (σ.sid, sidAuthority)

/-- `o` was opened by the Linux factory, at some time, under some path, on the conforming drive `dr` behind the NVMe driver or behind the SCSI
generic driver. -/
def OpenedOn (o : Opened) (dr : Drive) (W : Nat) (env : Prog.Env AReq ARep) (st : Prog.Trace AReq ARep → DriveState) : Prop :=
  ∃ order path h₀ fd, (OutT.run env h₀ (OutT.interp sysCall (linuxOpenByPath order path))).1 = .ret (.ok o) ∧
    ((o.source = some (0, fd) ∧ NvmeConforming fd dr W env st) ∨ (o.source = some (1, fd) ∧ ScsiConforming fd dr W env st))

end Dparm.Spec
