import Verif.Spec.Client
import Verif.Spec.LinuxSystem
/-!
# Specification: calls that only look at drives
-/
namespace Dparm.Spec

/-- The calls that pass no command of the caller to a drive: all but `AtaDoTaskFileCmd`, `SecurityCommand`, `RevertTPer`,
`GetDefaultPassword` and those on sessions. -/
def looks : LinuxCall → Bool
  | .ata .. => false
  | .security .. => false
  | .revert .. => false
  | .defaultPassword .. => false
  | .tcg .. => false
  | _ => true

/-- A system call that reads: one of those of opening drives (`ReadsOnly`), or an NVMe admin ioctl with Get Log Page. -/
def LooksOnly (q : LReq) : Prop :=
  ReadsOnly q ∨ ∃ fd rec buf, q = .nvme fd 0xC0484E41 rec buf ∧ rec.opcode = 0x02

end Dparm.Spec
