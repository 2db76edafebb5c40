import Verif.Spec.ErrorMode
import Verif.Spec.WinSystem
/-!
# Specification: calls that only look at drives, on Windows
-/
namespace Dparm.Spec

/-- The calls that pass no command of the caller to a drive: all but `AtaDoTaskFileCmd`, `SecurityCommand`, `RevertTPer`,
`GetDefaultPassword` and those on sessions. -/
def winLooks : WinClientCall → Bool
  | .ata .. => false
  | .security .. => false
  | .revert .. => false
  | .defaultPassword .. => false
  | .tcg .. => false
  | _ => true

/-- An exchange that reads: a call of the Windows API that reads, or the placing of a buffer by the Go runtime. With
`modes`, also a change of the process's error mode. -/
def WinLooksOnly (modes : Bool) : WAReq → Prop
  | .sys q => WinReadsOnly q ∨ (modes = true ∧ ∃ m, q = .setErrorMode m)
  | .place => True
  | _ => False

end Dparm.Spec
