import Verif.Model.AtaUtil
import Verif.Model.HandleSystem
import Verif.Model.WinTcg
/-!
# `ReadSmart` on a drive opened by a factory
-/
namespace Dparm

/-- ata_util/utils.go:123-160 `ReadSmart` on a drive the Linux factory opened, down to the system calls. -/
def Opened.readSmart (o : Opened) (timeoutSecs : Nat) : LM (Res (List Bytes × List Bytes)) :=
  o.method (fun h => Dparm.readSmart h timeoutSecs)

/-- ata_util/utils.go:123-160 `ReadSmart` on a drive the Windows factory opened, down to the Windows calls. -/
def WinOpened.readSmart (o : WinOpened) (timeoutSecs : Nat) : WAM (Res (List Bytes × List Bytes)) :=
  o.method (fun h => Dparm.readSmart h timeoutSecs)

end Dparm
