import Verif.Model.WinClient
/-!
# cmd/develop/main.go: the development tool on Windows

Its log lines and JSON are not modelled, only what it does to the system, what it has in its variables, and how it ends.
-/
namespace Dparm

/-- What the tool has when it ends. -/
structure WinDeveloped where
  first : Res WinOpened
  drives : Res (List WinOpened)
  volumes : Res (List WinVol)

/-- cmd/develop/main.go:12-40. `w`, `w'`, `beyond`: the memory of the calls; `fuel`, `fuel'` bound the rounds of the loops that
Windows ends. -/
def developWindows (conv : Wide → Bytes) (w w' : WinRun) (beyond : Nat → Byte) (fuel fuel' : Nat) : WAM WinDeveloped := do
  let first ← OutT.interp winCall (winOpenPath w (ascii "\\\\.\\PhysicalDrive1"))
  let drives ← OutT.interp winCall (winEnumDrives w' (winOpeners w'.base w'.base') conv fuel)
  let volumes ← OutT.interp winCall (winEnumVolumes conv beyond fuel')
  OutT.ret { first := first, drives := drives, volumes := volumes }

end Dparm
