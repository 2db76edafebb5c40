import Verif.Model.Client
import Verif.Model.Ioctl
/-!
# cmd/develop/main_linux.go: the development tool on Linux

Its log lines and dumps are not modelled, only what it does to the system, what it has in its variables, and how it ends.
-/
namespace Dparm

/-- nvme/types.go:434-457 `SmartLogPage`: the sizes of its fields, arrays element by element. -/
def smartFields : List Nat :=
  [1, 2, 1, 1, 1] ++ List.replicate 26 1 ++ List.replicate 160 1 ++ List.replicate 8 1 ++ List.replicate 8 2 ++
    List.replicate 4 4 ++ List.replicate 280 1

/-- What the tool has when it ends. -/
structure Developed where
  first : Res Opened
  drives : Res (List Opened)
  volumes : Res VolMap
  drive : Opened
  page : Option Bytes × Option GoErr

/-- cmd/develop/main_linux.go:16-61. `m` is the mount table. `handle` is nil after a failed opening (plat_linux/drive_factory.go:38-52),
so that `handle.GetDriveInfo()` (line 53) panics. `NVME_GET_LOG_PAGE_SMART` is 2 (nvme/types.go:209). -/
def developLinux (order : List (Bytes × Bytes) → List (Bytes × Bytes)) (m : Mounts) : AM Developed := do
  let first ← OutT.interp sysCall (onLinux (openByPath 2 order (ascii "/dev/sda")))
  let drives ← OutT.interp sysCall (onLinux (enumDrives 2 order))
  let volumes ← OutT.interp sysCall (onLinux (enumVolumes m))
  match ← OutT.interp sysCall (onLinux (openByPath 2 order (ascii "/dev/nvme0n1"))) with
  | .ok drive => do
    let page ← OutT.interp sysCall (drive.logPage 0xffffffff 2 false (goSizeof smartFields))
    OutT.ret { first := first, drives := drives, volumes := volumes, drive := drive, page := page }
  | _ => OutT.panic

end Dparm
