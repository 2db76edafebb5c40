import Verif.Model.Base
/-!
# plat_linux/ioctl_utils.go, plat_linux/nvme_ioctl.go, `ioctl` of plat_linux/utils.go

`uintptr` is 64 bits wide.
-/
namespace Dparm

/-- plat_linux/ioctl_utils.go:36-39 `IOC`; shifts from lines 15-18: number 0, type 8, size 16, direction 30. -/
def IOC (dir t nr size : BitVec 64) : BitVec 64 :=
  (dir <<< 30) ||| (t <<< 8) ||| (nr <<< 0) ||| (size <<< 16)

/-- plat_linux/ioctl_utils.go:42-44 `IOR` (`IOC_READ | IOC_WRITE`; lines 5-7: none 0, write 1, read 2). -/
def IOR (t nr size : BitVec 64) : BitVec 64 := IOC (2#64 ||| 1#64) t nr size
/-- plat_linux/ioctl_utils.go:47-49 `IOW` -/
def IOW (t nr size : BitVec 64) : BitVec 64 := IOC 1#64 t nr size
/-- plat_linux/ioctl_utils.go:52-54 `IOWR` -/
def IOWR (t nr size : BitVec 64) : BitVec 64 := IOC (2#64 ||| 1#64) t nr size
/-- plat_linux/ioctl_utils.go:57-59 `IO` -/
def IO' (t nr : BitVec 64) : BitVec 64 := IOC 0#64 t nr 0#64

/-- Size of a Go struct whose fields have these sizes, each aligned to its size (1, 2, 4 or 8): the offset after each
field, rounded up to the next field's alignment, and at the end to the largest one (Go `unsafe.Sizeof` on 64-bit
platforms). -/
def goSizeof (fields : List Nat) : Nat :=
  let up (n a : Nat) : Nat := (n + a - 1) / a * a
  let last := fields.foldl (fun off s => up off s + s) 0
  up last (fields.foldl max 1)

/-- plat_linux/nvme_types.go:18-37 `PassthruCmd` (line 39: `NvmeAdminCmd` has the same fields): field sizes. -/
def passthruFields : List Nat := [1, 1, 2, 4, 4, 4, 8, 8, 4, 4, 4, 4, 4, 4, 4, 4, 4, 4]
/-- plat_linux/nvme_types.go:3-16 `UserIo` -/
def userIoFields : List Nat := [1, 1, 2, 2, 2, 8, 8, 8, 4, 4, 2, 2]
/-- plat_linux/nvme_types.go:41-61 `PassthruCmd64` -/
def passthru64Fields : List Nat := [1, 1, 2, 4, 4, 4, 8, 8, 4, 4, 4, 4, 4, 4, 4, 4, 4, 4, 8]

/-- plat_linux/nvme_ioctl.go:10 -/
def NVME_IOCTL_ADMIN_CMD : BitVec 64 := IOWR 0x4e#64 0x41#64 (BitVec.ofNat 64 (goSizeof passthruFields))
/-- plat_linux/nvme_ioctl.go:11 -/
def NVME_IOCTL_SUBMIT_IO : BitVec 64 := IOW 0x4e#64 0x42#64 (BitVec.ofNat 64 (goSizeof userIoFields))
/-- plat_linux/nvme_ioctl.go:12 -/
def NVME_IOCTL_IO_CMD : BitVec 64 := IOWR 0x4e#64 0x43#64 (BitVec.ofNat 64 (goSizeof passthruFields))
/-- plat_linux/nvme_ioctl.go:16 -/
def NVME_IOCTL_ADMIN64_CMD : BitVec 64 := IOWR 0x4e#64 0x47#64 (BitVec.ofNat 64 (goSizeof passthru64Fields))

/-- plat_linux/utils.go:79-94 `ioctl`: the result of a system call that returned `ret` and error number `errno`. -/
def ioctlErr (ret errno : Nat) : Option GoErr :=
  if errno ≠ 0 then some (.errno errno) else if ret ≠ 0 then some (.errno ret) else none

end Dparm
