import Verif.Model.DriveHandle
import Verif.Model.Text
import Verif.Model.Mbr
import Verif.Model.Ioctl
/-!
# plat_linux/drive_factory.go and `ReadBasicInfo` of plat_linux/utils.go

The operating system, go-diskfs and the drivers' `OpenByFd` are the environment. (The results of `OpenByFd` of the two
real drivers are modelled in `Model/Nvme.lean` and `Model/Sg.lean`; here the driver list may have any length and any
driver may accept or refuse.)
-/
namespace Dparm

/-- A GPT partition as go-diskfs presents it: start as `GetStart` returns it, size as `GetSize`
would (the code does not ask), type and unique id text. -/
structure GptPart where
  start : BitVec 64
  size : BitVec 64 := 0
  type : Bytes
  guid : Bytes
deriving DecidableEq

/-- An MBR partition: start, size (not asked for), type byte, bootable flag. -/
structure MbrPart where
  start : BitVec 64
  size : BitVec 64 := 0
  type : Byte
  bootable : Bool
deriving DecidableEq

/-- `dev.Table` of go-diskfs: nothing recognised (or another type), GPT, MBR. -/
inductive PartTable where
  | none
  | gpt (guid : Bytes) (parts : List GptPart)
  | mbr (parts : List MbrPart)
deriving DecidableEq

/-- plat_linux/utils.go:21-29 `LinuxBasicInfo` (without the geometry); `style`: common/types.go:11-15, 0 raw, 1 MBR,
2 GPT. -/
structure BasicInfo where
  style : Nat := 0
  table : PartTable := .none
  mbrSignature : BitVec 32 := 0
  gptDiskId : Bytes := []
  totalBytes : BitVec 64 := 0
  sectorSize : BitVec 64 := 0
deriving DecidableEq

/-- Calls that leave the factory. -/
inductive FReq where
  /-- `unix.Open(path, …)`, plat_linux/utils.go:31-34 -/
  | openDev (path : Bytes)
  /-- `diskfs.Open(path, …)`, plat_linux/utils.go:39 -/
  | diskfs (path : Bytes)
  /-- the ioctls BLKSSZGET, BLKGETSIZE64, HDIO_GETGEO, plat_linux/utils.go:46-56 -/
  | sectorSize (fd : Nat)
  | totalSize (fd : Nat)
  | geometry (fd : Nat)
  /-- `dev.File.ReadAt`, internal/direct_mbr/table.go:80 -/
  | readAt (path : Bytes) (len : Nat)
  /-- `os.ReadDir`, `filepath.EvalSymlinks`, `os.ReadFile`, `unix.Stat` -/
  | readDir (path : Bytes)
  | evalSymlinks (path : Bytes)
  | readFile (path : Bytes)
  | stat (path : Bytes)
  /-- `driver.OpenByFd(fd)` of the driver with this index -/
  | tryDriver (i fd : Nat)
  /-- a method of the driver handle that driver gave for that descriptor -/
  | drv (i fd : Nat) (q : DrvReq)
  /-- `unix.Close(fd)` -/
  | closeFd (fd : Nat)
deriving DecidableEq

/-- Answers. `ret`, `errno` for ioctls; `num` a number stored by an ioctl or the mode of `stat`; `names` a directory. -/
structure FRep where
  err : Option GoErr := none
  ret : Nat := 0
  errno : Nat := 0
  fd : Nat := 0
  num : BitVec 64 := 0
  table : PartTable := .none
  data : Bytes := []
  n : Nat := 0
  names : List Bytes := []
  driver : Driver := { ata := false, nvme := false, identity := [] }
  drv : DrvRep := {}

/-- Programs of the factory. -/
abbrev FM (α : Type) := OutT FReq FRep α

/-- `strings.ToLower` and `strings.ToUpper` on ASCII text (GUIDs). -/
def lower (b : Bytes) : Bytes := b.map (fun c => if 0x41#8 ≤ c ∧ c ≤ 0x5a#8 then c + 0x20#8 else c)
def upper (b : Bytes) : Bytes := b.map (fun c => if 0x61#8 ≤ c ∧ c ≤ 0x7a#8 then c - 0x20#8 else c)

/-- plat_linux/utils.go:60-74: the partition table part of the result. -/
def basicTable (path : Bytes) (t : PartTable) (b : BasicInfo) : FM BasicInfo :=
  match t with
  | .none => OutT.ret { b with table := t }
  | .gpt guid _ => OutT.ret { b with table := t, style := 2, gptDiskId := lower guid }
  | .mbr _ => do
    let r ← OutT.interp (fun n => do
      let r ← OutT.ask (.readAt path n)
      OutT.ret ({ data := r.data, n := r.n, err := r.err } : ReadAtRep)) mbrRead
    match r with
    | .ok v => OutT.ret { b with table := t, style := 1, mbrSignature := v }
    | _ => OutT.ret { b with table := t, style := 1 }

/-- plat_linux/utils.go:36-77 `ReadBasicInfo`. -/
def readBasicInfo (fd : Nat) (path : Bytes) : FM (Res BasicInfo) := do
  let d ← OutT.ask (.diskfs path)
  match d.err with
  | some _ => OutT.ret (.err (.msg "diskfs.open failed"))
  | none =>
    let s ← OutT.ask (.sectorSize fd)
    let z ← OutT.ask (.totalSize fd)
    let g ← OutT.ask (.geometry fd)
    match ioctlErr g.ret g.errno with
    | some _ => OutT.ret (.err (.msg "HDIO_GETGEO failed"))
    | none =>
      let b ← basicTable path d.table
        { sectorSize := if ioctlErr s.ret s.errno = none then s.num else 0,
          totalBytes := if ioctlErr z.ret z.errno = none then z.num else 0 }
      OutT.ret (.ok b)

/-- The characters of `\w` in Go regular expressions. -/
def isWord (c : Byte) : Bool :=
  (0x30#8 ≤ c ∧ c ≤ 0x39#8) || (0x41#8 ≤ c ∧ c ≤ 0x5a#8) || c = 0x5f#8 || (0x61#8 ≤ c ∧ c ≤ 0x7a#8)

/-- `nvme-\w*\.` at the start of the text: the prefix, then word characters up to a dot. -/
def nvmeDotHere (s : Bytes) : Bool :=
  hasPrefix s (ascii "nvme-") && ((s.drop 5).dropWhile isWord).head? == some 0x2e#8

/-- `nvme-\w*\.` anywhere in the text. -/
def nvmeDot : Bytes → Bool
  | [] => nvmeDotHere []
  | x :: xs => nvmeDotHere (x :: xs) || nvmeDot xs

/-- plat_linux/drive_factory.go:18,141 `skipPat.MatchString`: `nvme-\w*\.|-part|scsi|wwn` -/
def skipId (name : Bytes) : Bool :=
  nvmeDot name || contains name (ascii "-part") || contains name (ascii "scsi") || contains name (ascii "wwn")

/-- plat_linux/drive_factory.go:130 -/
def idPath : Bytes := ascii "/dev/disk/by-id"

/-- Assignment to a Go map, kept as the list of its entries. -/
def mapPut {β : Type} (m : List (Bytes × β)) (k : Bytes) (v : β) : List (Bytes × β) :=
  if m.any (fun e => e.1 == k) then m.map (fun e => if e.1 == k then (k, v) else e) else m ++ [(k, v)]

/-- plat_linux/drive_factory.go:138-150: resolve the links of the directory; stops at the first error. -/
def idEntries : List Bytes → List (Bytes × Bytes) → FM (Res (List (Bytes × Bytes)))
  | [], m => OutT.ret (.ok m)
  | name :: rest, m =>
    if skipId name then idEntries rest m
    else do
      let r ← OutT.ask (.evalSymlinks (idPath ++ 0x2f#8 :: name))
      match r.err with
      | some _ => OutT.ret (.err (.msg "EvalSymlinks failed"))
      | none => idEntries rest (mapPut m name r.data)

/-- plat_linux/drive_factory.go:152-162: model and serial from the first matching entry (in iteration order) whose name has
an underscore. -/
def idSearch (path : Bytes) : List (Bytes × Bytes) → Bytes × Bytes
  | [] => ([], [])
  | (id, dev) :: rest =>
    if path = dev then
      let d := lastIndex id 0x5f#8
      if d = -1 then idSearch path rest
      else
        let temp := id.take d.toNat
        let serial := id.drop (d.toNat + 1)
        ((cut temp 0x2d#8).2.1, serial)
    else idSearch path rest

/-- plat_linux/drive_factory.go:165 `path[strings.LastIndex(path, "/")+1:]` -/
def soleDev (path : Bytes) : Bytes := path.drop (lastIndex path 0x2f#8 + 1).toNat

/-- What `getIdInfo` returns: model, serial, vendor, revision. -/
structure IdInfo where
  model : Bytes := []
  serial : Bytes := []
  vendor : Bytes := []
  rev : Bytes := []
deriving DecidableEq

/-- plat_linux/drive_factory.go:127-180 `getIdInfo`; `order` is the iteration order of the map. -/
def getIdInfo (order : List (Bytes × Bytes) → List (Bytes × Bytes)) (path : Bytes) : FM (IdInfo × Option GoErr) := do
  let d ← OutT.ask (.readDir idPath)
  match d.err with
  | some _ => OutT.ret ({}, some (.msg "readdir /dev/disk/by-id failed"))
  | none =>
    match ← idEntries d.names [] with
    | .panic => OutT.panic
    | .err e => OutT.ret ({}, some e)
    | .ok m => do
      let (model, serial) := idSearch path (order m)
      let v ← OutT.ask (.readFile (ascii "/sys/block/" ++ soleDev path ++ ascii "/device/vendor"))
      let r ← OutT.ask (.readFile (ascii "/sys/block/" ++ soleDev path ++ ascii "/device/rev"))
      OutT.ret ({ model := model, serial := serial,
                  vendor := if v.err = none then trimSpace v.data else [],
                  rev := if r.err = none then trimSpace r.data else [] }, none)

/-- `DriveHandleImpl` as the factory fills it (common/drive_handle.go:17-21, common/types.go:62-96): the handle and the
fields of `DriveInfo` only the factory writes. `source` is the driver (index and descriptor) behind `Dh`. -/
structure Opened where
  handle : Handle := { dh := none }
  source : Option (Nat × Nat) := none
  devicePath : Bytes := []
  removable : Int := 0
  drivingType : Nat := 0
  driverName : Bytes := []
  partitionStyle : Nat := 0
  gptDiskId : Bytes := []
  mbrSignature : BitVec 32 := 0
  totalCapacity : BitVec 64 := 0
  vendorId : Bytes := []

/-- Calls of a drive handle on the driver with index `i`. -/
def onDriver (i fd : Nat) {α : Type} (p : DrvM α) : FM α :=
  OutT.interp (fun q => do
    let r ← OutT.ask (.drv i fd q)
    OutT.ret r.drv) p

/-- plat_linux/drive_factory.go:75-83: the drivers from index `i` on, `n` of them left. The result of `Init` is not
looked at. -/
def tryDrivers (fd : Nat) : Nat → Nat → Opened → FM Opened
  | 0, _, o => OutT.ret o
  | n + 1, i, o => do
    let r ← OutT.ask (.tryDriver i fd)
    match r.err with
    | some _ => tryDrivers fd n (i + 1) o
    | none => do
      let h : Handle := { o.handle with dh := some r.driver }
      let t ← onDriver i fd h.getDrivingType
      let nm ← onDriver i fd h.getDriverName
      let (h, _) ← onDriver i fd h.init
      tryDrivers fd n (i + 1) { o with handle := h, source := some (i, fd), drivingType := t, driverName := nm }

/-- plat_linux/drive_factory.go:57-73: the information before the drivers are tried. -/
def basicOpened (path : Bytes) (b : Res BasicInfo) (id : IdInfo) : Opened :=
  let o : Opened :=
    { devicePath := path, removable := -1, vendorId := id.vendor,
      handle := { dh := none, info := { model := id.model, serial := id.serial, firmware := id.rev } } }
  match b with
  | .ok b => { o with partitionStyle := b.style, gptDiskId := b.gptDiskId, mbrSignature := b.mbrSignature,
                      totalCapacity := b.totalBytes }
  | _ => o

/-- plat_linux/drive_factory.go:54-86 `OpenByFd` with `n` drivers (its error is always nil). -/
def openByFd (n : Nat) (order : List (Bytes × Bytes) → List (Bytes × Bytes)) (fd : Nat) (path : Bytes) :
    FM (Opened × Option GoErr) := do
  let b ← readBasicInfo fd path
  let (id, _) ← getIdInfo order path
  let o ← tryDrivers fd n 0 (basicOpened path b id)
  OutT.ret (o, none)

/-- plat_linux/drive_factory.go:38-52 `OpenByPath`. -/
def openByPath (n : Nat) (order : List (Bytes × Bytes) → List (Bytes × Bytes)) (path : Bytes) : FM (Res Opened) := do
  let r ← OutT.ask (.openDev path)
  match r.err with
  | some e => OutT.ret (.err e)
  | none =>
    let (o, e) ← openByFd n order r.fd path
    match e with
    | none => OutT.ret (.ok o)
    | some e => do
      let _ ← OutT.ask (.closeFd r.fd)
      OutT.ret (.err e)

/-- common/drive_handle.go:95-100 `Close` of a handle made by the factory. -/
def Opened.close (o : Opened) : FM Opened :=
  match o.source with
  | some (i, fd) => do
    let h ← onDriver i fd o.handle.close
    OutT.ret { o with handle := h }
  | none => do
    let h ← onDriver 0 0 o.handle.close
    OutT.ret { o with handle := h }

/-- `(s.Mode & unix.S_IFMT) == unix.S_IFBLK`, plat_linux/drive_factory.go:102 -/
def isBlockMode (m : BitVec 64) : Bool := (m &&& 0o170000#64) == 0o060000#64

/-- `defer driveHandle.Close()` (plat_linux/drive_factory.go:115). -/
def Opened.deferredClose (o : Opened) : FM Unit := do
  let _ ← o.close
  OutT.ret ()

/-- plat_linux/drive_factory.go:98-119: the loop. The close of a drive is deferred to the end of the function, after the
rest of the loop; its record is copied before. -/
def enumLoop (n : Nat) (order : List (Bytes × Bytes) → List (Bytes × Bytes)) : List Bytes → FM (List Opened)
  | [] => OutT.ret []
  | name :: rest =>
    if contains name (ascii "loop") then enumLoop n order rest
    else do
      let s ← OutT.ask (.stat (ascii "/dev/" ++ name))
      if s.err = none && isBlockMode s.num then
        if contains name (ascii "sr") then enumLoop n order rest
        else do
          match ← openByPath n order (ascii "/dev/" ++ name) with
          | .panic => OutT.panic
          | .err _ => enumLoop n order rest
          | .ok o => do
            let os ← OutT.defer (enumLoop n order rest) o.deferredClose
            OutT.ret (o :: os)
      else enumLoop n order rest

/-- plat_linux/drive_factory.go:88-121 `EnumDrives`. -/
def enumDrives (n : Nat) (order : List (Bytes × Bytes) → List (Bytes × Bytes)) : FM (Res (List Opened)) := do
  let d ← OutT.ask (.readDir (ascii "/sys/block"))
  match d.err with
  | some _ => OutT.ret (.err (.msg "open /sys/block failed"))
  | none => do
    let os ← enumLoop n order d.names
    OutT.ret (.ok os)

end Dparm
