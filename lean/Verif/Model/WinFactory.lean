import Verif.Model.WinNvme
import Verif.Model.Factory
/-!
# plat_win/drive_factory.go, plat_win/utils.go: the Windows drive factory

Windows is the environment, with the contract of `DeviceIoControl` in Model/Win.lean. Texts are bytes; `conv` is the
conversion of UTF-16 to a Go string (`windows.UTF16ToString`, `utf16Decode` in Model/Utf16.lean); the theorems here hold for any.
-/
namespace Dparm
open Spec (leBytes leVal)

/-- plat_win/utils.go:212-227 `readDeviceIoControl`: the buffer and `bytesReturned`. `&buffer[0]` panics for the empty
retry buffer, `buffer[:bytesReturned]` beyond the buffer. The errors of `DeviceIoControl` are error numbers; after a
failed retry the first one is returned. -/
def winReadIoctl (h code : Nat) (inb : Bytes) : WinM (Res (Bytes × Nat)) := do
  let r ← OutT.ask (.ioctl h code inb 4096 none)
  match r.err with
  | none =>
    if r.n > 4096 then OutT.panic
    else OutT.ret (.ok (storeInto (zeros 4096) r.out, r.n))
  | some e =>
    if e = .errno 122 then
      if r.n = 0 then OutT.panic
      else do
        let r2 ← OutT.ask (.ioctl h code inb r.n none)
        match r2.err with
        | some _ => OutT.ret (.err (.errno 122))
        | none =>
          if r2.n > r.n then OutT.panic
          else OutT.ret (.ok (storeInto (zeros r.n) r2.out, r2.n))
    else OutT.ret (.err e)

/-- A digit of `StringFromGUID2`. -/
def hexUpper (n : Nat) : Byte := BitVec.ofNat 8 (if n < 10 then 0x30 + n else 0x41 + (n - 10))
/-- Two of them. -/
def hexByte (b : Byte) : Bytes := [hexUpper (b.toNat / 16), hexUpper (b.toNat % 16)]

/-- `windows.GUID.String` of the GUID in 16 bytes: `StringFromGUID2` of Windows by its documentation,
"{XXXXXXXX-XXXX-XXXX-XXXX-XXXXXXXXXXXX}", the first three groups little-endian in memory. -/
def guidText (g : Bytes) : Bytes :=
  let x := fun i => hexByte (g.getD i 0#8)
  [0x7b#8] ++ x 3 ++ x 2 ++ x 1 ++ x 0 ++ [0x2d#8] ++ x 5 ++ x 4 ++ [0x2d#8] ++ x 7 ++ x 6 ++ [0x2d#8] ++ x 8 ++ x 9 ++
    [0x2d#8] ++ x 10 ++ x 11 ++ x 12 ++ x 13 ++ x 14 ++ x 15 ++ [0x7d#8]

/-- `strings.Trim(s, set)` for a set of ASCII characters. -/
def trimOf (set s : Bytes) : Bytes :=
  ((s.dropWhile (fun b => set.contains b)).reverse.dropWhile (fun b => set.contains b)).reverse

/-- plat_win/volume.go:14-19 `PartitionImpl`: extent, style of the entry (plat_win/storage_types.go:5-9: 0 MBR, 1 GPT),
and what `GetMbrInfo`, `GetGptInfo` can return. -/
structure WinPart where
  diskNumber : BitVec 32
  start : BitVec 64
  length : BitVec 64
  style : Nat
  mbrInfo : Option (Byte × Bool) := none
  gptInfo : Option (Bytes × Bytes) := none
deriving DecidableEq

/-- plat_win/utils.go:101-121,130-149: one entry (layout plat_win/storage_types.go:50-61, storage_win_types.go:19-32) for a
header of this style; `GetGpt`, `GetMbr` return nil for an entry of another style, and the nil is used. -/
def layoutEntry (gpt : Bool) (disk : BitVec 32) (e : Bytes) : P WinPart :=
  let style := leVal (slice e 0 4)
  let part : WinPart :=
    { diskNumber := disk, start := BitVec.ofNat 64 (leVal (slice e 8 8)), length := BitVec.ofNat 64 (leVal (slice e 16 8)),
      style := style }
  if gpt then
    if style = 1 then .ret { part with gptInfo := some (upper (guidText (slice e 32 16)), upper (guidText (slice e 48 16))) }
    else .panic
  else
    if style = 0 then .ret { part with mbrInfo := some (e.getD 32 0#8, e.getD 33 0#8 != 0#8) }
    else .panic

/-- plat_win/utils.go:101-104,130-133: the loop over the entries; ends when less than one entry is left. -/
def layoutEntries (gpt : Bool) (disk : BitVec 32) : Nat → Bytes → P (List WinPart)
  | 0, _ => .ret []
  | n + 1, d =>
    if d.length < 144 then .ret []
    else do
      let p ← layoutEntry gpt disk (d.take 144)
      let ps ← layoutEntries gpt disk n (d.drop 144)
      .ret (p :: ps)

/-- plat_win/utils.go:21-28 `WinBasicInfo` (`style`: common/types.go:11-15, 0 raw, 1 MBR, 2 GPT). -/
structure WinBasic where
  devNum : Option (BitVec 32) := none
  diskSize : Option (BitVec 64) := none
  style : Nat := 0
  mbrSignature : BitVec 32 := 0
  gptDiskId : Bytes := []
  partitions : List WinPart := []
deriving DecidableEq

/-- plat_win/utils.go:86-149: the drive layout; `data` are the bytes returned. -/
def winLayout (disk : BitVec 32) (data : Bytes) (b : WinBasic) : P WinBasic :=
  if data.length < 48 then .panic
  else
    let style := leVal (slice data 0 4)
    let count := leVal (slice data 4 4)
    if style = 1 then do
      let ps ← layoutEntries true disk count (data.drop 48)
      .ret { b with style := 2, gptDiskId := lower (trimOf [0x7b#8, 0x7d#8] (guidText (slice data 8 16))), partitions := ps }
    else if style = 0 then do
      let ps ← layoutEntries false disk count (data.drop 48)
      .ret { b with style := 1, mbrSignature := BitVec.ofNat 32 (leVal (slice data 8 4)), partitions := ps }
    else .ret b

/-- plat_win/utils.go:46-152 `ReadBasicInfo` (STORAGE_DEVICE_NUMBER: number at 4 of 12 bytes; DISK_GEOMETRY_EX: size at 24
of 32; plat_win/storage_types.go:24-42). -/
def winBasicInfo (h : Nat) : WinM WinBasic := do
  let n ← OutT.ask (.ioctl h 0x2d1080 [] 12 none)
  let num : Option (BitVec 32) :=
    if n.err = none then some (BitVec.ofNat 32 (leVal (slice (storeInto (zeros 12) n.out) 4 4))) else none
  let g ← OutT.ask (.ioctl h 0x700a0 [] 32 none)
  let size : Option (BitVec 64) :=
    if g.err = none then some (BitVec.ofNat 64 (leVal (slice (storeInto (zeros 32) g.out) 24 8))) else none
  match ← winReadIoctl h 0x70050 [] with
  | .panic => OutT.panic
  | .err _ => OutT.ret { devNum := num, diskSize := size }
  | .ok (buf, k) => OutT.lift (winLayout (num.getD 0xffffffff#32) (buf.take k) { devNum := num, diskSize := size })

/-- plat_win/utils.go:154-163 `StorageDeviceDescription` -/
structure StorageDesc where
  deviceType : Byte
  typeModifier : Byte
  removable : Bool
  vendorId : Bytes
  productId : Bytes
  revision : Bytes
  serial : Bytes
  busType : Byte
deriving DecidableEq

/-- plat_win/utils.go:191-194: the text whose offset is stored at `off`, without spaces at its ends. -/
def descText (data m : Bytes) (off : Nat) : P Bytes := do
  let t ← readNullTerminatedAscii data (leVal (slice m off 4))
  .ret (trimOf [0x20#8] t)

/-- plat_win/utils.go:180-196: the descriptor (layout plat_win/storage_types.go:99-112) in a buffer of which the first `k`
bytes were returned. The fixed part is read from the whole buffer; behind a buffer shorter than that lies `beyond`. -/
def storageDesc (buf : Bytes) (k : Nat) (beyond : Nat → Byte) : P StorageDesc :=
  let m := buf ++ (List.range 36).map beyond
  let data := buf.take k
  if data = [] then .panic
  else do
    let v ← descText data m 12
    let p ← descText data m 16
    let s ← descText data m 24
    let r ← descText data m 20
    .ret { deviceType := m.getD 8 0#8, typeModifier := m.getD 9 0#8, removable := m.getD 10 0#8 != 0#8, vendorId := v,
           productId := p, revision := r, serial := s, busType := m.getD 28 0#8 }

/-- plat_win/utils.go:165-197 `ReadStorageQuery`: property 0 (device), query type 0, 12 bytes
(plat_win/windows_nvme_types.go:111-115). -/
def winStorageQuery (h : Nat) (beyond : Nat → Byte) : WinM (Res StorageDesc) := do
  match ← winReadIoctl h 0x2d1400 (zeros 12) with
  | .panic => OutT.panic
  | .err e => OutT.ret (.err e)
  | .ok (buf, k) => do
    let d ← OutT.lift (storageDesc buf k beyond)
    OutT.ret (.ok d)

/-- `OpenByHandle` of a driver: the driver handle with the interface and identity it offers. -/
abbrev WinOpener := Nat → WinM (Res (WinDrv × Driver))

/-- An opened driver as the factory sees it. -/
def asOpener {α : Type} (open' : Nat → WinM (Res α)) (wrap : Nat → α → WinDrv × Driver) : WinOpener := fun h => do
  match ← open' h with
  | .panic => OutT.panic
  | .err e => OutT.ret (.err e)
  | .ok a => OutT.ret (.ok (wrap h a))

/-- plat_win/drive_factory.go:26-34: the drivers in order; `base`, `base'` are the places of their aligned buffers. -/
def winOpeners (base base' : Nat) : List WinOpener :=
  [asOpener nvmeWinOpen (fun h x => (.nvmeWin h x.1, { ata := false, nvme := true, identity := x.2 })),
   asOpener windowsNvmeOpen (fun h id => (.windowsNvme h, { ata := false, nvme := true, identity := id })),
   asOpener (fun h => winScsiOpen h base base') (fun h id => (.scsi h, { ata := true, nvme := false, identity := id })),
   asOpener (fun h => winAtaOpen h base base') (fun h id => (.ata h, { ata := true, nvme := false, identity := id }))]

/-- plat_win/drive_factory.go:74-83: the first driver that accepts the handle. -/
def winFirst : List WinOpener → Nat → WinM (Option (WinDrv × Driver))
  | [], _ => OutT.ret none
  | d :: ds, h => do
    match ← d h with
    | .panic => OutT.panic
    | .ok x => OutT.ret (some x)
    | .err _ => winFirst ds h

/-- `DriveHandleImpl` as the Windows factory fills it (common/types.go:62-96); `drv` is the driver behind `Dh`. -/
structure WinOpened where
  handle : Handle := { dh := none }
  drv : Option WinDrv := none
  devicePath : Bytes := []
  removable : Int := 0
  drivingType : Nat := 0
  driverName : Bytes := []
  partitionStyle : Nat := 0
  gptDiskId : Bytes := []
  mbrSignature : BitVec 32 := 0
  partitions : List WinPart := []
  devNum : Int := 0
  totalCapacity : BitVec 64 := 0
  vendorId : Bytes := []
  revision : Bytes := []
  driveType : Nat := 0

/-- What the drivers are given by the runtime: addresses of buffers, memory behind them. -/
structure WinRun where
  base : Nat
  base' : Nat
  addr : Nat
  behind : Nat → Byte
  beyond : Nat → Byte

/-- plat_win/drive_factory.go:54-72: the information before the drivers are tried. -/
def winBasicOpened (path : Bytes) (b : WinBasic) : WinOpened :=
  { devicePath := path, removable := -1, partitionStyle := b.style, gptDiskId := b.gptDiskId,
    mbrSignature := b.mbrSignature, partitions := b.partitions,
    devNum := match b.devNum with
      | some n => n.toNat
      | none => 0,
    totalCapacity := b.diskSize.getD 0 }

/-- plat_win/drive_factory.go:86-110: without a driver, the storage query (`DriveType`: common/types.go:43-53). -/
def winDescribe (d : StorageDesc) (o : WinOpened) : WinOpened :=
  { o with
    handle := { o.handle with
                info := { o.handle.info with
                          model := if o.handle.info.model = [] then d.productId else o.handle.info.model,
                          serial := if o.handle.info.serial = [] then d.serial else o.handle.info.serial } },
    vendorId := d.vendorId, revision := d.revision, removable := if d.removable then 1 else 0,
    driveType :=
      if d.deviceType = 0#8 then 3 else if d.deviceType = 1#8 then 7 else if d.deviceType = 5#8 then 5
      else if d.deviceType = 9#8 then 4 else o.driveType }

/-- plat_win/drive_factory.go:53-114 `OpenByHandle` with these drivers (its error is always nil; the result of `Init` is
not looked at). -/
def winOpenByHandle (w : WinRun) (drivers : List WinOpener) (h : Nat) (path : Bytes) : WinM WinOpened := do
  let b ← winBasicInfo h
  let o := winBasicOpened path b
  match ← winFirst drivers h with
  | some (k, d) => do
    let hd : Handle := { o.handle with dh := some d }
    let run := fun {α : Type} (p : DrvM α) => OutT.interp (winDrv k w.addr w.base w.behind) p
    let t ← run hd.getDrivingType
    let nm ← run hd.getDriverName
    let (hd, _) ← run hd.init
    OutT.ret { o with handle := hd, drv := some k, drivingType := t, driverName := nm }
  | none => do
    match ← winStorageQuery h w.beyond with
    | .panic => OutT.panic
    | .err _ => OutT.ret o
    | .ok d => OutT.ret (winDescribe d o)

/-- plat_win/drive_factory.go:37-51 `OpenByPath`. (As `OpenByHandle` never fails, the last lines are not reached.) -/
def winOpenByPath (w : WinRun) (drivers : List WinOpener) (path : Bytes) : WinM (Res WinOpened) := do
  match ← winOpenDevice path with
  | .panic => OutT.panic
  | .err e => OutT.ret (.err e)
  | .ok h => do
    let o ← winOpenByHandle w drivers h path
    OutT.ret (.ok o)

/-- common/drive_handle.go:95-100 `Close` of such a handle. -/
def WinOpened.close (w : WinRun) (o : WinOpened) : WinM WinOpened :=
  match o.drv with
  | some k => do
    let h ← OutT.interp (winDrv k w.addr w.base w.behind) o.handle.close
    OutT.ret { o with handle := h }
  | none => OutT.ret o

/-- The characters in a byte buffer. -/
def wideOf : Bytes → List (BitVec 16)
  | a :: b :: r => (BitVec.ofNat 16 (a.toNat + 256 * b.toNat)) :: wideOf r
  | _ => []

/-- plat_win/drive_factory.go:149-167, setupapi.go:48-69: the detail buffer after the inquiry, and the device path, or
nothing. The header of the buffer is written before each call. The slice the path is read from may reach past the buffer;
Windows stores a text with a final NUL, and the model reads what the buffer holds up to the first NUL. `&detailBuffer[0]`
panics for a required size that becomes 0. -/
def winDetail (conv : List (BitVec 16) → Bytes) (set i : Nat) (buf : Bytes) : WinM (Bytes × Option Bytes) := do
  let buf := copyAt buf 0 (leBytes 4 8)
  let r ← OutT.ask (.setupDetail set i buf.length)
  let buf := storeInto buf r.out
  let path := fun (b : Bytes) => some (conv ((wideOf (b.drop 4)).takeWhile (fun c => c != 0#16)))
  if r.err = some (.errno 122) then
    let size := (r.n + (if r.n % 1024 > 0 then 1024 - r.n % 1024 else 0)) % 2 ^ 32
    if size = 0 then OutT.panic
    else do
      let buf := copyAt (zeros size) 0 (leBytes 4 8)
      let r2 ← OutT.ask (.setupDetail set i size)
      let buf := storeInto buf r2.out
      OutT.ret (buf, if r2.err = none then path buf else none)
  else OutT.ret (buf, if r.err = none then path buf else none)

/-- `defer driveHandle.Close()` (plat_win/drive_factory.go:173). -/
def WinOpened.deferredClose (w : WinRun) (o : WinOpened) : WinM Unit := do
  let _ ← o.close w
  OutT.ret ()

/-- plat_win/drive_factory.go:134-176: the loop from index `i` on; the handles opened, in order. The close of a drive is
deferred to the end of the function, after the rest of the loop; its record is copied before. `fuel` bounds the number of
rounds (Windows ends the loop). -/
def winEnumLoop (w : WinRun) (drivers : List WinOpener) (conv : List (BitVec 16) → Bytes) (set : Nat) :
    Nat → Nat → Bytes → WinM (List WinOpened)
  | 0, _, _ => OutT.running
  | fuel + 1, i, buf => do
    let d ← OutT.ask (.setupDevice set i)
    match d.err with
    | some _ => OutT.ret []
    | none => do
      let f ← OutT.ask (.setupInterface set i)
      match f.err with
      | some e =>
        if e = .errno 259 then winEnumLoop w drivers conv set fuel (i + 1) buf
        else OutT.ret []
      | none => do
        match ← winDetail conv set i buf with
        | (buf, none) => winEnumLoop w drivers conv set fuel (i + 1) buf
        | (buf, some path) => do
          match ← winOpenByPath w drivers path with
          | .panic => OutT.panic
          | .err _ => winEnumLoop w drivers conv set fuel (i + 1) buf
          | .ok o => do
            let os ← OutT.defer (winEnumLoop w drivers conv set fuel (i + 1) buf) (o.deferredClose w)
            OutT.ret (o :: os)

/-- `defer SetupDiDestroyDeviceInfoList(...)` (plat_win/drive_factory.go:129). -/
def winDestroy (set : Nat) : WinM Unit := do
  let _ ← OutT.ask (.setupDestroy set)
  OutT.ret ()

/-- plat_win/drive_factory.go:116-179 `EnumDrives`. -/
def winEnumDrives (w : WinRun) (drivers : List WinOpener) (conv : List (BitVec 16) → Bytes) (fuel : Nat) :
    WinM (Res (List WinOpened)) := do
  let c ← OutT.ask .setupClass
  match c.err with
  | some e => OutT.ret (.err e)
  | none => do
    let os ← OutT.defer (winEnumLoop w drivers conv c.handle fuel 0 (zeros 1024)) (winDestroy c.handle)
    OutT.ret (.ok os)

end Dparm
