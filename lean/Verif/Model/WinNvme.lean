import Verif.Model.Win
import Verif.Model.Text
/-!
# plat_win/nvme_scsi.go, nvme_win_driver.go, windows_nvme_driver.go: the two Windows NVMe drivers

Records are byte images as in Model/Win.lean, with the same contract of `DeviceIoControl`.
-/
namespace Dparm
open Spec (leBytes leVal)

/-- `%d` of a non-negative number (`fmt.Sprintf`). -/
def digits (n : Nat) : Bytes :=
  if h : n < 10 then [BitVec.ofNat 8 (0x30 + n)] else digits (n / 10) ++ [BitVec.ofNat 8 (0x30 + n % 10)]
termination_by n
decreasing_by omega

/-- plat_win/nvme_win_types.go:65-77 `NVME_PASS_THROUGH_IOCTL`: 152 bytes before `DataBuffer`, 4096 bytes of it. -/
abbrev miniportSize : Nat := 4248

/-- plat_win/nvme_scsi.go:14-23, nvme_win_driver.go:63-72 (layout nvme_win_types.go:56-77): header length 28, signature
"NvmeMini", timeout 40, control code, length of the rest; direction 2, data and return buffer lengths. -/
def miniportHeader : Bytes :=
  let p := zeros miniportSize
  let p := copyAt p 16 (leBytes 4 0xe0002000)
  let p := copyAt p 0 (leBytes 4 28)
  let p := copyAt p 4 (ascii "NvmeMini")
  let p := copyAt p 12 (leBytes 4 40)
  let p := copyAt p 24 (leBytes 4 (miniportSize - 28))
  let p := copyAt p 140 (leBytes 4 4096)
  let p := copyAt p 148 (leBytes 4 miniportSize)
  copyAt p 132 (leBytes 4 2)

/-- plat_win/nvme_scsi.go:28-42: the record for a command and the data referred to (command layout
nvme_win_types.go:79-145, at offset 52 of the record). -/
def miniportRecord (c : NvmeCmd) (data : Bytes) : Bytes :=
  let p := miniportHeader
  let p := copyAt p 152 (storeInto (zeros 4096) data)
  let p := copyAt p 52 [c.opcode]
  let p := copyAt p 56 (leBytes 4 c.nsid.toNat)
  let p := copyAt p 92 (leBytes 4 c.cdw10.toNat)
  let p := copyAt p 96 (leBytes 4 c.cdw11.toNat)
  let p := copyAt p 100 (leBytes 4 c.cdw12.toNat)
  let p := copyAt p 104 (leBytes 4 c.cdw13.toNat)
  let p := copyAt p 108 (leBytes 4 c.cdw14.toNat)
  copyAt p 112 (leBytes 4 c.cdw15.toNat)

/-- plat_win/nvme_scsi.go:28-31: the memory referred to: `DataBuffer`, or `DataLen` bytes at `DataAddr` if that is not 0
(`mem i` is the byte at `DataAddr + i`). -/
def miniportData (c : NvmeCmd) (mem : Nat → Byte) : Bytes :=
  if c.dataAddr ≠ 0#64 then (List.range c.dataLen.toNat).map mem else c.dataBuffer.getD []

/-- plat_win/nvme_scsi.go:13-61 `scsiMiniportDoNvmeAdminPassthru`: the error, and the memory referred to afterwards. -/
def miniportAdmin (h : Nat) (c : NvmeCmd) (mem : Nat → Byte) : WinM (Option GoErr × Bytes) :=
  let data := miniportData c mem
  if c.dataLen.toNat > 4096 then OutT.ret (some (.msg "too long data"), data)
  else do
    let p := miniportRecord c data
    let r ← OutT.ask (.ioctl h 0x4d008 p miniportSize none)
    match r.err with
    | some e => OutT.ret (some e, data)
    | none => OutT.ret (none, storeInto data (slice (storeInto p r.out) 152 c.dataLen.toNat))

/-- plat_win/nvme_win_driver.go:41-60 `GetScsiPath` (`SCSI_ADDRESS`, scsi_types.go:48-54: 8 bytes, port at offset 4). -/
def winScsiPath (h : Nat) : WinM (Res Bytes) := do
  let r ← OutT.ask (.ioctl h 0x41018 (zeros 8) 8 none)
  match r.err with
  | some e => OutT.ret (.err e)
  | none =>
    let port := (storeInto (zeros 8) r.out).getD 4 0#8
    OutT.ret (.ok (ascii "\\\\.\\SCSI" ++ digits port.toNat ++ ascii ":"))

/-- plat_win/nvme_win_driver.go:62-97 `QueryNvmeIdentity`: opcode 6, CDW10 1. -/
def winMiniportIdentity (h : Nat) : WinM (Res Bytes) := do
  let p := copyAt (copyAt miniportHeader 52 [6#8]) 92 (leBytes 4 1)
  let r ← OutT.ask (.ioctl h 0x4d008 p miniportSize none)
  match r.err with
  | some e => OutT.ret (.err e)
  | none => OutT.ret (.ok (slice (storeInto p r.out) 152 4096))

/-- plat_win/utils.go:30-44 `OpenDevice`: `UTF16PtrFromString` refuses a text with a NUL. The request carries the Go text; what
Windows sees of it is `utf16FromString` (Model/Utf16.lean). -/
def winOpenDevice (path : Bytes) : WinM (Res Nat) :=
  if path.contains 0#8 then OutT.ret (.err (.errno 22))
  else do
    let r ← OutT.ask (.openDevice path)
    match r.err with
    | some e => OutT.ret (.err e)
    | none => OutT.ret (.ok r.handle)

/-- plat_win/nvme_win_driver.go:99-127 `openImpl`: the second handle and the identity, or the error. -/
def nvmeWinOpen (h : Nat) : WinM (Res (Nat × Bytes)) := do
  match ← winScsiPath h with
  | .panic => OutT.panic
  | .err e => OutT.ret (.err e)
  | .ok path =>
    match ← winOpenDevice path with
    | .panic => OutT.panic
    | .err e => OutT.ret (.err e)
    | .ok sh =>
      match ← winMiniportIdentity sh with
      | .panic => OutT.panic
      | .err e => do
        let _ ← OutT.ask (.closeHandle sh)
        OutT.ret (.err e)
      | .ok id =>
        if id.length ≠ 4096 then do
          let _ ← OutT.ask (.closeHandle sh)
          OutT.ret (.err (.msg "invalid identity size"))
        else OutT.ret (.ok (sh, id))

/-- plat_win/nvme_win_driver.go:141-143, windows_nvme_driver.go:94-96, ata_driver.go, scsi_driver.go `Close`: the handle
given to `OpenByHandle`. -/
def winClose (h : Nat) : WinM Unit := do
  let _ ← OutT.ask (.closeHandle h)
  OutT.ret ()

/-- plat_win/windows_nvme_types.go:105-135: STORAGE_PROPERTY_QUERY followed by STORAGE_PROTOCOL_SPECIFIC_DATA. -/
abbrev storageQuerySize : Nat := 48

/-- plat_win/windows_nvme_driver.go:34-44,109-127: the query in a buffer of `n` data bytes: property, query type 0, protocol
NVMe, data type, requested value, sub values 0, offset of the data (from the second structure) and its length. -/
def storageQuery (n property dataType value : Nat) : Bytes :=
  let p := zeros (storageQuerySize + n)
  let p := copyAt p 0 (leBytes 4 property)
  let p := copyAt p 8 (leBytes 4 3)
  let p := copyAt p 12 (leBytes 4 dataType)
  let p := copyAt p 16 (leBytes 4 value)
  let p := copyAt p 24 (leBytes 4 40)
  copyAt p 28 (leBytes 4 n)

/-- plat_win/windows_nvme_driver.go:34-65 `QueryNvmeIdentity` and 67-82 `openImpl` (the length is always 4096). -/
def windowsNvmeOpen (h : Nat) : WinM (Res Bytes) := do
  let p := storageQuery 4096 49 1 1
  let r ← OutT.ask (.ioctl h 0x2d1400 p p.length none)
  match r.err with
  | some e => OutT.ret (.err e)
  | none =>
    let id := (storeInto p r.out).drop storageQuerySize
    if id.length ≠ 4096 then OutT.ret (.err (.msg "invalid identity size"))
    else OutT.ret (.ok id)

/-- plat_win/windows_nvme_driver.go:106-149 `NvmeGetLogPage` (`nsid` and `rae` are not used). Lengths are converted to
`uint32`. For a negative size the code writes its header past the end of the buffer (or panics at once); the model stops
with a panic there. -/
def windowsLogPage (h : Nat) (_nsid logId : BitVec 32) (_rae : Bool) (dataSize : Int) : WinM (Res Bytes) :=
  if dataSize < 0 then OutT.panic
  else do
    let p := storageQuery dataSize.toNat 50 2 logId.toNat
    let n := p.length % 2 ^ 32
    let r ← OutT.ask (.ioctl h 0x2d1400 (p.take n) n none)
    match r.err with
    | some e => OutT.ret (.err e)
    | none =>
      let p := storeInto p (r.out.take n)
      if leVal (slice p 0 4) ≠ 48 ∨ leVal (slice p 4 4) ≠ 48 then OutT.ret (.err (.msg "invalid response header"))
      else OutT.ret (.ok (p.drop storageQuerySize))

/-- The four kinds of driver handle (plat_win/drive_factory.go:28-34), with the handles they hold. -/
inductive WinDrv where
  | nvmeWin (h sh : Nat)
  | windowsNvme (h : Nat)
  | scsi (h : Nat)
  | ata (h : Nat)
deriving DecidableEq

/-- The handle the factory opened. -/
def WinDrv.handle : WinDrv → Nat
  | .nvmeWin h _ => h
  | .windowsNvme h => h
  | .scsi h => h
  | .ata h => h

/-- Which interfaces of common/driver.go:36-47 the four types satisfy (the interface each embeds,
plat_win/nvme_win_driver.go:26, windows_nvme_driver.go:21, scsi_driver.go, ata_driver.go). -/
def WinDrv.isAta : WinDrv → Bool
  | .scsi _ => true
  | .ata _ => true
  | _ => false
def WinDrv.isNvme (k : WinDrv) : Bool := !k.isAta

/-- `GetDriverName`: plat_win/nvme_win_driver.go:129-131, windows_nvme_driver.go:82-84, scsi_driver.go:221-223,
ata_driver.go:183-185. -/
def WinDrv.name : WinDrv → Bytes
  | .nvmeWin _ _ => ascii "NvmeWinDriver"
  | .windowsNvme _ => ascii "WindowsNvmeDriver"
  | .scsi _ => ascii "WindowsScsiDriver"
  | .ata _ => ascii "WindowsAtaDriver"

/-- The methods of the driver handles (plat_win/nvme_win_driver.go:129-159, windows_nvme_driver.go:82-153,
scsi_driver.go:221-246, ata_driver.go:183-209) as the driver behind a drive handle. `addr`, `base`: addresses of the buffer
and of an aligned copy; `behind`: memory behind the buffer. `DrivingAtapi` is 1, `DrivingNvme` 2 (common/driver.go:18-22).
Requests of an interface the type does not have never reach it. Simplified: the memory at `DataAddr` reads as zeros; the only
admin command a handle sends is that of `SecurityCommand`, with `DataAddr` 0 (common/drive_handle.go:134-173). -/
def winDrv (k : WinDrv) (addr base : Nat) (behind : Nat → Byte) : DrvReq → WinM DrvRep
  | .close => do
    winClose k.handle
    OutT.ret {}
  | .drivingType => OutT.ret { num := if k.isAta then 1 else 2 }
  | .driverName => OutT.ret { data := k.name }
  | .sec rw _ p c data to => match k with
    | .scsi h => do
      let (e, d) ← winScsiSec h rw p c data addr base to
      OutT.ret { err := e, data := d, behind := behind }
    | .windowsNvme h => do
      let (e, d) ← winScsiSec h rw p c data addr base to
      OutT.ret { err := e, data := d, behind := behind }
    | _ => OutT.ret { err := some (.msg "not supported"), data := data, behind := behind }
  | .taskFile rw _ tf data to => match k with
    | .scsi h => do
      let (e, d) ← winScsiTask h rw tf data addr base to
      OutT.ret { err := e, data := d, behind := behind, tf := tf }
    | .ata h => do
      let (e, d) ← winAtaTask h rw tf data addr base to
      OutT.ret { err := e, data := d, behind := behind, tf := tf }
    | _ => OutT.panic
  | .taskNil rw _ tf to => match k with
    | .scsi h => do
      let (e, _) ← winScsiTask h rw tf [] addr base to
      OutT.ret { err := e, behind := behind, tf := tf }
    | .ata h => do
      let (e, _) ← winAtaTask h rw tf [] addr base to
      OutT.ret { err := e, behind := behind, tf := tf }
    | _ => OutT.panic
  | .nvmeAdmin c => match k with
    | .nvmeWin _ sh => do
      let (e, d) ← miniportAdmin sh c (fun _ => 0#8)
      OutT.ret { err := e, data := d, behind := behind }
    | .windowsNvme _ => OutT.ret { err := some (.msg "not supported"), data := c.dataBuffer.getD [], behind := behind }
    | _ => OutT.panic
  | .logPage nsid id rae size => match k with
    | .nvmeWin _ _ => OutT.ret { err := some (.msg "not supported"), behind := behind }
    | .windowsNvme h => do
      match ← windowsLogPage h nsid id rae size with
      | .panic => OutT.panic
      | .err e => OutT.ret { err := some e, behind := behind }
      | .ok d => OutT.ret { data := d, behind := behind }
    | _ => OutT.panic

end Dparm
