import Verif.Model.Sg
/-!
# plat_win/ata_driver.go, plat_win/scsi_driver.go: the Windows ATA and SCSI drivers

Windows is the environment. Records are byte images with the layout Go gives them on 64-bit platforms. Trusted contract
of `DeviceIoControl`: it reads the input buffer, may store bytes at the start of the output buffer (never beyond its
length) whether it succeeds or not, and for the two `_DIRECT` pass-through codes transfers at most `DataTransferLength`
bytes from or to the memory at `DataBuffer`, to it only when the record says data-in; it writes to no other memory.
-/
namespace Dparm
open Spec (leBytes)

/-- Calls that leave the Windows code. -/
inductive WReq where
  /-- `windows.DeviceIoControl`: handle, control code, bytes of the input buffer, length of the output buffer, and for
  the direct pass-through codes the memory `DataBuffer` names (address and content) -/
  | ioctl (h code : Nat) (inb : Bytes) (outLen : Nat) (mem : Option (Nat × Bytes))
  /-- `windows.CreateFile` as `OpenDevice` calls it (plat_win/utils.go:30-44) -/
  | openDevice (path : Bytes)
  /-- `windows.CloseHandle` -/
  | closeHandle (h : Nat)
  /-- `SetupDiGetClassDevsEx`, `SetupDiEnumDeviceInfo`, `SetupDiEnumDeviceInterfaces`, `SetupDiGetDeviceInterfaceDetailW`
  (index of the interface, size of the buffer), `SetupDiDestroyDeviceInfoList` (plat_win/drive_factory.go:116-165) -/
  | setupClass
  | setupDevice (set i : Nat)
  | setupInterface (set i : Nat)
  | setupDetail (set i size : Nat)
  | setupDestroy (set : Nat)
  /-- `FindFirstVolume`, `FindNextVolume`, `FindVolumeClose`, and the inquiries about a volume name:
  `GetVolumePathNamesForVolumeName`, `GetVolumeInformation`, `GetDriveType`, `CreateFile` without access rights
  (plat_win/volume.go:88-189) -/
  | firstVolume
  | nextVolume (find : Nat)
  | closeFind (find : Nat)
  | volumePaths (name : List (BitVec 16))
  | volumeInfo (name : List (BitVec 16))
  | driveType (name : List (BitVec 16))
  | openVolume (name : List (BitVec 16))
  /-- `SetErrorMode` (plat_win/volume.go:98-101), answered with the previous mode -/
  | setErrorMode (mode : Nat)
deriving DecidableEq

/-- Answers: the error, a number stored or returned (`bytesReturned`, the required size, a length, the drive type), the
bytes stored at the start of the output buffer, the bytes stored at the start of the memory, the handle given, the
characters stored at the start of a text buffer. -/
structure WRep where
  err : Option GoErr := none
  n : Nat := 0
  out : Bytes := []
  mem : Bytes := []
  handle : Nat := 0
  wide : List (BitVec 16) := []
deriving DecidableEq

/-- Programs on Windows. -/
abbrev WinM (α : Type) := OutT WReq WRep α

/-- plat_win/ata_driver.go:17-18 -/
abbrev ioctlAta : Nat := 0x4d02c
abbrev ioctlAtaDirect : Nat := 0x4d030
/-- plat_win/scsi_driver.go:18-19 -/
abbrev ioctlScsi : Nat := 0x4d004
abbrev ioctlScsiDirect : Nat := 0x4d014

/-- plat_win/ata_driver.go:111-122, scsi_driver.go:140-151,288-299: address and content of the memory of the first
request, and the aligned copy if one was made. `addr` is the address of `data[0]`, `base` the place where the runtime
puts the aligned buffer; `&data[0]` panics on an empty slice. -/
def winFirstMem (rw : Bool) (data : Bytes) (addr base : Nat) : P (Nat × Bytes × Option ABuf) :=
  if data = [] then .panic
  else if isAlignedPointer 512 addr then .ret (addr, data, none)
  else
    let ab := newAlignedBuffer base 512 data.length
    if rw then do
      let (ab, _, _) ← (ab.resetWrite).write data
      .ret (ab.pointer, ab.buf, some ab)
    else .ret (ab.pointer, ab.buf, some ab)

/-- What the kernel does to the memory of a direct request (contract above). -/
def winStore (rw : Bool) (m : Bytes) (r : WRep) : Bytes :=
  if rw then m else storeInto m (r.mem.take (m.length % 2 ^ 32))

/-- plat_win/ata_driver.go:124-140, scsi_driver.go:153-169,301-317: the caller's buffer after the first request. -/
def winAfterFirst (rw : Bool) (data : Bytes) (ab : Option ABuf) (r : WRep) : P Bytes :=
  match ab with
  | none => .ret (winStore rw data r)
  | some ab =>
    if r.err = none && !rw then do
      let ab : ABuf := { ab with mem := copyAt ab.mem ab.off (winStore rw ab.buf r) }
      let (_, d, _) ← (ab.resetRead).read data.length
      .ret (storeInto data d)
    else .ret data

/-- `unsafe.Sizeof(ATA_PASS_THROUGH_DIRECT{})` (plat_win/ata_types.go:3-16) -/
abbrev ataParamsSize : Nat := 48

/-- plat_win/ata_driver.go:83-108: the fields one round writes into the record (layout plat_win/ata_types.go:3-16;
flags plat_win/ata_driver.go:22-26). -/
def ataFields (rw : Bool) (tf : Tf) (len timeoutSecs : Nat) (p : Bytes) : Bytes :=
  let p := copyAt p 0 (leBytes 2 ataParamsSize)
  let p := copyAt p 12 (leBytes 4 timeoutSecs)
  let flags : Nat := if rw then 4 else 2
  let p := copyAt p 2 (leBytes 2 flags)
  let p :=
    if tf.isLba48 ≠ 0#8 then
      let p := copyAt p 2 (leBytes 2 (flags ||| 8))
      copyAt p 32 [tf.hob.feat, tf.hob.nsect, tf.hob.lbal, tf.hob.lbam, tf.hob.lbah, 0#8, 0#8, 0#8]
    else p
  let p := copyAt p 40 [tf.lob.feat, tf.lob.nsect, tf.lob.lbal, tf.lob.lbam, tf.lob.lbah, tf.dev, tf.command, 0#8]
  copyAt p 8 (leBytes 4 len)

/-- plat_win/ata_driver.go:170-180: the result, from the root error and the record (byte 46 is `CurrentTaskFile[6]`). -/
def ataVerdict (rootError : Option GoErr) (p : Bytes) : Option GoErr :=
  if rootError = none then
    let status := p.getD 46 0#8
    if status &&& 0x09#8 ≠ 0#8 then some (.dparm status []) else none
  else rootError

/-- One of the three pass-through functions: control codes, size of its record, the fields a round writes for a buffer
of a given length, the result it computes at the end, and whether the record is copied back out of the combined buffer
after a successful second round (plat_win/scsi_driver.go:194,342; plat_win/ata_driver.go has no such line). -/
structure WinPass where
  direct : Nat
  buffered : Nat
  size : Nat
  fields : Nat → Bytes → Bytes
  verdict : Option GoErr → Bytes → Option GoErr
  copyBack : Bool

/-- plat_win/ata_driver.go:71-181, plat_win/scsi_driver.go:64-219, plat_win/scsi_driver.go:248-365: the text the three
functions share. Error and caller's buffer afterwards. A nil buffer behaves like an empty one: `&data[0]` panics. Bytes 24
to 31 of both records are `DataBuffer`. -/
def WinPass.run (w : WinPass) (h : Nat) (rw : Bool) (data : Bytes) (addr base : Nat) : WinM (Option GoErr × Bytes) := do
  let data := if rw then zeros data.length else data
  let (a, c, ab) ← OutT.lift (winFirstMem rw data addr base)
  let p := copyAt (w.fields data.length (zeros w.size)) 24 (leBytes 8 a)
  let r ← OutT.ask (.ioctl h w.direct p w.size (some (a, c)))
  let p := storeInto p r.out
  let data ← OutT.lift (winAfterFirst rw data ab r)
  match r.err with
  | none => OutT.ret (w.verdict none p, data)
  | some _ =>
    let p := copyAt (w.fields data.length p) 24 (leBytes 8 w.size)
    let buffer := p ++ data
    let r2 ← OutT.ask (.ioctl h w.buffered buffer buffer.length none)
    match r2.err with
    | some e => OutT.ret (w.verdict (some e) p, data)
    | none =>
      let buffer := storeInto buffer r2.out
      let p := if w.copyBack then storeInto p (buffer.take w.size) else p
      OutT.ret (w.verdict none p, if rw then data else storeInto data (buffer.drop w.size))

/-- plat_win/ata_driver.go:71-181 `doTaskFileCmd` (`dma` is not used, the taskfile is not written). -/
def winAtaPass (rw : Bool) (tf : Tf) (timeoutSecs : Nat) : WinPass :=
  { direct := ioctlAtaDirect, buffered := ioctlAta, size := ataParamsSize,
    fields := fun len p => ataFields rw tf len timeoutSecs p, verdict := ataVerdict, copyBack := false }

/-- plat_win/ata_driver.go:71-181,204-206 -/
def winAtaTask (h : Nat) (rw : Bool) (tf : Tf) (data : Bytes) (addr base timeoutSecs : Nat) :
    WinM (Option GoErr × Bytes) :=
  (winAtaPass rw tf timeoutSecs).run h rw data addr base

/-- plat_win/ata_driver.go:50-53, scsi_driver.go:43-46, ata_passthu_types.go:7 -/
def winIdentifyTf : Tf := { command := 0xec#8 }

/-- plat_win/ata_driver.go:49-69, scsi_driver.go:42-62 `openImpl` around its `doTaskFileCmd`: the identity block of the
new handle, or the error. -/
def winIdentify (base : Nat) (task : Bytes → Nat → WinM (Option GoErr × Bytes)) : WinM (Res Bytes) := do
  let ab := newAlignedBuffer base 512 512
  let (e, d) ← task ab.buf ab.pointer
  match e with
  | some e => OutT.ret (.err e)
  | none =>
    let ab : ABuf := { ab with mem := copyAt ab.mem ab.off d }
    let (_, id, _) ← OutT.lift ((ab.resetRead).read 512)
    OutT.ret (.ok (storeInto (zeros 512) id))

/-- plat_win/ata_driver.go:49-69 -/
def winAtaOpen (h base base' : Nat) : WinM (Res Bytes) :=
  winIdentify base (fun d a => winAtaTask h false winIdentifyTf d a base' 10)

/-- `unsafe.Sizeof(SCSI_PASS_THROUGH_DIRECT_WITH_SENSE_BUF{})` (plat_win/scsi_types.go:3-23) -/
abbrev scsiParamsSize : Nat := 96

/-- plat_win/scsi_driver.go:83-136,261-284: the fields one round writes into the record (layout
plat_win/scsi_types.go:3-23): `Length` 56, timeout, direction, sense length 32 and offset 60, CDB and its length, length
of the data. -/
def scsiFields (rw : Bool) (cdb : Bytes) (len timeoutSecs : Nat) (p : Bytes) : Bytes :=
  let p := copyAt p 0 (leBytes 2 56)
  let p := copyAt p 16 (leBytes 4 timeoutSecs)
  let p := copyAt p 8 [if rw then 0#8 else 1#8]
  let p := copyAt p 7 [32#8]
  let p := copyAt p 32 (leBytes 4 60)
  let p := copyAt p 6 [BitVec.ofNat 8 cdb.length]
  let p := copyAt p 36 cdb
  copyAt p 12 (leBytes 4 len)

/-- plat_win/scsi_driver.go:89-134: the packed CDB (records of single bytes, ata_passthu_types.go:33-46,116-133);
`B01` and `B02` are never set. -/
def winTaskCdb (tf : Tf) : Bytes :=
  if tf.isLba48 ≠ 0#8 then
    [0x85#8, 0#8, 0#8, tf.hob.feat, tf.lob.feat, tf.hob.nsect, tf.lob.nsect, tf.hob.lbal, tf.lob.lbal,
     tf.hob.lbam, tf.lob.lbam, tf.hob.lbah, tf.lob.lbah, tf.dev, tf.command, 0#8]
  else
    [0xa1#8, 0#8, 0#8, tf.lob.feat, tf.lob.nsect, tf.lob.lbal, tf.lob.lbam, tf.lob.lbah, tf.dev, tf.command, 0#8, 0#8]

/-- plat_win/scsi_driver.go:268-284, record scsi_types.go:25-34: the packed security protocol CDB. -/
def winSecCdb (rw : Bool) (protocol : Byte) (comId : BitVec 16) (len : Nat) : Bytes :=
  [if rw then 0xb5#8 else 0xa2#8, protocol] ++ Spec.beBytes 2 comId.toNat ++ [0#8, 0#8] ++ Spec.beBytes 4 len ++ [0#8, 0#8]

/-- plat_win/scsi_driver.go:202-218,350-364: the result, from the root error and the record (`ScsiStatus` is byte 2, the
sense data bytes 60 to 91). -/
def scsiVerdict (rootError : Option GoErr) (p : Bytes) : Option GoErr :=
  let sense := slice p 60 32
  if rootError = none && senseKey sense != 0#8 then some (.dparm (p.getD 2 0#8) (sense.take 18)) else rootError

/-- plat_win/scsi_driver.go:64-219 and 248-365, for a CDB that depends on the length of the data. -/
def winScsiPass (rw : Bool) (cdb : Nat → Bytes) (timeoutSecs : Nat) : WinPass :=
  { direct := ioctlScsiDirect, buffered := ioctlScsi, size := scsiParamsSize,
    fields := fun len p => scsiFields rw (cdb len) len timeoutSecs p, verdict := scsiVerdict, copyBack := true }

/-- plat_win/scsi_driver.go:64-219 `doTaskFileCmd` (`dma` is not used, the taskfile is not written). -/
def winScsiTask (h : Nat) (rw : Bool) (tf : Tf) (data : Bytes) (addr base timeoutSecs : Nat) :
    WinM (Option GoErr × Bytes) :=
  (winScsiPass rw (fun _ => winTaskCdb tf) timeoutSecs).run h rw data addr base

/-- plat_win/scsi_driver.go:248-365 `scsiSecurityCommand` (`dma` is not used). -/
def winScsiSec (h : Nat) (rw : Bool) (protocol : Byte) (comId : BitVec 16) (data : Bytes) (addr base timeoutSecs : Nat) :
    WinM (Option GoErr × Bytes) :=
  (winScsiPass rw (winSecCdb rw protocol comId) timeoutSecs).run h rw data addr base

/-- plat_win/scsi_driver.go:42-62 -/
def winScsiOpen (h base base' : Nat) : WinM (Res Bytes) :=
  winIdentify base (fun d a => winScsiTask h false winIdentifyTf d a base' 3)

end Dparm
