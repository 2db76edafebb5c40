import Verif.Model.Discovery
import Verif.Model.Utils
/-!
# common/drive_handle.go: the drive handle

The driver behind the handle (interfaces of common/driver.go:28-47) is the environment: every call to one
of its methods that can have an effect is a request.
-/
namespace Dparm
open Spec (leVal)

/-- ata/types.go:115-121 `LbaRegs` -/
structure LbaRegs where
  feat : Byte := 0
  nsect : Byte := 0
  lbal : Byte := 0
  lbam : Byte := 0
  lbah : Byte := 0
deriving DecidableEq, Repr

/-- ata/types.go:123-131 `Tf` -/
structure Tf where
  dev : Byte := 0
  command : Byte := 0
  error : Byte := 0
  status : Byte := 0
  isLba48 : Byte := 0
  lob : LbaRegs := {}
  hob : LbaRegs := {}
deriving DecidableEq, Repr

/-- nvme/types.go:254-277 `PassthruCmd` / `NvmeAdminCmd`. `dataBuffer` is the content of `DataBuffer`,
`none` for a nil slice. -/
structure NvmeCmd where
  opcode : Byte := 0
  flags : Byte := 0
  rsvd1 : BitVec 16 := 0
  nsid : BitVec 32 := 0
  cdw2 : BitVec 32 := 0
  cdw3 : BitVec 32 := 0
  metadata : BitVec 64 := 0
  metadataLen : BitVec 32 := 0
  dataLen : BitVec 32 := 0
  cdw10 : BitVec 32 := 0
  cdw11 : BitVec 32 := 0
  cdw12 : BitVec 32 := 0
  cdw13 : BitVec 32 := 0
  cdw14 : BitVec 32 := 0
  cdw15 : BitVec 32 := 0
  timeoutMs : BitVec 32 := 0
  result : BitVec 32 := 0
  dataAddr : BitVec 64 := 0
  dataBuffer : Option Bytes := none
deriving DecidableEq, Repr

/-- Calls on the driver (common/driver.go:28-47) that reach it. -/
inductive DrvReq where
  | sec (rw dma : Bool) (protocol : Byte) (comId : BitVec 16) (data : Bytes) (timeoutSecs : Nat)
  | taskFile (rw dma : Bool) (tf : Tf) (data : Bytes) (timeoutSecs : Nat)
  /-- a taskfile command with a nil buffer -/
  | taskNil (rw dma : Bool) (tf : Tf) (timeoutSecs : Nat)
  | nvmeAdmin (cmd : NvmeCmd)
  | logPage (nsid logId : BitVec 32) (rae : Bool) (size : Nat)
  | drivingType
  | driverName
  | close
deriving DecidableEq

/-- The driver's answer: the error, the bytes it stored at the start of the data buffer it was handed (also
the log page or the driver name), the memory found behind the buffer, the taskfile afterwards, the driving
type. -/
structure DrvRep where
  err : Option GoErr := none
  data : Bytes := []
  behind : Nat → Byte := fun _ => 0
  tf : Tf := {}
  num : Nat := 0

/-- Programs of the handle. -/
abbrev DrvM (α : Type) := OutT DrvReq DrvRep α

/-- The driver in `Dh`: which interfaces it satisfies (common/driver.go:36-47) and its identity data. -/
structure Driver where
  ata : Bool
  nvme : Bool
  identity : Bytes
deriving DecidableEq

/-- common/types.go:62-96 `DriveInfo`: the fields the handle itself writes. `ataIdentity`/`nvmeIdentity` hold
the bytes of every record field. -/
structure DriveInfo where
  model : Bytes := []
  serial : Bytes := []
  firmware : Bytes := []
  rawSerial : Bytes := zeros 20
  smartEnabled : Bool := false
  ataIdentity : Option (List Bytes) := none
  ataIdentityRaw : Option Bytes := none
  nvmeIdentity : Option (List Bytes) := none
  nvmeIdentityRaw : Option Bytes := none
  isSsd : Bool := false
  ssdCheckWeight : Nat := 0
  tcgSupport : Int := 0
  level0 : Level0 := {}

/-- common/drive_handle.go:17-21 `DriveHandleImpl`; `dh = none` is a nil `Dh`. -/
structure Handle where
  dh : Option Driver
  info : DriveInfo := {}

/-- A buffer after a call that stored `data` at its start. -/
def storeInto (buf data : Bytes) : Bytes := copyAt buf 0 (data.take buf.length)

namespace Layout
/-- Index of `SerialNumber` in `ataIdentity` (ata/types.go:310). -/
abbrev ixSerial : Nat := 8
/-- Index of `FirmwareRevision` (ata/types.go:313). -/
abbrev ixFirmware : Nat := 11
/-- Index of `ModelNumber` (ata/types.go:314). -/
abbrev ixModel : Nat := 12
/-- Index of `CommandSetSupport.A`, word 82 (ata/types.go:225,362). -/
abbrev ixSupport : Nat := 46
/-- Index of `CommandSetActive.A`, word 85 (ata/types.go:235,363). -/
abbrev ixActive : Nat := 49
/-- Index of `Word168.A` (ata/types.go:416). -/
abbrev ixWord168 : Nat := 83
/-- Index of `NominalMediaRotationRate`, word 217 (ata/types.go:437). -/
abbrev ixRotation : Nat := 96
/-- Indices of `Sn`, `Mn`, `Fr` in `nvmeIdentity` (nvme/types.go:328-330). -/
abbrev ixSn : Nat := 2
abbrev ixMn : Nat := 3
abbrev ixFr : Nat := 4
end Layout

/-- The bytes of field `i`. -/
def field (fs : List Bytes) (i : Nat) : Bytes := fs.getD i []

/-- Integer field `k` of `NvmeIdentity`: `struc.Unpack` without options decodes big-endian
(common/drive_handle.go:72; struc's default order). -/
def DriveInfo.nvmeUint (i : DriveInfo) (k : Nat) : Option Nat :=
  i.nvmeIdentity.map (fun fs => Spec.beVal (field fs k))

/-- common/drive_handle.go:40-42: the three strings are swapped inside the record. -/
def swapIdentity (fs : List Bytes) : P (List Bytes) := do
  let m ← ataSwapWordEndian (field fs Layout.ixModel)
  let s ← ataSwapWordEndian (field fs Layout.ixSerial)
  let f ← ataSwapWordEndian (field fs Layout.ixFirmware)
  .ret (((fs.set Layout.ixModel m).set Layout.ixSerial s).set Layout.ixFirmware f)

/-- common/drive_handle.go:49, ata/types.go:230-242 -/
def smartBits (fs : List Bytes) : Bool :=
  decide (leVal (field fs Layout.ixSupport) % 2 = 1) && decide (leVal (field fs Layout.ixActive) % 2 = 1)

/-- common/drive_handle.go:50-58 (integers little-endian, internal/utils.go:17-22) -/
def ssdWeight (fs : List Bytes) : Nat :=
  (if leVal (field fs Layout.ixWord168) % 16 = 5 then 1 else 0) +
  (if leVal (field fs Layout.ixRotation) = 0 ∨ leVal (field fs Layout.ixRotation) = 1 then 1 else 0)

/-- common/drive_handle.go:30,38,44-63: the information after a decoded ATA identity `fs`. -/
def learnAta (raw : Bytes) (fs : List Bytes) (i : DriveInfo) : DriveInfo :=
  { i with
    ataIdentityRaw := some raw,
    ataIdentity := some fs,
    model := goTrim (field fs Layout.ixModel),
    firmware := goTrim (field fs Layout.ixFirmware),
    rawSerial := storeInto i.rawSerial (field fs Layout.ixSerial),
    serial := goTrim (field fs Layout.ixSerial),
    smartEnabled := smartBits fs,
    ssdCheckWeight := ssdWeight fs,
    isSsd := decide (ssdWeight fs > 0) }

/-- common/drive_handle.go:28-64: the ATA part of `Init`. -/
def initAta (raw : Bytes) (i : DriveInfo) : P (DriveInfo × Option GoErr) := do
  match ← unpackBytes Layout.ataIdentity raw with
  | .err e => .ret ({ i with ataIdentityRaw := some raw }, some e)
  | .panic => .panic
  | .ok fs0 =>
    let fs ← swapIdentity fs0
    .ret (learnAta raw fs i, none)

/-- common/drive_handle.go:69,75-82: the information after a decoded NVMe identity `fs`. -/
def learnNvme (raw : Bytes) (fs : List Bytes) (i : DriveInfo) : DriveInfo :=
  { i with
    nvmeIdentityRaw := some raw,
    nvmeIdentity := some fs,
    model := goTrim (field fs Layout.ixMn),
    firmware := goTrim (field fs Layout.ixFr),
    rawSerial := storeInto i.rawSerial (field fs Layout.ixSn),
    serial := goTrim (field fs Layout.ixSn),
    smartEnabled := true,
    isSsd := true,
    ssdCheckWeight := 0 }

/-- common/drive_handle.go:66-83: the NVMe part of `Init`. -/
def initNvme (raw : Bytes) (i : DriveInfo) : P (DriveInfo × Option GoErr) := do
  match ← unpackBytes Layout.nvmeIdentity raw with
  | .err e => .ret ({ i with nvmeIdentityRaw := some raw }, some e)
  | .panic => .panic
  | .ok fs => .ret (learnNvme raw fs i, none)

/-- The ATA part when the driver has that interface (`p.Dh.(AtaDriverHandle)`; false for a nil `Dh`). -/
def initAtaPart (dh : Option Driver) (i : DriveInfo) : P (DriveInfo × Option GoErr) :=
  match dh with
  | some d => if d.ata then initAta d.identity i else .ret (i, none)
  | none => .ret (i, none)

/-- The NVMe part when the driver has that interface. -/
def initNvmePart (dh : Option Driver) (i : DriveInfo) : P (DriveInfo × Option GoErr) :=
  match dh with
  | some d => if d.nvme then initNvme d.identity i else .ret (i, none)
  | none => .ret (i, none)

/-- ata/types.go:26-29 and common/drive_handle.go:148-152: the opcode of the taskfile fallback. -/
def trustedOpcode (rw dma : Bool) : Byte :=
  if rw then ternary dma 0x5f#8 0x5e#8 else ternary dma 0x5d#8 0x5c#8

/-- common/drive_handle.go:145-154: the taskfile of the fallback. -/
def securityTf (rw dma : Bool) (protocol : Byte) (comId : BitVec 16) (len : Nat) : Tf :=
  { command := trustedOpcode rw dma,
    lob := { feat := protocol, nsect := BitVec.ofNat 8 (len / 512),
             lbam := comId.setWidth 8, lbah := (comId >>> 8).setWidth 8 } }

/-- common/drive_handle.go:161-166, nvme/types.go:185-186: the admin command of the fallback. -/
def securityNvme (rw : Bool) (protocol : Byte) (comId : BitVec 16) (buf : Bytes) : NvmeCmd :=
  { opcode := ternary rw 0x81#8 0x82#8,
    dataBuffer := some buf,
    dataLen := BitVec.ofNat 32 buf.length,
    cdw10 := ((protocol.setWidth 32 &&& 0xff#32) <<< 24) ||| ((comId.setWidth 32 &&& 0xffff#32) <<< 8),
    cdw11 := BitVec.ofNat 32 buf.length }

/-- `err.Error() == "not supported"` (common/drive_handle.go:179). -/
def GoErr.isNotSupported : GoErr → Bool
  | .msg s => s == "not supported"
  | _ => false

namespace Handle

/-- common/drive_handle.go:134-173 `SecurityCommand`: error, buffer content afterwards, memory behind it. -/
def securityCommand (h : Handle) (rw dma : Bool) (protocol : Byte) (comId : BitVec 16) (buf : Bytes)
    (timeoutSecs : Nat) : DrvM SecRep :=
  match h.dh with
  | none => OutT.ret { err := some (.msg "not supported"), data := buf }
  | some d => do
    let r ← OutT.ask (.sec rw dma protocol comId buf timeoutSecs)
    let buf1 := storeInto buf r.data
    match r.err with
    | none => OutT.ret { err := none, data := buf1, behind := r.behind }
    | some e =>
      if d.ata then do
        let r2 ← OutT.ask (.taskFile rw dma (securityTf rw dma protocol comId buf1.length) buf1 timeoutSecs)
        OutT.ret { err := r2.err, data := storeInto buf1 r2.data, behind := r2.behind }
      else if d.nvme then do
        let r2 ← OutT.ask (.nvmeAdmin (securityNvme rw protocol comId buf1))
        OutT.ret { err := r2.err, data := storeInto buf1 r2.data, behind := r2.behind }
      else OutT.ret { err := some e, data := buf1, behind := r.behind }

/-- tcg/constants MIN_BUFFER_LENGTH: size of the discovery buffer (common/drive_handle.go:176). -/
abbrev discoverySize : Nat := 2048

/-- common/drive_handle.go:178-185: the information after the security command failed. -/
def afterFailure (i : DriveInfo) (e : GoErr) : DriveInfo :=
  { i with tcgSupport := if e.isNotSupported then -1 else 0 }

/-- common/drive_handle.go:187-239: the information after parsing (`tcgSupport` is set before). -/
def afterParse (i : DriveInfo) (l : Level0) : DriveInfo := { i with tcgSupport := 1, level0 := l }

/-- common/drive_handle.go:175-240 `TcgDiscovery0`. (What is stored before a panic: Model/Recover.lean.) -/
def tcgDiscovery0 (h : Handle) : DrvM (Handle × Option GoErr) := do
  let r ← h.securityCommand false false 0x01 0x0001 (zeros discoverySize) 3
  match r.err with
  | some e => OutT.ret ({ h with info := afterFailure h.info e }, some e)
  | none =>
    let (l, e) ← OutT.lift (discoveryParse h.info.level0 r.data r.behind)
    OutT.ret ({ h with info := afterParse h.info l }, e)

/-- common/drive_handle.go:85: a new map; the flags stay. -/
def makeMap (i : DriveInfo) : DriveInfo :=
  { i with level0 := { i.level0 with raw := fun _ => none, made := true } }

/-- common/drive_handle.go:27-89 `Init`. -/
def init (h : Handle) : DrvM (Handle × Option GoErr) := do
  let (i1, e1) ← OutT.lift (initAtaPart h.dh h.info)
  match e1 with
  | some e => OutT.ret ({ h with info := i1 }, some e)
  | none =>
    let (i2, e2) ← OutT.lift (initNvmePart h.dh i1)
    match e2 with
    | some e => OutT.ret ({ h with info := i2 }, some e)
    | none =>
      let (h', _) ← tcgDiscovery0 { h with info := makeMap i2 }
      OutT.ret (h', none)

/-- common/drive_handle.go:95-100 `Close` -/
def close (h : Handle) : DrvM Handle :=
  match h.dh with
  | none => OutT.ret h
  | some _ => do
    let _ ← OutT.ask .close
    OutT.ret { h with dh := none }

/-- common/drive_handle.go:106-108 `GetDrivingType`: a nil `Dh` panics. -/
def getDrivingType (h : Handle) : DrvM Nat :=
  match h.dh with
  | none => OutT.panic
  | some _ => do
    let r ← OutT.ask .drivingType
    OutT.ret r.num

/-- common/drive_handle.go:110-112 `GetDriverName` -/
def getDriverName (h : Handle) : DrvM Bytes :=
  match h.dh with
  | none => OutT.panic
  | some _ => do
    let r ← OutT.ask .driverName
    OutT.ret r.data

/-- common/drive_handle.go:118-124 `AtaDoTaskFileCmd` with a buffer: error, taskfile and buffer afterwards. -/
def ataDoTaskFileCmd (h : Handle) (rw dma : Bool) (tf : Tf) (data : Bytes) (timeoutSecs : Nat) :
    DrvM (Option GoErr × Tf × Bytes) :=
  match h.dh with
  | none => OutT.ret (some .notSupportThisDriver, tf, data)
  | some d =>
    if d.ata then do
      let r ← OutT.ask (.taskFile rw dma tf data timeoutSecs)
      OutT.ret (r.err, r.tf, storeInto data r.data)
    else OutT.ret (some .notSupportThisDriver, tf, data)

/-- common/drive_handle.go:118-124 `AtaDoTaskFileCmd` with a nil buffer: error and taskfile afterwards. -/
def ataDoTaskFileNil (h : Handle) (rw dma : Bool) (tf : Tf) (timeoutSecs : Nat) : DrvM (Option GoErr × Tf) :=
  match h.dh with
  | none => OutT.ret (some .notSupportThisDriver, tf)
  | some d =>
    if d.ata then do
      let r ← OutT.ask (.taskNil rw dma tf timeoutSecs)
      OutT.ret (r.err, r.tf)
    else OutT.ret (some .notSupportThisDriver, tf)

/-- common/drive_handle.go:126-132 `NvmeGetLogPage` -/
def nvmeGetLogPage (h : Handle) (nsid logId : BitVec 32) (rae : Bool) (size : Nat) :
    DrvM (Option Bytes × Option GoErr) :=
  match h.dh with
  | none => OutT.ret (none, some .notSupportThisDriver)
  | some d =>
    if d.nvme then do
      let r ← OutT.ask (.logPage nsid logId rae size)
      OutT.ret (some r.data, r.err)
    else OutT.ret (none, some .notSupportThisDriver)

/-- common/drive_handle.go:242-244 `GetTcgLevel0InfoAndSerial` -/
def getTcgLevel0InfoAndSerial (h : Handle) : Level0 × Bytes := (h.info.level0, h.info.serial)

end Handle
end Dparm
