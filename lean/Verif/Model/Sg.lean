import Verif.Model.AtaUtil
import Verif.Model.Buffer
import Verif.Model.Cdb
/-!
# plat_linux/sg_driver.go: the Linux SCSI-generic driver

The kernel behind `ioctl(fd, SG_IO, …)` is the environment. Trusted contract of SG_IO: it reads the header and the
CDB, transfers at most `dxfer_len` bytes from or to the memory `dxferp` names according to the direction, writes at most
`mx_sb_len` bytes of sense data, and writes the status; it writes to no other memory. A failed call may have done any
part of that.
-/
namespace Dparm
open Spec (beBytes)

/-- What `Dxferp` names when the ioctl is issued. -/
inductive Dxfer where
  /-- Go memory at an address, with its content at that time -/
  | mem (addr : Nat) (content : Bytes)
  /-- a number that is not the address of any Go object -/
  | raw (addr : Nat)
  /-- plat_linux/sg_driver.go:99: `&dataBuffer`, the address of a slice header -/
  | sliceHeader
deriving DecidableEq, Repr

/-- The header fields of one SG_IO (plat_linux/sg_types.go:3-26). `dir` as in sg_types.go:70-72. -/
structure SgReq where
  dir : Int
  cdb : Bytes
  mxSbLen : Nat
  dxferLen : Nat
  dxferp : Dxfer
  timeout : BitVec 32
  packId : BitVec 32
deriving DecidableEq, Repr

/-- Requests to the kernel. -/
inductive KReq where
  | sgIo (r : SgReq)
  | close
deriving DecidableEq, Repr

/-- The kernel's answer: error number as an error, the bytes it transferred to memory (for from-device), the sense bytes
and the status byte it stored. -/
structure SgRep where
  err : Option GoErr := none
  data : Bytes := []
  sense : Bytes := []
  status : Byte := 0
deriving DecidableEq, Repr

/-- Programs of the SG driver. -/
abbrev SgM (α : Type) := OutT KReq SgRep α

/-- The output part of `SG_IO_HDR_WITH_SENSE_BUF` (plat_linux/sg_types.go:28-32): `Status` and `SenseData [32]byte`. -/
structure SgOut where
  status : Byte := 0
  sense : Bytes := zeros 32
deriving DecidableEq, Repr

/-- What the ioctl does to the header's output fields (contract above). -/
def SgOut.after (o : SgOut) (q : SgReq) (r : SgRep) : SgOut :=
  { status := r.status, sense := storeInto o.sense (r.sense.take q.mxSbLen) }

/-- What the ioctl does to the memory at `Dxferp` (contract above): only for from-device, at most `dxferLen` bytes. -/
def SgReq.kernelStore (q : SgReq) (m : Bytes) (r : SgRep) : Bytes :=
  if q.dir = -3 then storeInto m (r.data.take q.dxferLen) else m

/-- plat_linux/sg_types.go:70-72 and sg_driver.go:98 -/
def sgDir (hasData rw : Bool) : Int := if hasData then (if rw then -2 else -3) else -1

/-- plat_linux/sg_driver.go:122-126,163-167 and sg_types.go:91-94 -/
def sgProtocol (hasData rw dma : Bool) : Byte :=
  if dma then ternary hasData 6#8 3#8 else ternary hasData (ternary rw 5#8 4#8) 3#8

/-- plat_linux/sg_driver.go:122-134,163-175: the flag bytes after the setters, starting from `c`. -/
def sgFlags (c : PassFlags) (hasData rw dma : Bool) : PassFlags :=
  let c := c.setProtocol (sgProtocol hasData rw dma)
  if hasData then ((c.setTLength 2#8).setByteBlock true).setTDir (!rw) else c.setCkCond true

/-- plat_linux/sg_driver.go:104-191: the packed CDB; the records consist of single bytes
(plat_linux/types_ata_passthu.go:33-46,116-133). -/
def sgTaskCdb (tf : Tf) (hasData rw dma : Bool) : Bytes :=
  if tf.isLba48 ≠ 0#8 then
    let f := sgFlags { b01 := 0#8 ||| 1#8 } hasData rw dma
    [0x85#8, f.b01, f.b02, tf.hob.feat, tf.lob.feat, tf.hob.nsect, tf.lob.nsect, tf.hob.lbal, tf.lob.lbal,
     tf.hob.lbam, tf.lob.lbam, tf.hob.lbah, tf.lob.lbah, tf.dev, tf.command, 0#8]
  else
    let f := sgFlags {} hasData rw dma
    [0xa1#8, f.b01, f.b02, tf.lob.feat, tf.lob.nsect, tf.lob.lbal, tf.lob.lbam, tf.lob.lbah, tf.dev, tf.command, 0#8, 0#8]

/-- Memory handed to the first ioctl for a non-nil `data` at address `addr` (plat_linux/sg_driver.go:201-209,358-366):
the caller's memory if its address is a multiple of 512, otherwise a fresh aligned buffer that holds a copy when writing.
`base` is where the runtime places the fresh buffer. `&data[0]` panics on an empty slice. -/
def sgFirstMem (rw : Bool) (data : Bytes) (addr base : Nat) : P (Dxfer × Option ABuf) :=
  if data = [] then .panic
  else if isAlignedPointer 512 addr then .ret (.mem addr data, none)
  else
    let ab := newAlignedBuffer base 512 data.length
    if rw then do
      let (ab, _, _) ← (ab.resetWrite).write data
      .ret (.mem ab.pointer ab.buf, some ab)
    else .ret (.mem ab.pointer ab.buf, some ab)

/-- The kernel's transfer seen in the aligned buffer. -/
def ABuf.kernel (ab : ABuf) (q : SgReq) (r : SgRep) : ABuf :=
  { ab with mem := copyAt ab.mem ab.off (q.kernelStore ab.buf r) }

/-- plat_linux/sg_driver.go:212-220,368-376: the caller's buffer after the first ioctl. Without a copy the kernel's
stores are visible whatever the result; with one they are copied back only after a successful read. -/
def sgAfterFirst (rw : Bool) (data : Bytes) (ab : Option ABuf) (q : SgReq) (r : SgRep) : P Bytes :=
  match ab with
  | none => .ret (q.kernelStore data r)
  | some ab =>
    if r.err = none && !rw then do
      let (_, d, _) ← ((ab.kernel q r).resetRead).read data.length
      .ret (storeInto data d)
    else .ret data

/-- scsi/types.go:34-36 `GetSenseKey` on the first 18 bytes -/
def senseKey (sense : Bytes) : Byte := sense.getD 2 0#8 &&& 0x0f#8

/-- plat_linux/sg_driver.go:259-280: the taskfile registers from the sense descriptor (`desc = SenseData[8:]`). -/
def sgTfFromSense (tf : Tf) (sense : Bytes) : Tf :=
  let d : Nat → Byte := fun i => (sense.drop 8).getD i 0#8
  let is48 := d 2 &&& 1#8
  { tf with
    isLba48 := is48, error := d 3, dev := d 12, status := d 13,
    lob := { tf.lob with nsect := d 5, lbal := d 7, lbam := d 9, lbah := d 11 },
    hob := if is48 ≠ 0#8 then { feat := 0, nsect := d 4, lbal := d 6, lbam := d 8, lbah := d 10 }
           else { feat := 0, nsect := 0, lbal := 0, lbam := 0, lbah := 0 } }

/-- plat_linux/sg_driver.go:243-282: result and taskfile. -/
def sgTaskFinish (rootError : Option GoErr) (o : SgOut) (tf : Tf) : Option GoErr × Tf :=
  if rootError = none && senseKey o.sense != 0#8 then (some (.dparm o.status (o.sense.take 18)), tf)
  else (rootError, sgTfFromSense tf o.sense)

/-- `int(unsafe.Sizeof(sgParams))` on a 64-bit platform (plat_linux/sg_driver.go:222,378; record sg_types.go:3-32). -/
abbrev sgHdrSize : Nat := 128

/-- plat_linux/sg_driver.go:86-90: a buffer to be written out is zeroed first. -/
def sgZeroOut (rw : Bool) (data : Option Bytes) : Option Bytes :=
  if rw then data.map (fun d => zeros d.length) else data

/-- plat_linux/sg_driver.go:96-102,193-196: the header of the ioctl for memory `x`. -/
def sgTaskReq (rw dma : Bool) (tf : Tf) (data : Option Bytes) (timeoutSecs : Nat) (x : Dxfer) : SgReq :=
  { dir := sgDir data.isSome rw,
    cdb := sgTaskCdb tf data.isSome rw dma,
    mxSbLen := 32,
    dxferLen := match data with
      | none => 0
      | some d => (BitVec.ofNat 32 d.length).toNat,
    dxferp := x,
    timeout := BitVec.ofNat 32 timeoutSecs,
    packId := (tfToLba tf).setWidth 32 }

/-- plat_linux/sg_driver.go:199-210: memory for the first ioctl. -/
def sgTaskMem (rw : Bool) (data : Option Bytes) (addr base : Nat) : P (Dxfer × Option ABuf) :=
  match data with
  | none => .ret (.sliceHeader, none)
  | some d => sgFirstMem rw d addr base

/-- plat_linux/sg_driver.go:212-220: the buffer after the first ioctl. -/
def sgTaskAfter (rw : Bool) (data : Option Bytes) (ab : Option ABuf) (q : SgReq) (r : SgRep) : P (Option Bytes) :=
  match data with
  | none => .ret none
  | some d => do .ret (some (← sgAfterFirst rw d ab q r))

/-- plat_linux/sg_driver.go:82-283 `doTaskFileCmd`: error, taskfile and buffer afterwards. `data = none` is a nil slice;
`addr` is the address of `data[0]`, `base` the place of the aligned copy. The second round (lines 221-239) passes the
header with `Dxferp` set to the header's size; `buffer` holds a snapshot of header and data, both copied back after
success. -/
def sgTaskFile (rw dma : Bool) (tf : Tf) (data : Option Bytes) (addr base : Nat) (timeoutSecs : Nat) :
    SgM (Option GoErr × Tf × Option Bytes) := do
  let data := sgZeroOut rw data
  let (x, ab) ← OutT.lift (sgTaskMem rw data addr base)
  let q := sgTaskReq rw dma tf data timeoutSecs x
  let r ← OutT.ask (.sgIo q)
  let data ← OutT.lift (sgTaskAfter rw data ab q r)
  let o : SgOut := SgOut.after {} q r
  match r.err with
  | none =>
    let (e, tf) := sgTaskFinish none o tf
    OutT.ret (e, tf, data)
  | some _ =>
    let q2 := sgTaskReq rw dma tf data timeoutSecs (.raw sgHdrSize)
    let r2 ← OutT.ask (.sgIo q2)
    match r2.err with
    | some e2 =>
      let (e, tf) := sgTaskFinish (some e2) (o.after q2 r2) tf
      OutT.ret (e, tf, data)
    | none =>
      let (e, tf) := sgTaskFinish none o tf
      OutT.ret (e, tf, data)

/-- plat_linux/sg_driver.go:331-354, record sg_types.go:34-43: the packed security protocol CDB (`struc` writes
integers big-endian). -/
def sgSecCdb (rw : Bool) (protocol : Byte) (comId : BitVec 16) (len : Nat) : Bytes :=
  [if rw then 0xb5#8 else 0xa2#8, protocol] ++ beBytes 2 comId.toNat ++ [0#8, 0#8] ++
    beBytes 4 (BitVec.ofNat 32 len).toNat ++ [0#8, 0#8]

/-- plat_linux/sg_driver.go:325-350: the header; `MxSbLen` is never set (line 328 sets the output field `SbLenWr`). -/
def sgSecReq (rw : Bool) (protocol : Byte) (comId : BitVec 16) (data : Bytes) (timeoutSecs : Nat) (x : Dxfer) : SgReq :=
  { dir := if rw then -2 else -3,
    cdb := sgSecCdb rw protocol comId data.length,
    mxSbLen := 0,
    dxferLen := (BitVec.ofNat 32 data.length).toNat,
    dxferp := x,
    timeout := BitVec.ofNat 32 timeoutSecs * 1000#32,
    packId := 0 }

/-- plat_linux/sg_driver.go:397-413 -/
def sgSecFinish (rootError : Option GoErr) (o : SgOut) : Option GoErr :=
  if rootError = none && senseKey o.sense != 0#8 then some (.dparm o.status (o.sense.take 18)) else rootError

/-- plat_linux/sg_driver.go:313-414 `scsiSecurityCommand`: error and buffer afterwards (`dma` is not used). -/
def sgSecurity (rw : Bool) (protocol : Byte) (comId : BitVec 16) (data : Bytes) (addr base : Nat) (timeoutSecs : Nat) :
    SgM (Option GoErr × Bytes) := do
  let data := if rw then data else zeros data.length
  let (x, ab) ← OutT.lift (sgFirstMem rw data addr base)
  let q := sgSecReq rw protocol comId data timeoutSecs x
  let r ← OutT.ask (.sgIo q)
  let data ← OutT.lift (sgAfterFirst rw data ab q r)
  let o : SgOut := SgOut.after {} q r
  match r.err with
  | none => OutT.ret (sgSecFinish none o, data)
  | some _ =>
    let q2 := sgSecReq rw protocol comId data timeoutSecs (.raw sgHdrSize)
    let r2 ← OutT.ask (.sgIo q2)
    match r2.err with
    | some e2 => OutT.ret (sgSecFinish (some e2) (o.after q2 r2), data)
    | none => OutT.ret (sgSecFinish none o, data)

/-- plat_linux/sg_driver.go:61-64, types_ata_passthu.go:7 -/
def identifyTf : Tf := { command := 0xec#8, lob := { nsect := 1#8 } }

/-- plat_linux/sg_driver.go:60-80 `openImpl`: the identity block of the new handle, or the error. `base` is where the
runtime places the aligned buffer, so `addr` is its aligned start. -/
def sgOpen (base base' : Nat) : SgM (Res Bytes) := do
  let ab := newAlignedBuffer base 512 512
  let (e, _, d) ← sgTaskFile false false identifyTf (some ab.buf) ab.pointer base' 3
  match e with
  | some e => OutT.ret (.err e)
  | none =>
    let ab : ABuf := { ab with mem := copyAt ab.mem ab.off (d.getD []) }
    let (_, id, _) ← OutT.lift ((ab.resetRead).read 512)
    OutT.ret (.ok (storeInto (zeros 512) id))

/-- plat_linux/sg_driver.go:285-311: the SG driver handle as the driver behind a drive handle. `addr`, `base` are the
addresses of the buffer and of the aligned copy, `behind` the memory behind the buffer; `num` of driving type
`DrivingAtapi` (common/driver.go:18-22). The driver has no NVMe interface, so those requests never reach it. -/
def sgDriver (addr base : Nat) (behind : Nat → Byte) : DrvReq → SgM DrvRep
  | .sec rw _ p c data to => do
    let (e, d) ← sgSecurity rw p c data addr base to
    OutT.ret { err := e, data := d, behind := behind }
  | .taskFile rw dma tf data to => do
    let (e, tf, d) ← sgTaskFile rw dma tf (some data) addr base to
    OutT.ret { err := e, data := d.getD [], behind := behind, tf := tf }
  | .taskNil rw dma tf to => do
    let (e, tf, _) ← sgTaskFile rw dma tf none addr base to
    OutT.ret { err := e, behind := behind, tf := tf }
  | .close => do
    let _ ← OutT.ask .close
    OutT.ret {}
  | .drivingType => OutT.ret { num := 1 }
  | .driverName => OutT.ret { data := "LinuxScsiDriver".toUTF8.toList.map (fun b => BitVec.ofNat 8 b.toNat) }
  | .nvmeAdmin _ => OutT.panic
  | .logPage _ _ _ _ => OutT.panic

end Dparm
