import Verif.Model.OutT
import Verif.Model.Command
import Verif.Model.Response
/-!
# tcg/device.go, tcg/drive_handle.go: devices and command execution

The drive behind `DriveCommandHandler`, the clock and sleeping are the environment.
-/
namespace Dparm
open Spec (beVal leVal)

/-- A descriptor in `TcgRawFeatures`: the slice's bytes, and the memory behind the slice (the rest of the
discovery buffer and what follows it), which overlay reads can reach. -/
structure RawFeat where
  data : Bytes
  behind : Nat → Byte

/-- tcg/drive_handle.go:6-17 `TcgLevel0Info` (lines of that file). `raw` is the map's content; `made` says
whether the map was allocated (writing to a nil map panics). -/
structure Level0 where
  tper : Bool := false
  locking : Bool := false
  geometry : Bool := false
  opalV100 : Bool := false
  opalV200 : Bool := false
  enterprise : Bool := false
  singleUser : Bool := false
  dataStore : Bool := false
  raw : BitVec 16 → Option RawFeat := fun _ => none
  made : Bool := false

/-- tcg/types.go:17-24 -/
abbrev FcTPer : BitVec 16 := 0x0001
abbrev FcLocking : BitVec 16 := 0x0002
abbrev FcGeometryReporting : BitVec 16 := 0x0003
abbrev FcEnterprise : BitVec 16 := 0x0100
abbrev FcDataStore : BitVec 16 := 0x0202
abbrev FcSingleUser : BitVec 16 := 0x0201
abbrev FcOpalSscV100 : BitVec 16 := 0x0200
abbrev FcOpalSscV200 : BitVec 16 := 0x0203

/-- The device kinds `NewTcgDevice` can return (tcg/device.go:56-80). -/
inductive DevKind where
  | generic | opal1 | opal2 | enterprise
deriving DecidableEq, Repr

/-- A device: its kind, the discovery information and serial copied at creation (tcg/drive_handle.go:30-37).
The `TcgRawFeatures` map is shared with the drive handle in the code; `info.raw` stands for its content
when the method runs. -/
structure Device where
  kind : DevKind
  info : Level0
  serial : Bytes

/-- tcg/device.go:48-81 `NewTcgDevice` (its error is always nil). -/
def newTcgDevice (info : Level0) (serial : Bytes) : Device :=
  { kind := if info.opalV100 then .opal1
            else if info.opalV200 then .opal2
            else if info.enterprise then .enterprise
            else .generic,
    info := info, serial := serial }

namespace Device

/-- tcg/device.go:91-93; tcg/device_opal.go:13-15,61-63 `IsAnySSC` (Enterprise does not override it). -/
def isAnySSC (d : Device) : Bool := match d.kind with
  | .opal1 => true | .opal2 => true | .enterprise => false | .generic => false

/-- tcg/device_enterprise.go:12-14: `GetDeviceType() == OpalEnterpriseDevice`. -/
def isEnterprise (d : Device) : Bool := d.kind == .enterprise

/-- Byte `i` of the memory starting at a raw feature: `(*T)(unsafe.Pointer(&data[0]))` then a field. The
slice of a stored descriptor is never empty, so `&data[0]` does not panic. -/
def overlay (f : RawFeat) (i : Nat) : Byte := memAt f.data f.behind i

/-- tcg/device.go:99-172: the five lock-state queries, bit `k` of byte 4 of the locking descriptor. -/
def lockBit (d : Device) (k : Nat) : Bool :=
  if !d.info.locking then false
  else match d.info.raw FcLocking with
    | none => false
    | some f => ((overlay f 4 >>> k) &&& 0x01) != 0

/-- tcg/device.go:95-97 -/
def isLockingSupported (d : Device) : Bool := d.info.locking
/-- tcg/device.go:99-112 -/
def isLockingEnabled (d : Device) : Bool := d.lockBit 1
/-- tcg/device.go:114-127 -/
def isLocked (d : Device) : Bool := d.lockBit 2
/-- tcg/device.go:129-142 -/
def isMBREnabled (d : Device) : Bool := d.lockBit 4
/-- tcg/device.go:144-157 -/
def isMBRDone (d : Device) : Bool := d.lockBit 5
/-- tcg/device.go:159-172 -/
def isMediaEncryption (d : Device) : Bool := d.lockBit 3

/-- Feature code whose descriptor the device's `GetBaseComId`/`GetNumComIds` read. -/
def sscCode (d : Device) : Option (BitVec 16) := match d.kind with
  | .opal1 => some FcOpalSscV100
  | .opal2 => some FcOpalSscV200
  | .enterprise => some FcEnterprise
  | .generic => none

/-- Big-endian 16-bit field at offset `i` of the device's SSC descriptor, 0 without one. -/
def sscField (d : Device) (i : Nat) : BitVec 16 :=
  match d.sscCode with
  | none => 0
  | some c => match d.info.raw c with
    | none => 0
    | some f => ((overlay f i).setWidth 16 <<< 8) ||| (overlay f (i + 1)).setWidth 16

/-- tcg/device.go:209-211; tcg/device_opal.go:21-31,69-79; tcg/device_enterprise.go:16-26 `GetBaseComId`. -/
def baseComId (d : Device) : BitVec 16 := d.sscField 4
/-- tcg/device.go:213-215; tcg/device_opal.go:33-43,81-91; tcg/device_enterprise.go:28-38 `GetNumComIds`. -/
def numComIds (d : Device) : BitVec 16 := d.sscField 6

end Device

/-- What the TCG layer asks of its environment: a security command on the drive
(`DriveCommandHandler.SecurityCommand`, tcg/drive_handle.go:20), the current time, or a sleep. `data` is
the buffer as handed over. -/
inductive SecReq where
  | sec (rw dma : Bool) (protocol : Byte) (comId : BitVec 16) (data : Bytes) (timeoutSecs : Nat)
  | now
  | sleep (ns : Nat)
deriving DecidableEq

/-- Answer: error, the bytes the call stored at the start of the buffer, the memory found behind the
buffer at that time, and the time in ns (for `now`). -/
structure SecRep where
  err : Option GoErr := none
  data : Bytes := []
  behind : Nat → Byte := fun _ => 0
  time : Nat := 0

/-- Programs of the TCG layer. -/
abbrev TcgM (α : Type) := OutT SecReq SecRep α

/-- 25 ms, tcg/device.go:189 -/
abbrev pollSleep : Nat := 25000000
/-- 10000 ms, tcg/device.go:175 -/
abbrev execTimeout : Nat := 10000000000

/-- Response buffer after a receive: zeroed by `Reset`, then overwritten by what the drive delivered. -/
def received (r : SecRep) : Bytes := copyAt (zeros respSize) 0 (r.data.take respSize)

/-- tcg/device.go:187 loop condition: `Outstanding` (native `uint32` at 8) non-zero and `MinTransfer`
(at 12) zero. -/
def morePending (buf : Bytes) : Bool := leVal (slice buf 8 4) != 0 && leVal (slice buf 12 4) == 0

namespace Device

/-- The receive request of one polling round, tcg/device.go:193. -/
def recvReq (d : Device) (protocol : Byte) : SecReq :=
  .sec false false protocol d.baseComId (zeros respSize) 5

/-- tcg/device.go:187-206: polling rounds and the final parse; `fuel` bounds the number of rounds. -/
def poll (d : Device) (protocol : Byte) (beginAt : Nat) : Nat → TcgM (Option Resp × Option GoErr)
  | 0 => OutT.running
  | fuel + 1 => do
    let t ← OutT.ask .now
    let _ ← OutT.ask (.sleep pollSleep)
    let r ← OutT.ask (d.recvReq protocol)
    let resp : Resp := { buf := received r, tokens := [] }
    match r.err with
    | some e => OutT.ret (some resp, some e)
    | none =>
      if t.time - beginAt > execTimeout then OutT.ret (some resp, some (.msg "timeout"))
      else if morePending resp.buf then poll d protocol beginAt fuel
      else
        let c := resp.commit r.behind
        OutT.ret (some c.1, c.2)

/-- The send request, tcg/device.go:182. -/
def sendReq (d : Device) (protocol : Byte) (wire : Bytes) : SecReq :=
  .sec true false protocol d.baseComId wire 5

/-- tcg/device.go:174-207 `Exec`. -/
def exec (fuel : Nat) (d : Device) (cmd : ABuf) (protocol : Byte) :
    TcgM (Option Resp × Option GoErr) := do
  let t0 ← OutT.ask .now
  if !d.isAnySSC then OutT.ret (none, some (.msg "not supported"))
  else
    let r ← OutT.ask (d.sendReq protocol (Cmd.wire cmd))
    match r.err with
    | some e => OutT.ret (none, some e)
    | none => poll d protocol t0.time fuel

end Device
end Dparm
