import Verif.Model.DriveHandle
/-!
# ata_util/utils.go, and `tfToLba` of plat_linux/sg_driver.go
-/
namespace Dparm
open Spec (beVal)

/-- ata_util/utils.go:14-32 (opcodes ata/types.go:6-56): DSM, READ PIO EXT, READ DMA EXT, WRITE PIO EXT,
WRITE DMA EXT, READ VERIFY EXT, WRITE UNC EXT, READ NATIVE MAX EXT, SET MAX EXT, FLUSHCACHE EXT. -/
def lba48Ops : Bytes := [0x06#8, 0x24#8, 0x25#8, 0x34#8, 0x35#8, 0x42#8, 0x45#8, 0x27#8, 0x37#8, 0xea#8]

/-- ata_util/utils.go:34-40 (ata/types.go:38,61,62,65): SECURITY ERASE PREPARE, SECURITY ERASE UNIT,
VENDOR SPECIFIC 80, SMART. -/
def lba28Ops : Bytes := [0xf3#8, 0xf4#8, 0x80#8, 0xb0#8]

/-- ata_util/utils.go:10 `lba28_limit` -/
def lba28Limit : BitVec 64 := (1#64 <<< 28) - 1#64

/-- ata_util/utils.go:12-55 `IsNeedsLba48` (64-bit `uint`). -/
def isNeedsLba48 (op : Byte) (lba nsect : BitVec 64) : Bool :=
  if lba48Ops.contains op then true
  else if lba28Ops.contains op then false
  else if lba ≥ lba28Limit then true
  else if nsect > 0#64 then
    if nsect > 0xff#64 then true
    else if lba + nsect - 1#64 ≥ lba28Limit then true
    else false
  else false

/-- ata_util/utils.go:57-75 `IsDma`: DSM, READ/WRITE DMA EXT, READ/WRITE FPDMA, READ/WRITE DMA. -/
def isDma (op : Byte) : Bool := [0x06#8, 0x25#8, 0x60#8, 0x35#8, 0x61#8, 0xc8#8, 0xca#8].contains op

/-- ata_util/utils.go:78-93: the taskfile computed inside `TfInit` (a copy of the caller's). -/
def tfInitLocal (tf : Tf) (op : Byte) (lba nsect : BitVec 64) : Tf :=
  let tf1 : Tf := { tf with
    command := op, dev := 0x40#8,
    lob := { tf.lob with lbal := lba.setWidth 8, lbam := (lba >>> 8).setWidth 8, lbah := (lba >>> 16).setWidth 8,
                         nsect := nsect.setWidth 8 } }
  if isNeedsLba48 op lba nsect then
    { tf1 with
      isLba48 := 1#8,
      hob := { tf1.hob with nsect := (nsect >>> 8).setWidth 8, lbal := (lba >>> 24).setWidth 8,
                            lbam := (lba >>> 32).setWidth 8, lbah := (lba >>> 40).setWidth 8 } }
  else { tf1 with dev := tf1.dev ||| ((lba >>> 24) &&& 0x0f#64).setWidth 8 }

/-- The variables of type `ata.Tf`, by location. -/
abbrev TfMem := Nat → Tf
/-- Assignment to a variable. -/
def TfMem.store (mem : TfMem) (a : Nat) (tf : Tf) : TfMem := fun b => if b = a then tf else mem b

/-- ata_util/utils.go:77-94 `TfInit`, statement by statement on variables: the parameter `tf` is a new variable
(`param`) that receives a copy of the argument (`arg`); every assignment goes to it. -/
def tfInit (mem : TfMem) (arg param : Nat) (op : Byte) (lba nsect : BitVec 64) : TfMem :=
  let mem := mem.store param (mem arg)
  let mem := mem.store param { mem param with command := op }
  let mem := mem.store param { mem param with dev := 0x40#8 }
  let mem := mem.store param { mem param with lob := { (mem param).lob with lbal := lba.setWidth 8 } }
  let mem := mem.store param { mem param with lob := { (mem param).lob with lbam := (lba >>> 8).setWidth 8 } }
  let mem := mem.store param { mem param with lob := { (mem param).lob with lbah := (lba >>> 16).setWidth 8 } }
  let mem := mem.store param { mem param with lob := { (mem param).lob with nsect := nsect.setWidth 8 } }
  if isNeedsLba48 op lba nsect then
    let mem := mem.store param { mem param with isLba48 := 1#8 }
    let mem := mem.store param { mem param with hob := { (mem param).hob with nsect := (nsect >>> 8).setWidth 8 } }
    let mem := mem.store param { mem param with hob := { (mem param).hob with lbal := (lba >>> 24).setWidth 8 } }
    let mem := mem.store param { mem param with hob := { (mem param).hob with lbam := (lba >>> 32).setWidth 8 } }
    mem.store param { mem param with hob := { (mem param).hob with lbah := (lba >>> 40).setWidth 8 } }
  else
    mem.store param { mem param with dev := (mem param).dev ||| ((lba >>> 24) &&& 0x0f#64).setWidth 8 }

/-- plat_linux/sg_driver.go:34-46 `tfToLba` -/
def tfToLba (tf : Tf) : BitVec 64 :=
  let lba24 : BitVec 32 := (tf.lob.lbah.setWidth 32 <<< 16) ||| (tf.lob.lbam.setWidth 32 <<< 8) ||| tf.lob.lbal.setWidth 32
  let lbah : BitVec 32 :=
    if tf.isLba48 ≠ 0#8 then
      (tf.hob.lbah.setWidth 32 <<< 16) ||| (tf.hob.lbam.setWidth 32 <<< 8) ||| tf.hob.lbal.setWidth 32
    else (tf.dev &&& 0x0f#8).setWidth 32
  (lbah.setWidth 64 <<< 24) ||| lba24.setWidth 64

/-- ata_util/utils.go:97-112: the bytes `out[:outLen]` after the loop; `data[i+1]` panics on an odd last byte. -/
def fixLoop : Bytes → P Bytes
  | [] => .ret []
  | [_] => .panic
  | a :: b :: rest =>
    if b = 0#8 then .ret []
    else if a = 0#8 then .ret [b]
    else match fixLoop rest with
      | .panic => .panic
      | .ret r => .ret (b :: a :: r)

/-- ata_util/utils.go:114-118: drop trailing spaces. -/
def trimSpacesRight (s : Bytes) : Bytes := (s.reverse.dropWhile (fun b => b == 0x20#8)).reverse

/-- ata_util/utils.go:96-121 `FixAtaStringOrder` (the input is only read). -/
def fixAtaStringOrder (data : Bytes) (trimRight : Bool) : P Bytes := do
  let out ← fixLoop data
  .ret (if trimRight then trimSpacesRight out else out)

namespace Layout
/-- ata/types.go:470-484 `SmartAttribute` -/
def smartAttribute : List Nat := [1, 2, 1, 1, 6, 1]
/-- ata/types.go:498-526 `SmartAttributeValues` (30 attributes, ata/types.go:466) -/
def smartValues : List Nat :=
  [2] ++ (List.replicate 30 smartAttribute).flatten ++ [1, 1, 2, 1, 1, 2, 1, 1, 1, 1, 1, 2, 9, 125, 1]
/-- ata/types.go:486-490,535-541 `SmartAttributeThresholds` -/
def smartThresholds : List Nat :=
  [2] ++ (List.replicate 30 [1, 1, 10]).flatten ++ [18, 131, 1]
end Layout

/-- ata/types.go:470-484 `SmartAttribute` -/
structure SmartAttr where
  id : Byte
  flags : BitVec 16
  current : Byte
  worst : Byte
  raw : Bytes
deriving DecidableEq

/-- ata/types.go:470-484,498-500: `Attributes[i]` of the decoded values. ata_util/utils.go:140 calls `struc.Unpack`
without options, so the 16-bit `Flags` is read big-endian. -/
def smartAttr (v : List Bytes) (i : Nat) : SmartAttr :=
  { id := (v.getD (1 + 6 * i) []).getD 0 0, flags := BitVec.ofNat 16 (beVal (v.getD (2 + 6 * i) [])),
    current := (v.getD (3 + 6 * i) []).getD 0 0, worst := (v.getD (4 + 6 * i) []).getD 0 0, raw := v.getD (5 + 6 * i) [] }

/-- ata/types.go:498-499,535-536: `RevNumber` of either record, read big-endian like `Flags`. -/
def smartRev (v : List Bytes) : BitVec 16 := BitVec.ofNat 16 (beVal (v.getD 0 []))

/-- ata/types.go:486-490,537: `Attributes[i].Id` and `.Threshold` of the decoded thresholds. -/
def smartThreshold (t : List Bytes) (i : Nat) : Byte × Byte :=
  ((t.getD (1 + 3 * i) []).getD 0 0, (t.getD (2 + 3 * i) []).getD 0 0)

/-- ata_util/utils.go:129-137,144-152 (ata/types.go:38,94-104): the taskfile of a SMART read. -/
def smartTf (feat : Byte) : Tf :=
  { command := 0xb0#8, lob := { feat := feat, lbah := 0xc2#8, lbam := 0x4f#8, nsect := 1#8 } }

/-- ata_util/utils.go:123-160 `ReadSmart`: the decoded records, or the error. `bytes.Reader` serves `io.ReadFull`
like a wrapped buffer, so `unpackBytes` stands for `struc.Unpack`. -/
def readSmart (h : Handle) (timeoutSecs : Nat) : DrvM (Res (List Bytes × List Bytes)) := do
  let (e1, _, b1) ← h.ataDoTaskFileCmd false false (smartTf 0xd0#8) (zeros 512) timeoutSecs
  match e1 with
  | some e => OutT.ret (.err e)
  | none =>
    match ← OutT.lift (unpackBytes Layout.smartValues b1) with
    | .err e => OutT.ret (.err e)
    | .panic => OutT.panic
    | .ok v =>
      let (e2, _, b2) ← h.ataDoTaskFileCmd false false (smartTf 0xd1#8) b1 timeoutSecs
      match e2 with
      | some e => OutT.ret (.err e)
      | none =>
        match ← OutT.lift (unpackBytes Layout.smartThresholds b2) with
        | .err e => OutT.ret (.err e)
        | .panic => OutT.panic
        | .ok t => OutT.ret (.ok (v, t))

end Dparm
