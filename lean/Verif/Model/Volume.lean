import Verif.Model.Factory
/-!
# plat_linux/volume.go

Go maps are lists of entries here; where the code ranges over a map, the order is a parameter. The partition table library
is part of the environment (`PartTable`, Model/Factory.lean).
-/
namespace Dparm

/-- plat_linux/volume.go:21-29 `PartitionImpl`; `style` as in `BasicInfo`. -/
structure PartInfo where
  devicePath : Bytes
  parentPath : Bytes
  start : BitVec 64
  size : BitVec 64
  style : Nat
  /-- common/types.go:17-20 `MbrPartitionInfo`: type byte and boot indicator -/
  mbrInfo : Option (Byte × Bool) := none
  /-- common/types.go:22-27 `GptPartitionInfo`: type and id -/
  gptInfo : Option (Bytes × Bytes) := none
deriving DecidableEq

/-- plat_linux/volume.go:31-36 `VolumeInfoImpl` -/
structure VolInfo where
  path : Bytes := []
  filesystem : Bytes := []
  mounts : List Bytes := []
  partition : Option PartInfo := none
deriving DecidableEq

/-- The map `volumes` (plat_linux/volume.go:40) as its entries. -/
abbrev VolMap := List (Bytes × VolInfo)

/-- `m[k]` of a Go map (`m[k]` and whether it exists). -/
def mapGet {β : Type} (m : List (Bytes × β)) (k : Bytes) : Option β := (m.find? (fun e => e.1 == k)).map (·.2)

/-- `\d` -/
def isDigit (c : Byte) : Bool := 0x30#8 ≤ c ∧ c ≤ 0x39#8

/-- plat_linux/volume.go:19,125-126: `^(/dev/.+\d)p(\d+)$` on a text without line feeds in the matched part: the two groups.
The second group consists of digits up to the end, so the `p` before it is the last one. -/
def partitionMatch (s : Bytes) : Option (Bytes × Bytes) :=
  let i := lastIndex s 0x70#8
  if i < 0 then none
  else
    let parent := s.take i.toNat
    let digits := s.drop (i.toNat + 1)
    if digits ≠ [] && digits.all isDigit && hasPrefix parent (ascii "/dev/") && parent.length ≥ 7 &&
        (match parent.getLast? with
          | some c => isDigit c
          | none => false) && !(parent.contains 0x0a#8) then
      some (parent, digits)
    else none

/-- Value of decimal digits, most significant first. -/
def decimal (ds : Bytes) : Nat := ds.foldl (fun n d => n * 10 + (d.toNat - 0x30)) 0

/-- plat_linux/volume.go:128 `strconv.Atoi` on digits, its error ignored: too large a number gives the largest `int`. -/
def atoi (ds : Bytes) : Int := min (decimal ds) (2 ^ 63 - 1)

/-- plat_linux/volume.go:137-171: the partition entry with index `k` (`k` may be -1: `Partitions[-1]` panics). The code tests
the style; `ReadBasicInfo` sets it from the kind of table (utils.go:62-73), so the table is matched here. -/
def partitionOf (dev parent : Bytes) (b : BasicInfo) (k : Int) : P (Option PartInfo) :=
  match b.table with
  | .none => .ret none
  | .gpt _ parts =>
    if k < parts.length then
      if k < 0 then .panic
      else match parts[k.toNat]? with
        | none => .panic
        | some p => .ret (some
            { devicePath := dev, parentPath := parent, style := b.style, start := p.start, size := p.start,
              gptInfo := some (upper (ascii "{" ++ p.type ++ ascii "}"), upper (ascii "{" ++ p.guid ++ ascii "}")) })
    else .ret none
  | .mbr parts =>
    if k < parts.length then
      if k < 0 then .panic
      else match parts[k.toNat]? with
        | none => .panic
        | some p => .ret (some
            { devicePath := dev, parentPath := parent, style := b.style, start := p.start, size := p.start,
              mbrInfo := some (p.type, p.bootable) })
    else .ret none

/-- plat_linux/volume.go:130-136: information about the parent; the cache is never filled, so every call opens the device.
The descriptor is dropped. -/
def parentInfo (parent : Bytes) : FM (Option BasicInfo) := do
  let r ← OutT.ask (.openDev parent)
  match r.err with
  | some _ => OutT.ret none
  | none =>
    match ← readBasicInfo r.fd parent with
    | .ok b => OutT.ret (some b)
    | _ => OutT.ret none

/-- plat_linux/volume.go:106-109: device, mount point and file system type of a line. -/
def mountFields (line : Bytes) : Bytes × Bytes × Bytes :=
  let c1 := cut line 0x20#8
  let c2 := cut c1.2.1 0x20#8
  let c3 := cut c2.2.1 0x20#8
  (c1.1, c2.1, c3.1)

/-- plat_linux/volume.go:119-123: the volume after a line with these fields. -/
def VolInfo.mount (v : VolInfo) (dev mnt fs : Bytes) : VolInfo :=
  let v := if v.path = [] then { v with path := dev, filesystem := fs } else v
  { v with mounts := v.mounts ++ [mnt] }

/-- plat_linux/volume.go:105-172: one line. -/
def volLine (vols : VolMap) (line : Bytes) : FM VolMap :=
  let (dev, mnt, fs) := mountFields line
  let v := ((mapGet vols dev).getD {}).mount dev mnt fs
  match partitionMatch dev with
  | none => OutT.ret (mapPut vols dev v)
  | some (parent, digits) => do
    match ← parentInfo parent with
    | none => OutT.ret (mapPut vols dev v)
    | some b =>
      match ← OutT.lift (partitionOf dev parent b (atoi digits - 1)) with
      | none => OutT.ret (mapPut vols dev v)
      | some p => OutT.ret (mapPut vols dev { v with partition := some p })

/-- plat_linux/volume.go:103-179: the loop. Each line comes with what `scanner.Err()` says after it; an error that ends the
scan is not looked at. -/
def volLoop : List (Bytes × Option GoErr) → VolMap → FM (Res VolMap)
  | [], vols => OutT.ret (.ok vols)
  | (line, e) :: rest, vols => do
    let vols ← volLine vols line
    match e with
    | some e => OutT.ret (.err e)
    | none => volLoop rest vols

/-- /proc/mounts as the scanner presents it: why it cannot be opened, the lines, why the scan ended. -/
structure Mounts where
  openErr : Option GoErr := none
  lines : List (Bytes × Option GoErr) := []
  endErr : Option GoErr := none

/-- Removes one carriage return at the end (`bufio.ScanLines`). -/
def dropCR (l : Bytes) : Bytes := if l.getLast? = some 0x0d#8 then l.dropLast else l

/-- plat_linux/volume.go:103-104,174: `bufio.Scanner` (standard library) with its default split function and buffer limit on
a file whose content is followed by end of file (`readErr = none`) or a read error. `cur` is the current line so far. The
scan ends with an error when 65536 bytes hold no line feed; what is left at the end is a last line, which comes together
with the read error. -/
def scanFrom (readErr : Option GoErr) (cur : Bytes) : Bytes → List (Bytes × Option GoErr) × Option GoErr
  | [] => (if cur = [] then [] else [(dropCR cur, readErr)], readErr)
  | c :: cs =>
    if c = 0x0a#8 then
      let r := scanFrom readErr [] cs
      ((dropCR cur, none) :: r.1, r.2)
    else if cur.length + 1 ≥ 65536 then ([], some (.msg "bufio.Scanner: token too long"))
    else scanFrom readErr (cur ++ [c]) cs

/-- plat_linux/volume.go:92-104: the mount table from the content of the file. -/
def mountsOf (content : Bytes) (readErr : Option GoErr) : Mounts :=
  let r := scanFrom readErr [] content
  { lines := r.1, endErr := r.2 }

/-- plat_linux/volume.go:89-180 `EnumVolumes` -/
def enumVolumes (m : Mounts) : FM (Res VolMap) :=
  match m.openErr with
  | some e => OutT.ret (.err e)
  | none => volLoop m.lines []

/-- plat_linux/volume.go:43-53 `ToVolumeInfo`: path, file system, mount points, partitions. -/
def VolInfo.toVolumeInfo (v : VolInfo) : Bytes × Bytes × List Bytes × List PartInfo :=
  (v.path, v.filesystem, v.mounts, v.partition.toList)

/-- plat_linux/volume.go:55-61 `GetList`, for the iteration order `vols` -/
def volList (vols : VolMap) : List (Bytes × Bytes × List Bytes × List PartInfo) := vols.map (·.2.toVolumeInfo)

/-- plat_linux/volume.go:63-71 `FindVolumesByDrive` for a drive with device path `drive` -/
def findVolumesByDrive (vols : VolMap) (drive : Bytes) : List (Bytes × Bytes × List Bytes × List PartInfo) :=
  (vols.filter (fun e => e.2.path == drive)).map (·.2.toVolumeInfo)

/-- plat_linux/volume.go:73-82 `OpenDriveByVolumePath`; `none` is a nil handle with a nil error. -/
def openDriveByVolumePath (n : Nat) (order : List (Bytes × Bytes) → List (Bytes × Bytes)) (vols : VolMap) (path : Bytes) :
    FM (Option (Res Opened)) :=
  let path := trimSuffix path 0x2f#8
  match vols with
  | [] => OutT.ret none
  | e :: _ =>
    if trimSuffix e.2.path 0x2f#8 = path then do
      let o ← openByPath n order path
      OutT.ret (some o)
    else OutT.ret none

/-- plat_linux/volume.go:84-87 `OpenDriveByPartition` for a partition of this enumeration -/
def openDriveByPartition (n : Nat) (order : List (Bytes × Bytes) → List (Bytes × Bytes)) (p : PartInfo) : FM (Res Opened) :=
  openByPath n order p.parentPath

end Dparm
