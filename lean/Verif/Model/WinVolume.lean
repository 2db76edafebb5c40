import Verif.Model.WinFactory
/-!
# plat_win/volume.go: volumes on Windows

Texts of Windows are lists of 16-bit characters; `conv` converts them to Go strings (`windows.UTF16ToString`,
`utf16Decode` in Model/Utf16.lean); the theorems here hold for any. A text buffer handed to Windows is read up to its first NUL.
-/
namespace Dparm
open Spec (leBytes leVal)

/-- Characters of Windows. -/
abbrev Wide := List (BitVec 16)

/-- A text buffer after Windows stored characters at its start. -/
def storeWide (b w : Wide) : Wide := w.take b.length ++ b.drop (w.take b.length).length

/-- plat_win/utils.go:253-260 `wcslen`, as the text of that length. -/
def wtext (b : Wide) : Wide := b.takeWhile (fun c => c != 0#16)

/-- plat_win/volume.go:117-122: the loop over the mount points; `rest` is the buffer from `pos` on. `volumePathBuf[pos]`
panics behind the buffer. -/
def mountLoop (rest : Wide) : P (List Wide) :=
  match h : rest with
  | [] => .panic
  | c :: cs =>
    if hc : c = 0#16 then .ret []
    else do
      let text := wtext (c :: cs)
      let more ← mountLoop ((c :: cs).drop text.length)
      .ret (text :: more)
termination_by rest.length
decreasing_by
  have : wtext (c :: cs) = c :: cs.takeWhile (fun c => c != 0#16) := by simp [wtext, hc]
  simp [this]
  omega

/-- plat_win/storage_types.go:63-67 `DISK_EXTENT` -/
structure Extent where
  disk : BitVec 32
  start : BitVec 64
  length : BitVec 64
deriving DecidableEq

/-- The extent in 24 bytes. -/
def extentOf (e : Bytes) : Extent :=
  { disk := BitVec.ofNat 32 (leVal (slice e 0 4)), start := BitVec.ofNat 64 (leVal (slice e 8 8)),
    length := BitVec.ofNat 64 (leVal (slice e 16 8)) }

/-- plat_win/volume.go:158-164: the loop over the extents, `n` left, at `offset`; `&dataBuffer[offset]` panics behind the
buffer, the extent read there may reach past it (`beyond`). -/
def extentLoop (data : Bytes) (beyond : Nat → Byte) : Nat → Nat → P (List Extent)
  | 0, _ => .ret []
  | n + 1, offset =>
    if offset ≥ data.length then .panic
    else do
      let e := extentOf (slice (data ++ (List.range 24).map beyond) offset 24)
      let more ← extentLoop data beyond n (offset + 24)
      .ret (e :: more)

/-- plat_win/volume.go:21-28 `VolumeInfoImpl` -/
structure WinVol where
  path : Bytes := []
  filesystem : Bytes := []
  mountPoints : List Bytes := []
  extents : List Extent := []
  partition : Option WinPart := none
  driveType : Nat := 0
deriving DecidableEq

/-- plat_win/volume.go:191-220 `readPartitionInfoByVolumeHandle`, for the extent of the partition: the partition, or
nothing if the inquiry fails (the record is 144 bytes, new for each volume). -/
def winPartitionInfo (h : Nat) (x : Extent) : WinM (Option WinPart) := do
  let r ← OutT.ask (.ioctl h 0x70048 [] 144 none)
  match r.err with
  | some _ => OutT.ret none
  | none =>
    let e := storeInto (zeros 144) r.out
    let style := leVal (slice e 0 4)
    let part : WinPart := { diskNumber := x.disk, start := x.start, length := x.length, style := style }
    if style = 1 then
      OutT.ret (some { part with gptInfo := some (upper (guidText (slice e 32 16)), upper (guidText (slice e 48 16))) })
    else if style = 0 then OutT.ret (some { part with mbrInfo := some (e.getD 32 0#8, e.getD 33 0#8 != 0#8) })
    else OutT.ret (some part)

/-- plat_win/volume.go:115-122: the mount points of the volume called `name`. -/
def winMounts (conv : Wide → Bytes) (name : Wide) : WinM (List Bytes) := do
  let r ← OutT.ask (.volumePaths name)
  if r.err = none ∧ r.n > 0 then do
    let ms ← OutT.lift (mountLoop (storeWide (List.replicate 4096 0#16) r.wide))
    OutT.ret (ms.map conv)
  else OutT.ret []

/-- plat_win/volume.go:124-128: the file system, and the buffer. -/
def winFilesystem (conv : Wide → Bytes) (name fsBuf : Wide) : WinM (Bytes × Wide) := do
  let r ← OutT.ask (.volumeInfo name)
  let fsBuf := storeWide fsBuf r.wide
  OutT.ret (if r.err = none then conv (wtext fsBuf) else [], fsBuf)

/-- plat_win/volume.go:133-136: the name without the backslashes at its end. -/
def winBare (name : Wide) : Wide := (name.reverse.dropWhile (fun c => c == 0x5c#16)).reverse

/-- plat_win/volume.go:143-175: extents and partition of the open volume, and the buffer. -/
def winExtents (h : Nat) (dataBuf : Bytes) (beyond : Nat → Byte) : WinM (List Extent × Option WinPart × Bytes) := do
  let r ← OutT.ask (.ioctl h 0x560000 [] dataBuf.length none)
  let dataBuf := storeInto dataBuf r.out
  match r.err with
  | some _ => OutT.ret ([], none, dataBuf)
  | none => do
    let es ← OutT.lift (extentLoop dataBuf beyond (leVal (slice dataBuf 0 4)) 8)
    match es with
    | [] => OutT.ret ([], none, dataBuf)
    | x :: _ => do
      let part ← winPartitionInfo h x
      OutT.ret (es, part, dataBuf)

/-- The buffers that live through the enumeration (plat_win/volume.go:93-96). -/
structure VolBufs where
  fs : Wide := List.replicate 128 0#16
  data : Bytes := zeros 4096

/-- plat_win/volume.go:110-141: the beginning of a round: what is known of the volume called `name` before it is opened, the
buffer, and the answer to the attempt to open it. -/
def winVolumeHead (conv : Wide → Bytes) (name fsBuf : Wide) : WinM (WinVol × Wide × WRep) := do
  let mounts ← winMounts conv name
  let (fs, fsBuf) ← winFilesystem conv name fsBuf
  let d ← OutT.ask (.driveType name)
  let r ← OutT.ask (.openVolume (winBare name))
  OutT.ret ({ path := conv (winBare name), filesystem := fs, mountPoints := mounts, driveType := d.n }, fsBuf, r)

/-- plat_win/volume.go:177-186: the end of a round: the volume is added, and the search goes on; `loop` are the further
rounds. -/
def winNextVolume (find : Nat) (loop : Wide → VolBufs → WinM (List WinVol)) (v : WinVol) (b : VolBufs) :
    WinM (List WinVol) := do
  let n ← OutT.ask (.nextVolume find)
  match n.err with
  | some _ => OutT.ret [v]
  | none => do
    let vs ← loop (wtext (storeWide (List.replicate 320 0#16) n.wide)) b
    OutT.ret (v :: vs)

/-- plat_win/volume.go:110-186: the loop, from the volume called `name` on: the volumes. The close of a volume that could be
opened is deferred to the end of the function (143), after everything that follows. `fuel` bounds the number of rounds
(Windows ends the loop). -/
def winVolumeLoop (conv : Wide → Bytes) (beyond : Nat → Byte) (find : Nat) : Nat → Wide → VolBufs → WinM (List WinVol)
  | 0, _, _ => OutT.running
  | fuel + 1, name, b => do
    let (item, fsBuf, r) ← winVolumeHead conv name b.fs
    match r.err with
    | some _ => winNextVolume find (winVolumeLoop conv beyond find fuel) item { b with fs := fsBuf }
    | none =>
      OutT.defer
        (do
          let (es, part, dataBuf) ← winExtents r.handle b.data beyond
          winNextVolume find (winVolumeLoop conv beyond find fuel) { item with extents := es, partition := part }
            { fs := List.replicate 128 0#16, data := dataBuf })
        (OutT.call (.closeHandle r.handle))

/-- plat_win/volume.go:103-188: `EnumVolumes` once the error mode is set, with the deferred `FindVolumeClose` (108). -/
def winSearchVolumes (conv : Wide → Bytes) (beyond : Nat → Byte) (fuel : Nat) : WinM (Res (List WinVol)) := do
  let f ← OutT.ask .firstVolume
  match f.err with
  | some e => OutT.ret (.err e)
  | none => do
    let vs ← OutT.defer
      (winVolumeLoop conv beyond f.handle fuel (wtext (storeWide (List.replicate 320 0#16) f.wide)) {})
      (OutT.call (.closeFind f.handle))
    OutT.ret (.ok vs)

/-- plat_win/volume.go:88-189 `EnumVolumes` (SEM_FAILCRITICALERRORS is 1), with the deferred `SetErrorMode` (99-101). -/
def winEnumVolumes (conv : Wide → Bytes) (beyond : Nat → Byte) (fuel : Nat) : WinM (Res (List WinVol)) := do
  let m ← OutT.ask (.setErrorMode 1)
  OutT.defer (winSearchVolumes conv beyond fuel) (OutT.call (.setErrorMode m.n))

/-- common/types.go:54-60 `VolumeInfo`, with the concrete partitions. -/
structure WinVolInfo where
  path : Bytes
  filesystem : Bytes
  mountPoints : List Bytes
  partitions : List WinPart
  driveType : Nat
deriving DecidableEq

/-- plat_win/volume.go:35-46 `ToVolumeInfo` -/
def WinVol.info (v : WinVol) : WinVolInfo :=
  { path := v.path, filesystem := v.filesystem, mountPoints := v.mountPoints, partitions := v.partition.toList,
    driveType := v.driveType }

/-- plat_win/volume.go:48-54 `GetList` -/
def winVolumeList (vs : List WinVol) : List WinVolInfo := vs.map WinVol.info

/-- plat_win/volume.go:56-68 `FindVolumesByDrive`, for the drive's `WindowsDevNum` (an `int` of 64 bits). -/
def winFindVolumes (vs : List WinVol) (devNum : Int) : List WinVolInfo :=
  vs.filterMap (fun v => match v.extents with
    | [] => none
    | x :: _ => if (x.disk.toNat : Int) = devNum then some v.info else none)

/-- `strings.TrimSuffix(s, "\\")` -/
def trimBackslash (s : Bytes) : Bytes := if s.getLast? = some 0x5c#8 then s.dropLast else s

/-- plat_win/volume.go:75,85: the path of a physical drive. -/
def physicalDrive (n : BitVec 32) : Bytes := ascii "\\\\.\\PhysicalDrive" ++ digits n.toNat

/-- plat_win/volume.go:70-81 `OpenDriveByVolumePath`; `none` is a nil handle without error. -/
def winOpenByVolumePath (open' : Bytes → WinM (Res WinOpened)) (vs : List WinVol) (volumePath : Bytes) :
    WinM (Option (Res WinOpened)) :=
  match vs.find? (fun v => trimBackslash v.path == trimBackslash volumePath) with
  | none => OutT.ret none
  | some v => match v.extents with
    | [] => OutT.ret none
    | x :: _ => do
      let r ← open' (physicalDrive x.disk)
      OutT.ret (some r)

/-- plat_win/volume.go:83-86 `OpenDriveByPartition`, for a partition of this package (another one panics). -/
def winOpenByPartition (open' : Bytes → WinM (Res WinOpened)) (p : WinPart) : WinM (Res WinOpened) :=
  open' (physicalDrive p.diskNumber)

/-- plat_win/volume.go:230-238 `GetPartitionStyle` (common/types.go:11-15: 0 raw, 1 MBR, 2 GPT). `GetStart`, `GetSize`,
`GetMbrInfo`, `GetGptInfo` (222-228,240-252) are the fields. -/
def WinPart.partitionStyle (p : WinPart) : Nat := if p.style = 1 then 2 else if p.style = 0 then 1 else 0

end Dparm
