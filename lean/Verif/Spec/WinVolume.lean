import Verif.Spec.WinEnum
import Verif.Model.WinVolume
/-!
# Specification: volumes on Windows
-/
namespace Dparm.Spec
open Dparm

/-- The text in a buffer of characters: up to the first NUL, or to the end. -/
structure CText (b text : Wide) : Prop where
  start : text <+: b
  clean : 0 ∉ text
  stop : text.length < b.length → b[text.length]? = some 0

/-- A buffer of `n` NULs after Windows stored characters at its start. -/
def padded (n : Nat) (w : Wide) : Wide := w.take n ++ List.replicate (n - w.length) 0

/-- The form in which Windows lists several texts: each followed by a NUL, and a further NUL at the end. -/
def multiString (texts : List Wide) : Wide := texts.flatMap (fun t => t ++ [0]) ++ [0]

/-- The mount points reported for an answer to the inquiry: none if it failed or has length 0; otherwise the first text, if
it is not empty (it must end within 4096 characters). -/
def MountsSeen (conv : Wide → Bytes) (r : WRep) (ms : List Bytes) : Prop :=
  if r.err = none ∧ 0 < r.n then
    ∃ text, CText (padded 4096 r.wide) text ∧ text.length < 4096 ∧ ms = if text = [] then [] else [conv text]
  else ms = []

/-- A DISK_EXTENT (winioctl.h, 24 bytes) at an offset. -/
def extentAt (m : Bytes) (off : Nat) : Extent :=
  { disk := BitVec.ofNat 32 (leVal (slice m off 4)), start := BitVec.ofNat 64 (leVal (slice m (off + 8) 8)),
    length := BitVec.ofNat 64 (leVal (slice m (off + 16) 8)) }

/-- The number of extents in a VOLUME_DISK_EXTENTS, and the first `n` of them (from offset 8 on; what lies behind the
buffer is `beyond`). -/
def extentCount (m : Bytes) : Nat := leVal (slice m 0 4)
def extentsIn (m : Bytes) (beyond : Nat → Byte) (n : Nat) : List Extent :=
  (List.range n).map (fun i => extentAt (m ++ (List.range 24).map beyond) (8 + 24 * i))

/-- The partition reported for an answer to the inquiry: on the disk, with start and length of the first extent; style and
details as in the answer, a PARTITION_INFORMATION_EX. None if the inquiry failed. -/
def partitionSeen (x : Extent) (q : WRep) : Option WinPart :=
  if q.err = none then
    some { itemPart x.disk (delivered (zeros 144) q.out) with start := x.start, length := x.length }
  else none

/-- What is learned of an open volume: the exchanges, the extents, the partition. -/
inductive ExtentsSeen (h : Nat) (beyond : Nat → Byte) : Prog.Trace WReq WRep → List Extent → Option WinPart → Prop
  | failed (r : WRep) (e : GoErr) : r.err = some e → ExtentsSeen h beyond [(.ioctl h 0x560000 [] 4096 none, r)] [] none
  | none (r : WRep) (old : Bytes) : r.err = none → old.length = 4096 → extentCount (delivered old r.out) = 0 →
      ExtentsSeen h beyond [(.ioctl h 0x560000 [] 4096 none, r)] [] none
  | some (r q : WRep) (old : Bytes) (n : Nat) : r.err = none → old.length = 4096 → extentCount (delivered old r.out) = n →
      0 < n → n ≤ 171 →
      ExtentsSeen h beyond [(.ioctl h 0x560000 [] 4096 none, r), (.ioctl h 0x70048 [] 144 none, q)]
        (extentsIn (delivered old r.out) beyond n) (partitionSeen (extentAt (delivered old r.out) 8) q)

/-- `bare` is `name` without the backslashes at its end. -/
structure BareName (name bare : Wide) : Prop where
  rest : ∃ k, name = bare ++ List.replicate k 0x5c
  last : bare.getLast? ≠ some 0x5c

/-- The file system reported for an answer to the inquiry: the text Windows stored over what the buffer held; none if the
inquiry failed. -/
def FilesystemSeen (conv : Wide → Bytes) (r : WRep) (fs : Bytes) : Prop :=
  if r.err = none then
    ∃ (old text : Wide), old.length = 128 ∧ CText (r.wide.take 128 ++ old.drop r.wide.length) text ∧ fs = conv text
  else fs = []

/-- What is learned of the volume called `name`: the exchanges, the volume, and the handle it was opened by, if it could be
opened. -/
inductive VolumeSeen (conv : Wide → Bytes) (beyond : Nat → Byte) (name : Wide) :
    Prog.Trace WReq WRep → WinVol → Option Nat → Prop
  | closed (bare : Wide) (p i d o : WRep) (e : GoErr) (v : WinVol) : BareName name bare → o.err = some e →
      MountsSeen conv p v.mountPoints →
      FilesystemSeen conv i v.filesystem →
      v.driveType = d.n → v.path = conv bare → v.extents = [] → v.partition = none →
      VolumeSeen conv beyond name [(.volumePaths name, p), (.volumeInfo name, i), (.driveType name, d), (.openVolume bare, o)]
        v none
  | opened (bare : Wide) (p i d o : WRep) (t : Prog.Trace WReq WRep) (v : WinVol) : BareName name bare → o.err = none →
      MountsSeen conv p v.mountPoints →
      FilesystemSeen conv i v.filesystem →
      v.driveType = d.n → v.path = conv bare → ExtentsSeen o.handle beyond t v.extents v.partition →
      VolumeSeen conv beyond name ([(.volumePaths name, p), (.volumeInfo name, i), (.driveType name, d),
        (.openVolume bare, o)] ++ t) v (some o.handle)

/-- The volumes from the one called `name` on, with the handles opened: one after the other, until Windows has no further
name. -/
inductive Volumes (conv : Wide → Bytes) (beyond : Nat → Byte) (find : Nat) :
    Wide → Prog.Trace WReq WRep → List WinVol → List Nat → Prop
  | last (name : Wide) (t : Prog.Trace WReq WRep) (v : WinVol) (h : Option Nat) (n : WRep) (e : GoErr) :
      VolumeSeen conv beyond name t v h → n.err = some e →
      Volumes conv beyond find name (t ++ [(.nextVolume find, n)]) [v] h.toList
  | more (name name' : Wide) (t u : Prog.Trace WReq WRep) (v : WinVol) (h : Option Nat) (n : WRep) (vs : List WinVol)
      (hs : List Nat) : VolumeSeen conv beyond name t v h → n.err = none → CText (padded 320 n.wide) name' →
      Volumes conv beyond find name' u vs hs →
      Volumes conv beyond find name (t ++ (.nextVolume find, n) :: u) (v :: vs) (h.toList ++ hs)

/-- Answers on which the enumeration panics: mount points whose first text does not end within 4096 characters, or more
extents than the buffer holds. -/
inductive BadAnswer : WReq × WRep → Prop
  | mounts (name : Wide) (r : WRep) : r.err = none → 0 < r.n → 4096 ≤ r.wide.length → 0 ∉ r.wide.take 4096 →
      BadAnswer (.volumePaths name, r)
  | extents (h : Nat) (r : WRep) (old : Bytes) : r.err = none → old.length = 4096 →
      171 < extentCount (delivered old r.out) → BadAnswer (.ioctl h 0x560000 [] 4096 none, r)

/-- The search breaks off at a bad answer, with these volumes open: to the question for mount points, before the volume is
opened, or to that for the extents of the volume just opened. -/
inductive VolumesPanic (conv : Wide → Bytes) (beyond : Nat → Byte) (find : Nat) :
    Wide → Prog.Trace WReq WRep → List Nat → Prop
  | mounts (name : Wide) (p : WRep) : BadAnswer (.volumePaths name, p) →
      VolumesPanic conv beyond find name [(.volumePaths name, p)] []
  | extents (name bare : Wide) (p i d o r : WRep) : BareName name bare → o.err = none →
      BadAnswer (.ioctl o.handle 0x560000 [] 4096 none, r) →
      VolumesPanic conv beyond find name [(.volumePaths name, p), (.volumeInfo name, i), (.driveType name, d),
        (.openVolume bare, o), (.ioctl o.handle 0x560000 [] 4096 none, r)] [o.handle]
  | more (name name' : Wide) (t u : Prog.Trace WReq WRep) (v : WinVol) (h : Option Nat) (n : WRep) (hs : List Nat) :
      VolumeSeen conv beyond name t v h → n.err = none → CText (padded 320 n.wide) name' →
      VolumesPanic conv beyond find name' u hs →
      VolumesPanic conv beyond find name (t ++ (.nextVolume find, n) :: u) (h.toList ++ hs)

/-- Two paths are the same up to one backslash at the end of each. -/
def SamePath (a b : Bytes) : Prop :=
  ∃ c, (a = c ++ [0x5c] ∨ (a = c ∧ c.getLast? ≠ some 0x5c)) ∧ (b = c ++ [0x5c] ∨ (b = c ∧ c.getLast? ≠ some 0x5c))

/-- Handles of volumes a run obtained. -/
def volumesOpened (t : Prog.Trace WReq WRep) : List Nat :=
  t.filterMap (fun x => match x.1 with
    | .openVolume _ => if x.2.err = none then some x.2.handle else none
    | _ => none)

/-- Inquiries for a next volume. -/
def searches (t : Prog.Trace WReq WRep) : Nat :=
  t.countP (fun x => match x.1 with
    | .nextVolume _ => true
    | _ => false)

/-- A volume as the caller sees it. -/
def volumeReported (v : WinVol) : WinVolInfo :=
  { path := v.path, filesystem := v.filesystem, mountPoints := v.mountPoints,
    partitions := match v.partition with
      | some p => [p]
      | none => [],
    driveType := v.driveType }

/-- A volume whose first extent lies on that disk. -/
def BeginsOn (v : WinVol) (disk : Int) : Prop := ∃ x, v.extents[0]? = some x ∧ (x.disk.toNat : Int) = disk

instance (v : WinVol) (disk : Int) : Decidable (BeginsOn v disk) :=
  match h : v.extents with
  | [] => isFalse (fun ⟨x, h1, _⟩ => by rw [h] at h1; cases h1)
  | x :: xs =>
    if hx : (x.disk.toNat : Int) = disk then isTrue ⟨x, by rw [h]; rfl, hx⟩
    else isFalse (fun ⟨y, h1, h2⟩ => by rw [h] at h1; cases h1; exact hx h2)

end Dparm.Spec
