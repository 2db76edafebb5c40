import Verif.Model.Volume
import Verif.Spec.Factory
import Verif.Spec.DriveInfo
/-!
# Vocabulary for the mount table
-/
namespace Dparm

/-- The parts of a text between separators. -/
def splitAt (c : Byte) : Bytes → List Bytes
  | [] => [[]]
  | x :: xs => if x = c then [] :: splitAt c xs
    else match splitAt c xs with
      | [] => [[x]]
      | w :: ws => (x :: w) :: ws

/-- First, second and third field of a line of the mount table (empty if missing). -/
def deviceOf (line : Bytes) : Bytes := (splitAt 0x20#8 line).getD 0 []
def mountOf (line : Bytes) : Bytes := (splitAt 0x20#8 line).getD 1 []
def fsOf (line : Bytes) : Bytes := (splitAt 0x20#8 line).getD 2 []

/-- The text of a line of a file: without one carriage return at its end. -/
def lineText (l : Bytes) : Bytes :=
  match l.reverse with
  | c :: r => if c = 0x0d then r.reverse else l
  | [] => []

/-- A decimal digit. -/
def Digit (c : Byte) : Prop := 0x30 ≤ c.toNat ∧ c.toNat ≤ 0x39

/-- The device name is that of a partition with number text `digits` on the drive `parent`: the drive's name is
"/dev/", at least one character, a digit; then comes "p" and at least one digit. -/
def PartitionName (dev parent digits : Bytes) : Prop :=
  dev = parent ++ 0x70#8 :: digits ∧ digits ≠ [] ∧ (∀ c ∈ digits, Digit c) ∧
  ∃ mid d, parent = ascii "/dev/" ++ mid ++ [d] ∧ mid ≠ [] ∧ 0x0a#8 ∉ mid ∧ Digit d

/-- The volumes of a mount table: one entry per device, with the mount points of its lines in order; the file system is
that of the first line (of the last one if the device field is empty). -/
structure Grouped (lines : List Bytes) (vols : VolMap) : Prop where
  once : (vols.map (·.1)).Nodup
  devices : ∀ d, d ∈ vols.map (·.1) ↔ ∃ l ∈ lines, deviceOf l = d
  path : ∀ e ∈ vols, e.2.path = e.1
  mounts : ∀ e ∈ vols, e.2.mounts = (lines.filter (fun l => deviceOf l = e.1)).map mountOf
  first : ∀ e ∈ vols, e.1 ≠ [] → (lines.filter (fun l => deviceOf l = e.1)).head?.map fsOf = some e.2.filesystem
  last : ∀ e ∈ vols, e.1 = [] → (lines.filter (fun l => deviceOf l = e.1)).getLast?.map fsOf = some e.2.filesystem

/-- The device name is that of some partition. -/
def IsPartitionName (dev : Bytes) : Prop := ∃ parent digits, PartitionName dev parent digits

/-- The number written in decimal. -/
def numberOf : Bytes → Nat
  | [] => 0
  | d :: ds => (d.toNat - 0x30) * 10 ^ ds.length + numberOf ds

/-- What a run asked about the drive `parent`, and the partition table it learned (`none` if it learned nothing): open the
device, let the partition library open it, ask for sector size, size and geometry, perhaps read the first sector. Nothing
is closed. -/
inductive Probe (parent : Bytes) : Prog.Trace FReq FRep → Option PartTable → Prop
  | noOpen (r : FRep) : r.err ≠ none → Probe parent [(.openDev parent, r)] none
  | noLibrary (r d : FRep) : r.err = none → d.err ≠ none → Probe parent [(.openDev parent, r), (.diskfs parent, d)] none
  | noGeometry (r d s z g : FRep) : r.err = none → d.err = none → ¬ SysOk g →
      Probe parent [(.openDev parent, r), (.diskfs parent, d), (.sectorSize r.fd, s), (.totalSize r.fd, z),
        (.geometry r.fd, g)] none
  | read (r d s z g : FRep) (sector : Prog.Trace FReq FRep) : r.err = none → d.err = none → SysOk g →
      (∀ x ∈ sector, x.1 = .readAt parent 512) →
      Probe parent ([(.openDev parent, r), (.diskfs parent, d), (.sectorSize r.fd, s), (.totalSize r.fd, z),
        (.geometry r.fd, g)] ++ sector) (some d.table)

/-- One inquiry made because of a mounted partition. -/
structure Look where
  dev : Bytes
  parent : Bytes
  digits : Bytes
  seg : Prog.Trace FReq FRep
  table : Option PartTable

/-- The inquiry concerns the drive the device name belongs to and has that outcome. -/
def Look.Ok (l : Look) : Prop := PartitionName l.dev l.parent l.digits ∧ Probe l.parent l.seg l.table

/-- Partition number 0 on a drive with a table. -/
def Look.Zero (l : Look) : Prop := numberOf l.digits = 0 ∧ ∃ t, l.table = some t ∧ t ≠ .none

/-- The partition with that number, counted from 1 (numbers above 2^63-1 count as 2^63-1): its start is reported as start
and as size. -/
def Look.found (l : Look) : Option PartInfo :=
  let k := min (numberOf l.digits) (2 ^ 63 - 1) - 1
  match l.table with
  | some (.gpt _ parts) => parts[k]?.map fun p =>
      { devicePath := l.dev, parentPath := l.parent, start := p.start, size := p.start, style := 2, mbrInfo := none,
        gptInfo := some (upper (ascii "{" ++ p.type ++ ascii "}"), upper (ascii "{" ++ p.guid ++ ascii "}")) }
  | some (.mbr parts) => parts[k]?.map fun p =>
      { devicePath := l.dev, parentPath := l.parent, start := p.start, size := p.start, style := 1,
        mbrInfo := some (p.type, p.bootable), gptInfo := none }
  | _ => none

/-- The last partition found for a device. -/
def lastFound (looks : List Look) (dev : Bytes) : Option PartInfo :=
  ((looks.filter (fun l => l.dev = dev)).filterMap Look.found).getLast?

/-- The partition devices of the lines, in order. -/
noncomputable def partitionDevices (lines : List Bytes) : List Bytes :=
  open Classical in (lines.map deviceOf).filter (fun d => decide (IsPartitionName d))

/-- What a scan of these lines did, for each way it can end; `new` are its inquiries, `looks` earlier ones.
Success: one inquiry per line whose device is a partition, no number 0, no error with a line, and each volume carries the
last partition found for it. Error: the first error that came with a line; the lines up to it were processed. Panic: the
last inquiry concerned number 0 on a drive with a table.-/
def ScanSpec (ls : List (Bytes × Option GoErr)) (looks new : List Look) : Out (Res VolMap) → Prop
  | .ret (.ok vols) => new.map (·.dev) = partitionDevices (ls.map (·.1)) ∧ (∀ l ∈ new, ¬ l.Zero) ∧ (∀ x ∈ ls, x.2 = none) ∧
      ∀ e ∈ vols, e.2.partition = lastFound (looks ++ new) e.1
  | .ret (.err e) => (∀ l ∈ new, ¬ l.Zero) ∧ ∃ a line b, ls = a ++ (line, some e) :: b ∧ (∀ x ∈ a, x.2 = none) ∧
      new.map (·.dev) = partitionDevices (a.map (·.1) ++ [line])
  | .panic => ∃ init l a line b, new = init ++ [l] ∧ l.Zero ∧ (∀ x ∈ init, ¬ x.Zero) ∧
      ls.map (·.1) = a ++ line :: b ∧ new.map (·.dev) = partitionDevices (a ++ [line])
  | _ => False

/-- `p` is the path `s` less one slash at its end, if it ends in one. -/
def LessSlash (s p : Bytes) : Prop := s = p ++ [0x2f] ∨ (s = p ∧ ∀ q : Bytes, s ≠ q ++ [0x2f])

end Dparm
