import Verif.Spec.Crash
import Verif.Spec.WinLooking
import Verif.Spec.WinTcg
import Verif.Spec.WinVolume
/-!
# Vocabulary for what can crash a client on Windows
-/
namespace Dparm.Spec
open Dparm

/-- The control codes of the driver's direct and buffered pass-through requests, and the size of its record. The miniport
driver has none. -/
def passCodes : WinDrv → Option (Nat × Nat × Nat)
  | .ata _ => some (0x4d030, 0x4d02c, 48)
  | .scsi _ => some (0x4d014, 0x4d004, 96)
  | .windowsNvme _ => some (0x4d014, 0x4d004, 96)
  | .nvmeWin _ _ => none

/-- A successful request of the driver `k` with a buffer of 2048 bytes, and what that buffer holds afterwards. -/
inductive Received (k : WinDrv) : WReq × WRep → Bytes → Prop
  /-- a direct request stores into the buffer itself -/
  | direct {direct buffered size : Nat} {inb : Bytes} {n addr : Nat} {m : Bytes} {r : WRep}
      (codes : passCodes k = some (direct, buffered, size)) (room : m.length = 2048) (ok : r.err = none) :
      Received k (.ioctl k.handle direct inb n (some (addr, m)), r) (receivedInto m r.mem)
  /-- a buffered request answers with the record and the data behind it -/
  | buffered {direct buffered size : Nat} {inb : Bytes} {n : Nat} {m : Bytes} {r : WRep}
      (codes : passCodes k = some (direct, buffered, size)) (held : payload (.ioctl k.handle buffered inb n none) = some m)
      (room : m.length = 2048) (ok : r.err = none) :
      Received k (.ioctl k.handle buffered inb n none, r) (delivered m (r.out.drop size))
  /-- a miniport request answers with its record, which holds the data -/
  | miniport {h sh : Nat} {inb : Bytes} {r : WRep} (kind : k = .nvmeWin h sh) (room : inb.length = 4248) (ok : r.err = none) :
      Received k (.ioctl sh 0x4d008 inb 4248 none, r) ((miniportView (delivered inb r.out)).data.take 2048)

/-- Discovery data that announces no more than the 2048 bytes there are, but whose descriptors run over the announced
end. -/
def Malformed (d : Bytes) : Prop := announcedEnd d ≤ 2048 ∧ Overruns d 32 (announcedEnd d)

/-- Exchanges of an open that end with an answer on which it panics. `beyond` is the memory behind a short descriptor. -/
inductive OpenFatal (beyond : Nat → Byte) : Prog.Trace WReq WRep → Prop
  /-- the layout, or the descriptor of a drive without driver, cannot be fetched: Windows names a buffer of size 0, or
  returns more than the buffer holds -/
  | layout {before u h} (got : Fetched h 0x70050 [] u .crashed) : OpenFatal beyond (before ++ u)
  | descriptor {before u h} (got : Fetched h 0x2d1400 (zeros 12) u .crashed) : OpenFatal beyond (before ++ u)
  /-- a layout shorter than its header, or with entries of another style -/
  | badLayout {before u h buf n} (got : Fetched h 0x70050 [] u (.data buf n))
      (bad : (buf.take n).length < 48 ∨ (leVal (slice (buf.take n) 0 4) ≤ 1 ∧ MixedStyles (buf.take n))) :
      OpenFatal beyond (before ++ u)
  /-- an empty descriptor, or one with an offset behind its end -/
  | badDescriptor {before u h buf n} (got : Fetched h 0x2d1400 (zeros 12) u (.data buf n))
      (bad : buf.take n = [] ∨ BadOffset (fixedPart buf beyond) (buf.take n)) : OpenFatal beyond (before ++ u)
  /-- malformed discovery data -/
  | discovery {before k x d} (got : Received k x d) (reads : WinReadsOnly x.1) (bad : Malformed d) :
      OpenFatal beyond (before ++ [x])

/-- Only drives, device lists and searches are closed, and the error mode is put back. -/
def JustClosesWin : WReq → Prop
  | .closeHandle _ => True
  | .setupDestroy _ => True
  | .closeFind _ => True
  | .setErrorMode _ => True
  | _ => False

/-- The driver needs the address of the first byte of a buffer: all do that pass the request through. -/
def NeedsBytes (k : WinDrv) : Prop := ¬ OnMiniport k

/-- Exchanges of the whole program that end with a receive of 2048 bytes: the buffer is placed, and the request (perhaps
after failed ones) succeeds. -/
inductive EndsReceived (k : WinDrv) : Prog.Trace WAReq WARep → WReq → Bytes → (Nat → Byte) → Prop
  | mk {before mid : Prog.Trace WAReq WARep} {pl a : WARep} {q : WReq} {d : Bytes} (tries : ∀ x ∈ mid, ∃ q', x.1 = .sys q')
      (got : Received k (q, a.sys) d) :
      EndsReceived k (before ++ (.place, pl) :: mid ++ [(.sys q, a)]) q d pl.behind

/-- Why a call of a client that holds `held` may panic on Windows, given the exchanges `t` of the call. `Close`,
`NvmeGetLogPage`, `Close` of a session and `Exec` are not in the list: they never do. -/
inductive WinCrashCause (held : WinHeld) (t : Prog.Trace WAReq WARep) : WinClientCall → Prop
  /-- opening meets a fatal answer -/
  | openPath {w path u} (calls : SysCalls u t) (bad : OpenFatal w.beyond u) : WinCrashCause held t (.openPath w path)
  | openVolume {w vols path u} (calls : SysCalls u t) (bad : OpenFatal w.beyond u) : WinCrashCause held t (.openVolume w vols path)
  | openPartition {w p u} (calls : SysCalls u t) (bad : OpenFatal w.beyond u) : WinCrashCause held t (.openPartition w p)
  /-- … or the enumeration does; it then still closes what it opened -/
  | enumDrives {w fuel u v} (calls : SysCalls (u ++ v) t) (bad : OpenFatal w.beyond u) (closes : ∀ x ∈ v, JustClosesWin x.1) :
      WinCrashCause held t (.enumDrives w fuel)
  /-- … or Windows names a size for the details of a device that is 0 when rounded up to a multiple of 1024 in 32 bits -/
  | enumDetails {w fuel u set i size r v} (calls : SysCalls (u ++ (.setupDetail set i size, r) :: v) t)
      (small : r.err = some (.errno 122)) (bad : (r.n + 1023) / 1024 * 1024 % 2 ^ 32 = 0)
      (closes : ∀ x ∈ v, JustClosesWin x.1) : WinCrashCause held t (.enumDrives w fuel)
  /-- a bad answer about a volume -/
  | enumVolumes {beyond fuel u x v} (calls : SysCalls (u ++ x :: v) t) (bad : BadAnswer x)
      (closes : ∀ x ∈ v, JustClosesWin x.1) : WinCrashCause held t (.enumVolumes beyond fuel)
  /-- malformed discovery data is read through a handle -/
  | discover {i o k q d b} (here : held[i]? = some o) (bound : WinBound o k) (ends : EndsReceived k t q d b)
      (reads : WinReadsOnly q) (bad : Malformed d) : WinCrashCause held t (.discover i)
  /-- the handle has no driver (closed, or no driver accepted the drive) -/
  | drivingType {i o} (here : held[i]? = some o) (bare : o.handle.dh = none) (quiet : t = []) :
      WinCrashCause held t (.drivingType i)
  | driverName {i o} (here : held[i]? = some o) (bare : o.handle.dh = none) (quiet : t = []) :
      WinCrashCause held t (.driverName i)
  /-- no buffer or one without bytes; nothing is sent -/
  | ata {i o k rw dma tf data secs} (here : held[i]? = some o) (bound : WinBound o k) (disk : k.isAta = true)
      (empty : data = none ∨ data = some []) (quiet : ∀ x ∈ t, x.1 = .place) : WinCrashCause held t (.ata i rw dma tf data secs)
  | security {i o k rw dma p c secs} (here : held[i]? = some o) (bound : WinBound o k) (kind : NeedsBytes k)
      (quiet : ∀ x ∈ t, x.1 = .place) : WinCrashCause held t (.security i rw dma p c [] secs)
  /-- the drive's last answer is too short -/
  | revert {i o k d pw psid adm q data b r} (here : held[i]? = some o) (opal : d.kind = .opal1 ∨ d.kind = .opal2)
      (bound : WinBound o k) (ends : EndsReceived k t q data b) (asked : TcgOnWindowsOnly k d.baseComId (.sys q))
      (answer : Resp.commit ⟨data, []⟩ b = (r, none)) (short : TooShort r) : WinCrashCause held t (.revert i d pw psid adm)
  | defaultPassword {i o k d q data b r} (here : held[i]? = some o) (opal : d.kind = .opal1 ∨ d.kind = .opal2)
      (bound : WinBound o k) (ends : EndsReceived k t q data b) (asked : TcgOnWindowsOnly k d.baseComId (.sys q))
      (answer : Resp.commit ⟨data, []⟩ b = (r, none)) (short : TooShort r) : WinCrashCause held t (.defaultPassword i d)
  | tcg {i o k d c q data b r} (here : held[i]? = some o) (opal : d.kind = .opal1 ∨ d.kind = .opal2) (answered : judges c = true)
      (bound : WinBound o k) (ends : EndsReceived k t q data b) (asked : TcgOnWindowsOnly k d.baseComId (.sys q))
      (answer : Resp.commit ⟨data, []⟩ b = (r, none)) (short : TooShort r) : WinCrashCause held t (.tcg i d c)

end Dparm.Spec
