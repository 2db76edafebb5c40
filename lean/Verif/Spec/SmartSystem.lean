import Verif.Model.SmartSystem
import Verif.Spec.AtaUtil
import Verif.Spec.HandleSystem
import Verif.Spec.WinTcg
/-!
# Specification: SMART data of an opened drive
-/
namespace Dparm.Spec
open Dparm

/-- The SMART command (B0h) with the given subcommand: D0h reads the attribute values, D1h the thresholds. One sector; 4Fh and C2h in the LBA
registers are the key every SMART command carries. -/
def smartCommand (sub : Byte) : Tf := { command := 0xb0, lob := { feat := sub, nsect := 1, lbam := 0x4f, lbah := 0xc2 } }

/-- Two commands one after the other, with their errors and the sector each of them left in the buffer, and what `ReadSmart` returns. -/
inductive SmartOutcome {Q R : Type} (runs : Byte → Bytes → Prog.Trace Q R → Option GoErr → Bytes → Prop) :
    Prog.Trace Q R → Res (List Bytes × List Bytes) → Prop
  /-- the first fails: its error, and there is no second -/
  | noValues {t : Prog.Trace Q R} {e : GoErr} {b : Bytes} (first : runs 0xd0 (zeros 512) t (some e) b) : SmartOutcome runs t (.err e)
  /-- the second fails: its error -/
  | noThresholds {t u : Prog.Trace Q R} {e : GoErr} {b c : Bytes} (first : runs 0xd0 (zeros 512) t none b) (second : runs 0xd1 b u (some e) c) :
      SmartOutcome runs (t ++ u) (.err e)
  /-- the values of the first sector and the thresholds of the second -/
  | both {t u : Prog.Trace Q R} {b c : Bytes} {v w : List Bytes} (first : runs 0xd0 (zeros 512) t none b) (second : runs 0xd1 b u none c)
      (values : SmartValuesOf b v) (thresholds : SmartThresholdsOf c w) : SmartOutcome runs (t ++ u) (.ok (v, w))

/-- One SMART command on a SCSI generic drive. -/
def SmartOnScsi (fd secs : Nat) (sub : Byte) (b : Bytes) (t : Prog.Trace LReq LRep) (e : Option GoErr) (after : Bytes) : Prop :=
  ∃ tf', AtaOnScsi fd false false (smartCommand sub) (some b) secs t e tf' (some after)

/-- One SMART command on a Windows drive. -/
def SmartOnWindows (k : WinDrv) (secs : Nat) (sub : Byte) (b : Bytes) (t : Prog.Trace WAReq WARep) (e : Option GoErr) (after : Bytes) : Prop :=
  ∃ pl u t', t = (.place, pl) :: t' ∧ SysCalls u t' ∧ AtaOnWindows k false (smartCommand sub) b secs u e after

/-- A disk that answers SMART: to the ATA PASS-THROUGH command on `fd` that carries the SMART command `sub` as a read, the kernel reports
success, no sense key, and the disk's sector. -/
def AnswersSmart (fd : Nat) (sub : Byte) (sector : Bytes) (env : Prog.Env LReq LRep) : Prop :=
  sector.length = 512 ∧ ∀ h q, satDecode q.cdb = some (satOf (smartCommand sub) true false false) → q.dir = -3 → q.dxferLen = 512 →
    (env h (.sgIo fd q)).sg.err = none ∧ (env h (.sgIo fd q)).sg.data = sector ∧
    fixedKey (senseArea (zeros 32) (env h (.sgIo fd q)).sg.sense) = 0

/-- What the driver takes for success in an answer of Windows to the record `inb`: the ATA driver a status without ERR and DRQ, the SCSI
driver no sense key. -/
def GoodAnswer : WinDrv → Bytes → WRep → Prop
  | .ata _, _, r => 46 < r.out.length ∧ ¬ errOrDrq (r.out.getD 46 0)
  | _, inb, r => fixedKey (slice (delivered inb r.out) 60 32) = 0

/-- The same on Windows: to a request on the drive's handle that carries the SMART command `sub` as a read of 512 bytes, Windows reports success,
a good status (or no sense key) and the disk's sector. -/
def AnswersSmartWin (k : WinDrv) (secs : Nat) (sub : Byte) (sector : Bytes) (env : Prog.Env WAReq WARep) : Prop :=
  sector.length = 512 ∧ ∀ h code inb n m, CarriesTask k false (smartCommand sub) 512 secs code inb →
    (env h (.sys (.ioctl k.handle code inb n m))).sys.err = none ∧ (env h (.sys (.ioctl k.handle code inb n m))).sys.mem = sector ∧
    GoodAnswer k inb (env h (.sys (.ioctl k.handle code inb n m))).sys

end Dparm.Spec
