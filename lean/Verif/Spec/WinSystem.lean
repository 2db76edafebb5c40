import Verif.Spec.WinEnum
import Verif.Spec.LinuxSystem
/-!
# Vocabulary: what the library asks drives to do on Windows, read off the control codes and records
-/
namespace Dparm.Spec
open Dparm

/-- Control codes that only ask for information (winioctl.h): device number, geometry, layout, SCSI address, extents of a
volume, partition information. -/
def inquiryCodes : List Nat := [0x2d1080, 0x700a0, 0x70050, 0x41018, 0x560000, 0x70048]

/-- The ATA registers hold IDENTIFY DEVICE, or TRUSTED RECEIVE of protocol 1 for ComID 1 (protocol in the features
register, ComID in LBA mid/high). -/
def RegsRead (command feat lbam lbah : Nat) : Prop :=
  command = 0xec ∨ (command = 0x5c ∧ feat = 1 ∧ lbam = 1 ∧ lbah = 0)

/-- An ATA pass-through record that only reads: data-in is its only flag, and the current registers hold a reading
command. -/
def AtaReads (v : AtaView) : Prop :=
  v.flags = 2 ∧
  RegsRead (v.current.getD 6 0).toNat (v.current.getD 0 0).toNat (v.current.getD 3 0).toNat (v.current.getD 4 0).toNat

/-- A SCSI pass-through record that only reads: it says data-in, and the CDB is an ATA pass-through with reading registers
or SECURITY PROTOCOL IN (0xa2) of protocol 1 for ComID 1. (Of the ATA pass-through only the registers: the protocol field
is 0 on Windows, see C97.) -/
def ScsiReads (v : ScsiView) : Prop :=
  v.dataIn = 1 ∧
  ((∃ s, satDecode v.cdb = some s ∧ RegsRead s.command.toNat s.feat s.lbam s.lbah) ∨ v.cdb.take 4 = [0xa2, 1, 0, 1])

/-- A miniport record that only reads: Identify, or Security Receive of protocol 1 for ComID 1. -/
def MiniportReads (v : MiniportView) : Prop :=
  v.opcode = 6 ∨ (v.opcode = 0x82 ∧ v.cdw10 = 1 * 2 ^ 24 + 1 * 2 ^ 8)

/-- Calls that only read: control requests that read (a property query, 0x2d1400, is one with query type 0), and calls other
than a change of the error mode of the process. -/
def WinReadsOnly : WReq → Prop
  | .ioctl _ code inb _ _ =>
    code ∈ inquiryCodes ∨ (code = 0x2d1400 ∧ leVal (slice inb 4 4) = 0) ∨
    ((code = 0x4d030 ∨ code = 0x4d02c) ∧ AtaReads (ataView (inb.take 48))) ∨
    ((code = 0x4d014 ∨ code = 0x4d004) ∧ ScsiReads (scsiView (inb.take 96))) ∨
    (code = 0x4d008 ∧ MiniportReads (miniportView inb))
  | .setErrorMode _ => False
  | _ => True

end Dparm.Spec
