import Verif.Spec.TperLinux
import Verif.Spec.WinTcg
import Verif.Spec.WinFactory
import Verif.Model.WinTcg
/-!
# Specification: a conforming TCG drive behind the Windows miniport driver

The reference drive of `Spec/Tper.lean` seen through DeviceIoControl: what Windows answers to the miniport requests on one
adapter handle.
-/
namespace Dparm.Spec
open Dparm

/-- The miniport request (control code 0x4d008) on the handle `sh` with the record `inb`; the record comes back in place. -/
abbrev miniportIoctl (sh : Nat) (inb : Bytes) : WAReq := .sys (.ioctl sh 0x4d008 inb 4248 none)

/-- What Windows returned in the data area of the record, as far as a receive of 2048 bytes goes. -/
def miniportReceived (inb : Bytes) (a : WARep) : Bytes := (miniportView (delivered inb a.sys.out)).data.take 2048

/-- A miniport record with a Security Send (81h) or Security Receive (82h) of protocol 1 for the ComID, on the handle. -/
def TouchesMiniport (sh : Nat) (comId : BitVec 16) : WAReq → Prop
  | .sys (.ioctl h code inb _ _) => h = sh ∧ code = 0x4d008 ∧
      ((miniportView inb).opcode = 0x81 ∨ (miniportView inb).opcode = 0x82) ∧
      (miniportView inb).cdw10 / 2 ^ 24 = 1 ∧ (miniportView inb).cdw10 / 2 ^ 8 % 2 ^ 16 = comId.toNat
  | _ => False

/-- Windows behaves as the drive `dr` behind the adapter handle `sh`; `st` gives the drive's state after each history. Only
Security Send and Receive of protocol 1 for its ComID through the miniport concern it. (The miniport is assumed to execute a
Security Send although the record's direction field says device to host, see C99.) -/
structure MiniportConforming (sh : Nat) (dr : Drive) (maxWait : Nat) (env : Prog.Env WAReq WARep)
    (st : Prog.Trace WAReq WARep → DriveState) : Prop where
  send : ∀ h inb data p, IsMiniportSecurity true 1 dr.comId data inb → data.length ≤ 4096 → 512 ∣ data.length →
    readPacket data = some p → p.comId = dr.comId.toNat →
    (env h (miniportIoctl sh inb)).sys.err = none ∧
    ∃ tper w, tper < 2 ^ 32 ∧ w ≤ maxWait ∧
      st (h ++ [(miniportIoctl sh inb, env h (miniportIoctl sh inb))]) = { dr.perform tper (st h) p with wait := w }
  notReady : ∀ h inb a w, IsMiniportSecurity false 1 dr.comId (zeros 2048) inb → (st h).answer = some a →
    (st h).wait = w + 1 →
    (env h (miniportIoctl sh inb)).sys.err = none ∧
    NotReady (miniportReceived inb (env h (miniportIoctl sh inb))) ∧
    st (h ++ [(miniportIoctl sh inb, env h (miniportIoctl sh inb))]) = { st h with wait := w }
  ready : ∀ h inb a, IsMiniportSecurity false 1 dr.comId (zeros 2048) inb → (st h).answer = some a → (st h).wait = 0 →
    (env h (miniportIoctl sh inb)).sys.err = none ∧
    (∃ ts, a.Encodes ts ∧ CarriesTokens (miniportReceived inb (env h (miniportIoctl sh inb))) ts) ∧
    st (h ++ [(miniportIoctl sh inb, env h (miniportIoctl sh inb))]) = { st h with answer := none }
  other : ∀ h q, ¬ TouchesMiniport sh dr.comId q → st (h ++ [(q, env h q)]) = st h

/-- Windows answers discovery (protocol 1, ComID 1) for the drive `dr` through the miniport: an Opal subsystem on the
drive's ComID, which is not the one reserved for discovery. -/
structure MiniportAnnounces (sh : Nat) (dr : Drive) (env : Prog.Env WAReq WARep) : Prop where
  discovery : ∀ h inb, IsMiniportSecurity false 1 1 (zeros 2048) inb →
    (env h (miniportIoctl sh inb)).sys.err = none ∧
    AnnouncesOpal dr.comId (miniportReceived inb (env h (miniportIoctl sh inb)))
  reserved : dr.comId ≠ 1

/-- The path opens as the handle `hd` of a disk whose drive layout Windows either does not tell or tells completely, with
entries of the table's own style; the disk hangs at an adapter that opens as the handle `sh` by whatever port number
Windows names, and the miniport executes Identify there. -/
structure MiniportNode (hd sh : Nat) (path : Bytes) (env : Prog.Env WAReq WARep) : Prop where
  text : 0#8 ∉ path
  opens : ∀ h, (env h (.sys (.openDevice path))).sys.err = none ∧ (env h (.sys (.openDevice path))).sys.handle = hd
  layout : ∀ h a, a = (env h (.sys (.ioctl hd 0x70050 [] 4096 none))).sys →
    (∃ e, a.err = some e ∧ e ≠ .errno 122) ∨
    (a.err = none ∧ a.n ≤ 4096 ∧ 48 ≤ a.n ∧
      ¬ (leVal (slice ((delivered (zeros 4096) a.out).take a.n) 0 4) ≤ 1 ∧
        MixedStyles ((delivered (zeros 4096) a.out).take a.n)))
  address : ∀ h, (env h (.sys (.ioctl hd 0x41018 (zeros 8) 8 none))).sys.err = none
  adapter : ∀ h text, (env h (.sys (.openDevice (ascii "\\\\.\\SCSI" ++ text ++ ascii ":")))).sys.err = none ∧
    (env h (.sys (.openDevice (ascii "\\\\.\\SCSI" ++ text ++ ascii ":")))).sys.handle = sh
  identifies : ∀ h inb, inb.length = 4248 → (miniportView inb).opcode = 6 → (env h (miniportIoctl sh inb)).sys.err = none

/-- No two clock readings are more than 10 s apart. -/
def PromptWindows (env : Prog.Env WAReq WARep) : Prop :=
  ∀ h h', (env h' .now).time ≤ (env h .now).time + 10000000000

/-- `o` was opened by the Windows factory, at some time, under some path, on the conforming drive `dr` behind the miniport
driver. -/
def OpenedOnWin (o : WinOpened) (dr : Drive) (W : Nat) (env : Prog.Env WAReq WARep) (st : Prog.Trace WAReq WARep → DriveState) :
    Prop :=
  ∃ w b b' path h₀ hd sh, (OutT.run env h₀ (OutT.interp winCall (winOpenByPath w (winOpeners b b') path))).1 = .ret (.ok o) ∧
    o.drv = some (.nvmeWin hd sh) ∧ MiniportConforming sh dr W env st ∧ MiniportAnnounces sh dr env

end Dparm.Spec
