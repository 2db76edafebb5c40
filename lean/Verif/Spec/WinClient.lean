import Verif.Model.WinClient
/-!
# Specification: handles of Windows in a history
-/
namespace Dparm.Spec

/-- What Windows lends: open devices and volumes, device information lists, searches for volumes. -/
inductive WinRes where
  | file (h : Nat)
  | devices (h : Nat)
  | search (h : Nat)
deriving DecidableEq

/-- What a call works on or gives back. -/
def winUses : WReq → Option WinRes
  | .ioctl h _ _ _ _ => some (.file h)
  | .closeHandle h => some (.file h)
  | .setupDevice set _ => some (.devices set)
  | .setupInterface set _ => some (.devices set)
  | .setupDetail set _ _ => some (.devices set)
  | .setupDestroy set => some (.devices set)
  | .nextVolume f => some (.search f)
  | .closeFind f => some (.search f)
  | _ => none

/-- What a call gives back. -/
def winEnds : WReq → Option WinRes
  | .closeHandle h => some (.file h)
  | .setupDestroy set => some (.devices set)
  | .closeFind f => some (.search f)
  | _ => none

/-- What a call obtains. -/
def winGives (q : WReq) (r : WRep) : Option WinRes :=
  if r.err = none then
    match q with
    | .openDevice _ => some (.file r.handle)
    | .openVolume _ => some (.file r.handle)
    | .setupClass => some (.devices r.handle)
    | .firstVolume => some (.search r.handle)
    | _ => none
  else none

/-- What is held after a call of Windows. -/
def resNext (s : List WinRes) (q : WReq) (r : WRep) : List WinRes :=
  match winEnds q with
  | some x => s.filter (· ≠ x)
  | none => match winGives q r with
    | some x => x :: s
    | none => s

/-- What is held after one more exchange. -/
def resAfter (s : List WinRes) (x : WAReq × WARep) : List WinRes :=
  match x.1 with
  | .sys q => resNext s q x.2.sys
  | _ => s

/-- What a history leaves open. -/
def openRes (t : Prog.Trace WAReq WARep) : List WinRes := t.foldl resAfter []

/-- Windows never hands out a handle that is still open. -/
def FreshHandles (env : Prog.Env WAReq WARep) : Prop :=
  ∀ h q x, winGives q (env h (.sys q)).sys = some x → x ∉ openRes h

/-- The handles a driver has: the one it was given, and for the miniport driver one it opened itself. -/
def _root_.Dparm.WinDrv.owned : WinDrv → List WinRes
  | .nvmeWin h sh => [.file sh, .file h]
  | .windowsNvme h => [.file h]
  | .scsi h => [.file h]
  | .ata h => [.file h]

/-- The drive handle has a driver, and the driver has this handle. -/
def HoldsRes (o : WinOpened) (x : WinRes) : Prop := o.handle.dh ≠ none ∧ ∃ k, o.drv = some k ∧ x ∈ k.owned

/-- Calls that open devices. -/
def winMayOpen : WinClientCall → Bool
  | .openPath .. => true
  | .enumDrives .. => true
  | .enumVolumes .. => true
  | .openVolume .. => true
  | .openPartition .. => true
  | _ => false

/-- A call that, if it opens drives, returned. -/
def WinFinished : WinClientCall → Out (List WinOpened) → Prop
  | _, .ret _ => True
  | c, _ => winMayOpen c = false

/-- A drive whose driver is the miniport driver. -/
def miniport (o : WinOpened) : Bool := match o.drv with
  | some (.nvmeWin _ _) => true
  | _ => false

/-- The drives among `os` that no driver accepted. -/
def winDriverless (os : List WinOpened) : Nat := os.countP (fun o => o.handle.dh.isNone)

/-- The handles with a driver. -/
def winDriven (os : List WinOpened) : Nat := os.countP (fun o => o.handle.dh.isSome)

/-- The drives among `os` that the miniport driver accepted. -/
def winMiniports (os : List WinOpened) : Nat := os.countP miniport

/-- The drives a call reported. -/
def winReported : Out (List WinOpened) → List WinOpened
  | .ret ds => ds
  | _ => []

/-- A call that went well as far as drives are opened: it returned if it opens drives, and every drive it reported was
accepted by a driver other than the miniport driver. -/
def WinWentWell (c : WinClientCall) (r : Out (List WinOpened)) : Prop :=
  WinFinished c r ∧ ∀ d ∈ winReported r, d.handle.dh ≠ none ∧ miniport d = false

end Dparm.Spec
