import Verif.Model.Client
/-!
# Specification: descriptors in a history
-/
namespace Dparm.Spec

/-- The open descriptors after one more exchange: `open` that succeeded adds one, `close` removes it. -/
def fdsAfter (fds : List Nat) (x : AReq × ARep) : List Nat :=
  match x.1 with
  | .sys (.os (.openDev _)) => if x.2.sys.os.err = none then x.2.sys.os.fd :: fds else fds
  | .sys (.os (.closeFd fd)) => fds.filter (· ≠ fd)
  | _ => fds

/-- The descriptors a history leaves open. -/
def openFds (t : Prog.Trace AReq ARep) : List Nat := t.foldl fdsAfter []

/-- The descriptor a system call works on or closes. -/
def usesFd : AReq → Option Nat
  | .sys (.nvme fd _ _ _) => some fd
  | .sys (.nvmeIo fd _ _) => some fd
  | .sys (.sgIo fd _) => some fd
  | .sys (.os (.sectorSize fd)) => some fd
  | .sys (.os (.totalSize fd)) => some fd
  | .sys (.os (.geometry fd)) => some fd
  | .sys (.os (.closeFd fd)) => some fd
  | _ => none

/-- The operating system never returns a descriptor from `open` that is still open. -/
def FreshFds (env : Prog.Env AReq ARep) : Prop :=
  ∀ h path, (env h (.sys (.os (.openDev path)))).sys.os.err = none →
    (env h (.sys (.os (.openDev path)))).sys.os.fd ∉ openFds h

/-- The handle has a driver on this descriptor. -/
def HoldsFd (o : Opened) (fd : Nat) : Prop := o.handle.dh ≠ none ∧ ∃ i, o.source = some (i, fd)

/-- Calls that open devices. -/
def mayOpen : LinuxCall → Bool
  | .openPath _ => true
  | .enumDrives => true
  | .enumVolumes _ => true
  | .openVolume _ _ => true
  | .openPartition _ => true
  | _ => false

/-- A call that went well as far as drives are opened: it is not `EnumVolumes`; if it opens drives it did not panic, and a
driver accepted every drive it reported. -/
def WentWell : LinuxCall → Out (List Opened) → Prop
  | .enumVolumes _, _ => False
  | _, .ret ds => ∀ d ∈ ds, d.handle.dh ≠ none
  | c, _ => mayOpen c = false

/-- The drives among `os` that no driver accepted. -/
def driverless (os : List Opened) : Nat := os.countP (fun o => o.handle.dh.isNone)

/-- The handles with a driver. -/
def driven (os : List Opened) : Nat := os.countP (fun o => o.handle.dh.isSome)

/-- The drives a call reported. -/
def reported : Out (List Opened) → List Opened
  | .ret ds => ds
  | _ => []

/-- A call that, if it opens drives, did not panic (`EnumVolumes` may). -/
def Finished : LinuxCall → Out (List Opened) → Prop
  | .enumVolumes _, _ => True
  | _, .ret _ => True
  | c, _ => mayOpen c = false

/-- Successful calls of `open`. -/
def opensIn (t : Prog.Trace AReq ARep) : Nat :=
  t.countP (fun x => match x.1 with
    | .sys (.os (.openDev _)) => x.2.sys.os.err.isNone
    | _ => false)

/-- The devices `EnumVolumes` opened, given the exchanges of a call; other calls count nothing. -/
def volumeOpens : LinuxCall → Prog.Trace AReq ARep → Nat
  | .enumVolumes _, t => opensIn t
  | _, _ => 0

end Dparm.Spec
