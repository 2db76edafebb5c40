import Verif.Model.Factory
/-!
# Vocabulary for what the drive factory did, read off the trace
-/
namespace Dparm

/-- The attempts to open with a driver: driver index, descriptor, answer; in order. -/
def tries (tr : Prog.Trace FReq FRep) : List (Nat × Nat × FRep) :=
  tr.filterMap (fun x => match x.1 with
    | .tryDriver i fd => some (i, fd, x.2)
    | _ => none)

/-- The driver accepted the descriptor. -/
def accepted (t : Nat × Nat × FRep) : Bool := t.2.2.err.isNone

/-- The last attempt that succeeded. -/
def lastAccepted (tr : Prog.Trace FReq FRep) : Option (Nat × Nat × FRep) := ((tries tr).filter accepted).getLast?

/-- The method calls on the handle that driver `i` returned. -/
def callsTo (i : Nat) (tr : Prog.Trace FReq FRep) : List (DrvReq × DrvRep) :=
  tr.filterMap (fun x => match x.1 with
    | .drv j _ q => if j = i then some (q, x.2.drv) else none
    | _ => none)

/-- How often a descriptor is closed: by the factory itself, or by a driver's `Close` on it. -/
def closings (fd : Nat) (tr : Prog.Trace FReq FRep) : Nat :=
  (tr.filter (fun x => match x.1 with
    | .closeFd f => f == fd
    | .drv _ f .close => f == fd
    | _ => false)).length

/-- The paths given to `unix.Open`, with the answers. -/
def opens (tr : Prog.Trace FReq FRep) : List (Bytes × FRep) :=
  tr.filterMap (fun x => match x.1 with
    | .openDev p => some (p, x.2)
    | _ => none)

/-- The paths given to `unix.Stat`, with the answers. -/
def stats (tr : Prog.Trace FReq FRep) : List (Bytes × FRep) :=
  tr.filterMap (fun x => match x.1 with
    | .stat p => some (p, x.2)
    | _ => none)

/-- `sub` occurs in `s`. -/
def Occurs (sub s : Bytes) : Prop := ∃ a b, s = a ++ sub ++ b

/-- `Close` calls on driver handles: driver index and descriptor, in order. -/
def closeCalls (tr : Prog.Trace FReq FRep) : List (Nat × Nat) :=
  tr.filterMap (fun x => match x.1 with
    | .drv i fd .close => some (i, fd)
    | _ => none)

/-- The file type bits of a mode say "block device" (type number 6 in bits 12 to 15). -/
def IsBlockDevice (m : BitVec 64) : Prop := m.toNat / 4096 % 16 = 6

instance (m : BitVec 64) : Decidable (IsBlockDevice m) := inferInstanceAs (Decidable (_ = _))

end Dparm
