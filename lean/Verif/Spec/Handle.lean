import Verif.Model.DriveHandle
/-!
# Specification: identity strings and handle operations
-/
namespace Dparm.Spec
open Dparm

/-- `o` is `s` with the two bytes of every word exchanged. -/
def PairSwapped (s o : Bytes) : Prop :=
  o.length = s.length ∧ ∀ i, 2 * i + 1 < s.length → o[2 * i]? = s[2 * i + 1]? ∧ o[2 * i + 1]? = s[2 * i]?

/-- space, tab, CR, LF, NUL -/
def Blank (b : Byte) : Prop := b.toNat = 32 ∨ b.toNat = 9 ∨ b.toNat = 13 ∨ b.toNat = 10 ∨ b.toNat = 0

/-- `o` is what remains of `s` when all blanks at both ends are removed. -/
def Trimmed (s o : Bytes) : Prop :=
  ∃ a b, s = a ++ o ++ b ∧ (∀ x ∈ a, Blank x) ∧ (∀ x ∈ b, Blank x) ∧
    (∀ x ∈ o.head?, ¬ Blank x) ∧ (∀ x ∈ o.getLast?, ¬ Blank x)

/-- Word `w` of an ATA identity block (16 bit, little-endian). -/
def word (id : Bytes) (w : Nat) : Nat := leVal (slice id (2 * w) 2)

/-- The operations of a drive handle. -/
inductive HandleOp where
  | init
  | discovery
  | security (rw dma : Bool) (protocol : Byte) (comId : BitVec 16) (buf : Bytes) (timeoutSecs : Nat)
  | taskFile (rw dma : Bool) (tf : Tf) (data : Bytes) (timeoutSecs : Nat)
  | logPage (nsid logId : BitVec 32) (rae : Bool) (size : Nat)
  | drivingType
  | driverName
  | close
deriving DecidableEq

/-- What an operation reports. -/
inductive OpResult where
  | err (e : Option GoErr)
  | value
  | panicked
deriving DecidableEq

/-- The operation as a program: its report and the handle afterwards. -/
def HandleOp.prog (h : Handle) : HandleOp → DrvM (OpResult × Handle)
  | .init => do let r ← h.init; OutT.ret (.err r.2, r.1)
  | .discovery => do let r ← h.tcgDiscovery0; OutT.ret (.err r.2, r.1)
  | .security rw dma p c b t => do let r ← h.securityCommand rw dma p c b t; OutT.ret (.err r.err, h)
  | .taskFile rw dma tf d t => do let r ← h.ataDoTaskFileCmd rw dma tf d t; OutT.ret (.err r.1, h)
  | .logPage n l r s => do let r ← h.nvmeGetLogPage n l r s; OutT.ret (.err r.2, h)
  | .drivingType => do let _ ← h.getDrivingType; OutT.ret (.value, h)
  | .driverName => do let _ ← h.getDriverName; OutT.ret (.value, h)
  | .close => do let h' ← h.close; OutT.ret (.value, h')

/-- One operation; a caller that recovers from a panic goes on with the handle it had. -/
def HandleOp.exec (env : Prog.Env DrvReq DrvRep) (hist : Prog.Trace DrvReq DrvRep) (h : Handle) (op : HandleOp) :
    OpResult × Handle × Prog.Trace DrvReq DrvRep :=
  match OutT.run env hist (op.prog h) with
  | (.ret (r, h'), t) => (r, h', t)
  | (_, t) => (.panicked, h, t)

/-- A history of operations: reports, final handle, all exchanges with the driver. -/
def execAll (env : Prog.Env DrvReq DrvRep) : Prog.Trace DrvReq DrvRep → Handle → List HandleOp →
    List OpResult × Handle × Prog.Trace DrvReq DrvRep
  | _, h, [] => ([], h, [])
  | hist, h, op :: ops =>
    let (r, h1, t1) := op.exec env hist h
    let (rs, h2, t2) := execAll env (hist ++ t1) h1 ops
    (r :: rs, h2, t1 ++ t2)

/-- What each operation reports on a closed handle. -/
def closedReport : HandleOp → OpResult
  | .init => .err none
  | .discovery => .err (some (.msg "not supported"))
  | .security _ _ _ _ _ _ => .err (some (.msg "not supported"))
  | .taskFile _ _ _ _ _ => .err (some .notSupportThisDriver)
  | .logPage _ _ _ _ => .err (some .notSupportThisDriver)
  | .drivingType => .panicked
  | .driverName => .panicked
  | .close => .value

/-- Number of times the driver was closed. -/
def closes (t : Prog.Trace DrvReq DrvRep) : Nat :=
  (t.filter (fun p => match p.1 with | .close => true | _ => false)).length

end Dparm.Spec
