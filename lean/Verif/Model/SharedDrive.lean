import Verif.Model.Session
import Verif.Model.Concurrent
/-!
# Several clients on one TCG drive

Goroutines (or programs) that call `RevertTPer` and `GetDefaultPassword` on the same drive at the same time. The library takes
no lock around the two exchanges of an operation (tcg/device_opal.go:105-130,157-178), nor around the send and the receives of one
command (tcg/device.go:174-207), and a drive has one place for the answer to a ComID. What the goroutines share is the drive;
each works on its own device object.
-/
namespace Dparm

/-- An operation on a TCG device: tcg/device_opal.go:45-55,93-103, tcg/device_enterprise.go:40-71,98-119,
tcg/device.go:217-227. -/
inductive TcgOp where
  | revert (d : Device) (pw : Bytes) (psid adminSp : Bool)
  | defaultPassword (d : Device)

/-- What it returns. -/
inductive TcgDone where
  | reverted (e : Option GoErr)
  | password (v : Bytes) (e : Option GoErr)
deriving DecidableEq

/-- The operation as a program: `RevertTPer` (tcg/device_opal.go:105-130, tcg/device_enterprise.go:40-71) and
`GetDefaultPassword` (tcg/device_opal.go:157-178, tcg/device_enterprise.go:98-119). -/
def TcgOp.prog (ctx : Ctx) : TcgOp → TcgM TcgDone
  | .revert d pw psid adminSp => do
    let e ← d.revertTPer ctx pw psid adminSp
    OutT.ret (.reverted e)
  | .defaultPassword d => do
    let (v, e) ← d.getDefaultPassword ctx
    OutT.ret (.password v e)

/-- A goroutine that performs operations one after the other. It is taken to recover from panics, as a client may: a panic
(none is possible here on a conforming drive alone) ends the operation, not the goroutine. -/
def tcgClient (ctx : Ctx) : List TcgOp → Prog SecReq SecRep (List (Out TcgDone))
  | [] => .done []
  | op :: ops => Prog.bind (op.prog ctx) (fun o => Prog.bind (tcgClient ctx ops) (fun r => .done (o :: r)))

/-- Goroutines on one drive, each with the operations it will perform. -/
def tcgClients (ctx : Ctx) (ops : List (List TcgOp)) : Pool SecReq SecRep (List (Out TcgDone)) :=
  { threads := ops.map (tcgClient ctx) }

end Dparm
