import Verif.Model.Client
import Verif.Model.WinClient
/-!
# Several clients at once

Goroutines that use the library at the same time. The library has no state of its own besides its handles: the factories
hold a list of drivers that is never changed (plat_linux/drive_factory.go:20-32, plat_win/drive_factory.go:21-35), the
drivers have no fields (plat_linux/nvme_driver.go:17-19, sg_driver.go:23-25, plat_win/ata_driver.go:29-31,
scsi_driver.go:22-24, nvme_win_driver.go:21-23, windows_nvme_driver.go:16-18), and the variables of the packages are constants
(tcg/types.go:323-420, plat_linux/nvme_ioctl.go:8-18, drive_factory.go:18, volume.go:19). So goroutines that do not share a
handle meet only in the operating system, and a schedule says who makes the next system call.
-/
namespace Dparm

/-- Exchanges with the operating system, each with the number of the goroutine. -/
abbrev Tagged (Q R : Type) := List (Nat × Q × R)

/-- All exchanges, as the operating system sees them. -/
def Tagged.whole {Q R : Type} (t : Tagged Q R) : Prog.Trace Q R := t.map (·.2)

/-- The exchanges of one goroutine. -/
def Tagged.of {Q R : Type} (t : Tagged Q R) (i : Nat) : Prog.Trace Q R := (t.filter (fun x => x.1 == i)).map (·.2)

/-- An operating system that also knows who asks. -/
abbrev SysEnv (Q R : Type) := Tagged Q R → Nat → Q → R

/-- Goroutines, each with what it still has to do, and the exchanges so far. -/
structure Pool (Q R α : Type) where
  threads : List (Prog Q R α)
  trace : Tagged Q R := []

/-- The goroutine `i` makes its next system call; nothing happens if it has ended. -/
def Pool.step {Q R α : Type} (env : SysEnv Q R) (s : Pool Q R α) (i : Nat) : Pool Q R α :=
  match s.threads[i]? with
  | some (.ask q k) =>
    { threads := s.threads.set i (k (env s.trace i q)), trace := s.trace ++ [(i, q, env s.trace i q)] }
  | _ => s

/-- The goroutines after these steps. -/
def Pool.run {Q R α : Type} (env : SysEnv Q R) (s : Pool Q R α) (sched : List Nat) : Pool Q R α :=
  sched.foldl (Pool.step env) s

/-- A client on Linux as one program: its calls one after the other (`clientRun` in Model/Client.lean). The result: what it
holds in the end, and for every call the drives reported. -/
def clientProg (order : List (Bytes × Bytes) → List (Bytes × Bytes)) (ctx : Ctx) :
    List LinuxCall → Held → Prog AReq ARep (Held × List (Out (List Opened)))
  | [], st => .done (st, [])
  | c :: cs, st =>
    Prog.bind (c.prog order ctx st) (fun o =>
      Prog.bind (clientProg order ctx cs (st.afterCall o).1) (fun r => .done (r.1, (st.afterCall o).2 :: r.2)))

/-- A client on Windows as one program (`winClientRun` in Model/WinClient.lean). -/
def winClientProg (conv : Wide → Bytes) (ctx : Ctx) :
    List WinClientCall → WinHeld → Prog WAReq WARep (WinHeld × List (Out (List WinOpened)))
  | [], st => .done (st, [])
  | c :: cs, st =>
    Prog.bind (c.prog conv ctx st) (fun o =>
      Prog.bind (winClientProg conv ctx cs (st.afterCall o).1) (fun r => .done (r.1, (st.afterCall o).2 :: r.2)))

/-- Clients on Linux that start with nothing, each with the calls it will make. -/
def clients (order : List (Bytes × Bytes) → List (Bytes × Bytes)) (ctx : Ctx) (calls : List (List LinuxCall)) :
    Pool AReq ARep (Held × List (Out (List Opened))) :=
  { threads := calls.map (fun cs => clientProg order ctx cs []) }

/-- Clients on Windows that start with nothing. -/
def winClients (conv : Wide → Bytes) (ctx : Ctx) (calls : List (List WinClientCall)) :
    Pool WAReq WARep (WinHeld × List (Out (List WinOpened))) :=
  { threads := calls.map (fun cs => winClientProg conv ctx cs []) }

end Dparm
