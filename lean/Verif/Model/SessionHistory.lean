import Verif.Model.Session
/-!
# A session object and the calls made on it (tcg/session.go)
-/
namespace Dparm

/-- The methods of a session object: `Start` (tcg/session.go:60-138), `Authenticate` (140-188), `SendCommand` (190-238),
`Close` (31-41), `IsNoHashPassword` (43-45), `SetNoHashPassword` (47-49), `NoAutoClose` (51-53), `SetTimeout` (55-57). -/
inductive SessOp where
  | start (sp : UID) (challenge : Bytes) (auth : AuthArg)
  | authenticate (authority challenge : Bytes)
  | sendCommand (cmd : ABuf)
  | close
  | isNoHashPassword
  | setNoHashPassword (b : Bool)
  | noAutoClose
  | setTimeout (ms : BitVec 32)

/-- What a method returns: `error` (tcg/session.go:60,140), `(*TcgResponse, error)` (tcg/session.go:190), `bool`
(tcg/session.go:43). -/
inductive SessRet where
  | err (e : Option GoErr)
  | reply (r : Option Resp) (e : Option GoErr)
  | flag (b : Bool)

/-- One call (tcg/session.go:31-58,60,140,190): the session object afterwards and what was returned; the methods without
result return nothing. -/
def SessOp.call (ctx : Ctx) (d : Device) (s : Session) : SessOp → TcgM (Session × List SessRet)
  | .start sp ch au => do let (s', e) ← s.start ctx d sp ch au; OutT.ret (s', [.err e])
  | .authenticate a c => do let e ← s.authenticate ctx d a c; OutT.ret (s, [.err e])
  | .sendCommand c => do let (r, e) ← s.sendCommand ctx d c; OutT.ret (s, [.reply r e])
  | .close => do let s' ← s.close; OutT.ret (s', [])
  | .isNoHashPassword => OutT.ret (s, [.flag s.noHash])
  | .setNoHashPassword b => OutT.ret ({ s with noHash := b }, [])
  | .noAutoClose => OutT.ret ({ s with autoClose := false }, [])
  | .setTimeout ms => OutT.ret ({ s with timeout := ms }, [])

/-- Calls on one session object, one after the other (tcg/session.go:31-238); the caller goes on after errors, a panic ends the history. -/
def sessionHistory (ctx : Ctx) (d : Device) (s : Session) : List SessOp → TcgM (Session × List SessRet)
  | [] => OutT.ret (s, [])
  | o :: os => do
    let (s', r) ← o.call ctx d s
    let (s'', rs) ← sessionHistory ctx d s' os
    OutT.ret (s'', r ++ rs)

/-- Calls of the tcg package on a device and a session object made earlier. The object can be in any state `s` (its settings and
session numbers are data of the object), so whatever was called on it before is covered; its unexported `opened` mark
(tcg/session.go:11-21), which no method sets, is down. Commands are built by `Init`
(tcg/command.go:45-69) and any further operations. -/
inductive TcgCall where
  /-- `Start` (tcg/session.go:60-138) -/
  | start (s : Session) (sp : UID) (challenge : Bytes) (auth : AuthArg)
  /-- `Authenticate` (tcg/session.go:140-188) -/
  | authenticate (s : Session) (authority challenge : Bytes)
  /-- `SendCommand` (tcg/session.go:190-238) -/
  | send (s : Session) (inv : InvokingArg) (m : MethodArg) (ops : List CmdOp)
  /-- `Close` (tcg/session.go:31-41) -/
  | close (s : Session)
  /-- `OpalGetTable` (tcg/device.go:221-223, tcg/device_opal.go:49-51,97-99,132-155) on the device `recv` -/
  | table (s : Session) (recv : Device) (table : Bytes) (startCol endCol : BitVec 16)
  /-- `EnterpriseGetTable` (tcg/device_enterprise.go:73-96) -/
  | entTable (s : Session) (table startCol endCol : Bytes)
  /-- `Exec` (tcg/device.go:174-207) -/
  | exec (protocol : Byte) (inv : InvokingArg) (m : MethodArg) (ops : List CmdOp)

/-- Carrying out the call for the device `d`; what it returns is left out (tcg/session.go:31-238, tcg/device.go:174-223). -/
def TcgCall.prog (ctx : Ctx) (d : Device) : TcgCall → TcgM Unit
  | .start s sp ch au => do let _ ← s.start ctx d sp ch au; OutT.ret ()
  | .authenticate s a c => do let _ ← s.authenticate ctx d a c; OutT.ret ()
  | .send s inv m ops => do
    let c ← OutT.lift (Cmd.execAll (newTcgCommand ctx.base) (.init inv m :: ops))
    let _ ← s.sendCommand ctx d c
    OutT.ret ()
  | .close s => do let _ ← Session.close { s with opened := false }; OutT.ret ()
  | .table s recv t a b => do let _ ← Device.getTable ctx recv d s t a b; OutT.ret ()
  | .entTable s t a b => do let _ ← Device.entGetTable ctx d s t a b; OutT.ret ()
  | .exec p inv m ops => do
    let c ← OutT.lift (Cmd.execAll (newTcgCommand ctx.base) (.init inv m :: ops))
    let _ ← d.exec ctx.fuel c p
    OutT.ret ()

end Dparm
