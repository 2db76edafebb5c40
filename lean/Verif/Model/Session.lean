import Verif.Model.Device
/-!
# tcg/session.go, tcg/utils.go, tcg/device_opal.go, tcg/device_enterprise.go: sessions and operations
-/
namespace Dparm
open Spec (beVal leBytes)

/-- `pbkdf2.Key(password, salt, 75000, 32, sha1.New)` (tcg/utils.go:19) as an arbitrary function with
32-byte results. -/
structure Kdf where
  key : Bytes → Bytes → Bytes
  len : ∀ p s, (key p s).length = 32

/-- tcg/utils.go:9-24 `TcgHashPassword`. -/
def tcgHashPassword (kdf : Kdf) (serial : Bytes) (noHash : Bool) (password : Bytes) : Bytes :=
  let password := if password.length > 32 then password.take 32 else password
  if noHash then 0xd0 :: BitVec.ofNat 8 password.length :: password
  else
    let derived := kdf.key password serial
    0xd0 :: BitVec.ofNat 8 derived.length :: derived

/-- tcg/session.go:12-21 `TcgSession` without its device. -/
structure Session where
  opened : Bool := false
  hsn : BitVec 64 := 0
  tsn : BitVec 64 := 0
  noHash : Bool := false
  autoClose : Bool := true
  timeout : BitVec 32 := 60000
deriving DecidableEq

/-- tcg/session.go:23-29 `NewTcgSession`. -/
def newTcgSession : Session := {}

/-- Constants of a run: the round bound of polling loops, the key derivation, and the address at which
command buffers are allocated. -/
structure Ctx where
  fuel : Nat
  kdf : Kdf
  base : Nat

/-- Building a command and ignoring every error on the way, as all callers do (e.g.
tcg/session.go:75-108): `NewTcgCommand`, `Init`, `Add...`, `Complete()`. -/
def Cmd.make (base : Nat) (inv : InvokingArg) (m : MethodArg) (ops : List AddOp) : P ABuf := do
  let (c, _) ← Cmd.init (newTcgCommand base) inv m
  let (c, _) ← Cmd.addAll c ops
  let (c, _) ← Cmd.complete c
  return c

/-- `AddToken(STARTLIST)` etc., tcg/types.go:462-465,478-481. -/
def tSTARTLIST : AddOp := .tok (.int 0xf0)
def tENDLIST : AddOp := .tok (.int 0xf1)
def tSTARTNAME : AddOp := .tok (.int 0xf2)
def tENDNAME : AddOp := .tok (.int 0xf3)
def tUINT (n : Nat) : AddOp := .tok (.int n)

/-- The ASCII texts of the Enterprise paths: "SessionTimeout", "Challenge", "startColumn", "endColumn",
"PIN" (tcg/session.go:100,152; tcg/device_enterprise.go:81-87,107). -/
def txtSessionTimeout : Bytes :=
  [0x53, 0x65, 0x73, 0x73, 0x69, 0x6f, 0x6e, 0x54, 0x69, 0x6d, 0x65, 0x6f, 0x75, 0x74]
def txtChallenge : Bytes := [0x43, 0x68, 0x61, 0x6c, 0x6c, 0x65, 0x6e, 0x67, 0x65]
def txtStartColumn : Bytes := [0x73, 0x74, 0x61, 0x72, 0x74, 0x43, 0x6f, 0x6c, 0x75, 0x6d, 0x6e]
def txtEndColumn : Bytes := [0x65, 0x6e, 0x64, 0x43, 0x6f, 0x6c, 0x75, 0x6d, 0x6e]
def txtPIN : Bytes := [0x50, 0x49, 0x4e]

/-- tcg/types.go:302-304,317-318 `signAuthority`: an `OpalUID` or a `Buf`. -/
inductive AuthArg where
  | uid (u : UID) | buf (d : Bytes)
deriving DecidableEq

namespace AuthArg
/-- tcg/session.go:61-68 -/
def bytes : AuthArg → Bytes
  | .uid u => 0xa8 :: u.bytes
  | .buf d => d
end AuthArg

namespace Session

/-- tcg/session.go:200-237: the checks `SendCommand` makes on a committed response. -/
def checkResponse (resp : Resp) : P (Option GoErr) :=
  let len (i : Nat) : Nat := Spec.leVal (slice resp.buf i 4)
  if len 16 = 0 ∨ len 40 = 0 ∨ len 52 = 0 then .ret (some .illegalResponse)
  else do
    match ← resp.getToken 0 with
    | none => .ret (some .illegalResponse)
    | some t0 =>
      if (← Tok.type t0) = 0xfa then .ret none
      else
        let tokenA ← resp.getToken (resp.getTokenCount - 1)
        let tokenB ← resp.getToken (resp.getTokenCount - 5)
        match tokenA, tokenB with
        | some a, some b =>
          let ta ← Tok.type a
          -- `||` stops at the first true operand
          if ta ≠ 0xf1 then .ret (some .illegalResponse)
          else if (← Tok.type b) ≠ 0xf0 then .ret (some .illegalResponse)
          else
            match ← resp.getToken (resp.getTokenCount - 4) with
            | none => .panic
            | some s => match Tok.getUint8 s with
              | .panic => .panic
              | .err e => .ret (some e)
              | .ok st => if st ≠ 0 then .ret (some (.tcg st.toNat)) else .ret none
        | _, _ => .ret (some .illegalResponse)

/-- tcg/session.go:191-193: stamping. -/
def stamp (s : Session) (d : Device) (cmd : ABuf) : ABuf :=
  Cmd.setComId (Cmd.setTSN (Cmd.setHSN cmd (s.hsn.setWidth 32)) (s.tsn.setWidth 32)) d.baseComId

/-- tcg/session.go:190-238 `SendCommand`. -/
def sendCommand (ctx : Ctx) (d : Device) (s : Session) (cmd : ABuf) :
    TcgM (Option Resp × Option GoErr) := do
  let (resp, err) ← d.exec ctx.fuel (s.stamp d cmd) 0x01
  match err, resp with
  | some e, _ => OutT.ret (none, some e)
  | none, none => OutT.panic
  | none, some r =>
    let e ← OutT.lift (checkResponse r)
    OutT.ret (some r, e)

/-- `binary.BigEndian.Uint32` of the native bytes of a `uint32` (tcg/session.go:125,131). -/
def bswap32 (v : BitVec 32) : BitVec 32 := BitVec.ofNat 32 (beVal (leBytes 4 v.toNat))

/-- tcg/session.go:86-90,157-162: the credential handed to `AddStringToken`. -/
def credential (ctx : Ctx) (d : Device) (s : Session) (challenge : Bytes) : Bytes :=
  if !s.noHash then tcgHashPassword ctx.kdf d.serial false challenge else challenge

/-- tcg/session.go:147-165: the argument list of `Authenticate`. -/
def authOps (ctx : Ctx) (d : Device) (s : Session) (authority challenge : Bytes) : List AddOp :=
  [tSTARTLIST, .raw authority] ++
  (if challenge ≠ [] then
    let cred := credential ctx d s challenge
    [tSTARTNAME,
     if d.isEnterprise then .str txtChallenge (some txtChallenge.length) else tUINT 0,
     .str cred (some cred.length), tENDNAME]
   else []) ++ [tENDLIST]

/-- tcg/session.go:172-187: the verdict of `Authenticate` on a reply. -/
def authTail (r : Resp) : P (Option GoErr) := do
  match ← r.getToken 1 with
  | none => .ret (some .illegalResponse)
  | some t => match Tok.getUint8 t with
    | .panic => .panic
    | .err e => .ret (some e)
    | .ok v =>
      if v ≠ 0 then .ret (some (.msg s!"authentication failed: {v.toNat}")) else .ret none

/-- tcg/session.go:140-188 `Authenticate`. -/
def authenticate (ctx : Ctx) (d : Device) (s : Session) (authority challenge : Bytes) :
    TcgM (Option GoErr) := do
  let cmd ← OutT.lift (Cmd.make ctx.base (.uid THISSP_UID)
    (.method (if d.isEnterprise then M_EAUTHENTICATE else M_AUTHENTICATE))
    (authOps ctx d s authority challenge))
  let (resp, err) ← sendCommand ctx d s cmd
  match err, resp with
  | some e, _ => OutT.ret (some e)
  | none, none => OutT.panic
  | none, some r => OutT.lift (authTail r)

/-- tcg/session.go:77-106: the argument list of `Start`. -/
def startOps (ctx : Ctx) (d : Device) (s : Session) (sp : UID) (challenge : Bytes) (auth : AuthArg) :
    List AddOp :=
  [tSTARTLIST, .num 105, .tok (.uid sp), tUINT 1] ++
  (if challenge ≠ [] ∧ !d.isEnterprise then
    [tSTARTNAME, tUINT 0, .str (credential ctx d s challenge) none, tENDNAME,
     tSTARTNAME, tUINT 3, .raw auth.bytes, tENDNAME]
   else []) ++
  (if d.isEnterprise then
    [tSTARTNAME, .str txtSessionTimeout none, .num (s.timeout.setWidth 64), tENDNAME]
   else []) ++ [tENDLIST]

/-- tcg/session.go:115-137: reading the session numbers from the reply and, on Enterprise devices,
running the authentication `authn` with the updated session. -/
def startNumbers (authn : Session → TcgM (Option GoErr)) (d : Device) (s : Session) (challenge : Bytes)
    (r : Resp) : TcgM (Session × Option GoErr) := do
  let h ← OutT.lift (r.getToken 4)
  let t ← OutT.lift (r.getToken 5)
  match h, t with
  | some h, some t =>
    match Tok.getUint32 h with
    | .panic => OutT.panic
    | .err e => OutT.ret (s, some e)
    | .ok hv =>
      let s1 := { s with hsn := (bswap32 hv).setWidth 64 }
      match Tok.getUint32 t with
      | .panic => OutT.panic
      | .err e => OutT.ret (s1, some e)
      | .ok tv =>
        let s2 := { s1 with tsn := (bswap32 tv).setWidth 64 }
        if challenge ≠ [] ∧ d.isEnterprise then do
          let e ← authn s2
          OutT.ret (s2, e)
        else OutT.ret (s2, none)
  | _, _ => OutT.ret (s, some .illegalResponse)

/-- tcg/session.go:115-137 -/
def startTail (ctx : Ctx) (d : Device) (s : Session) (challenge : Bytes) (auth : AuthArg) (r : Resp) :
    TcgM (Session × Option GoErr) :=
  startNumbers (fun s' => authenticate ctx d s' auth.bytes challenge) d s challenge r

/-- tcg/session.go:60-138 `Start`; returns the session's new state. -/
def start (ctx : Ctx) (d : Device) (s : Session) (sp : UID) (challenge : Bytes) (auth : AuthArg) :
    TcgM (Session × Option GoErr) := do
  let cmd ← OutT.lift (Cmd.make ctx.base (.uid SMUID_UID) (.method M_STARTSESSION)
    (startOps ctx d s sp challenge auth))
  let (resp, err) ← sendCommand ctx d s cmd
  match err, resp with
  | some e, _ => OutT.ret (s, some e)
  | none, none => OutT.panic
  | none, some r => startTail ctx d s challenge auth r

/-- tcg/session.go:31-41 `Close`. The guarded branch would send through a command without a buffer
(`&TcgCommand{}`), whose first `AddToken` dereferences nil. -/
def close (s : Session) : TcgM Session :=
  if s.autoClose && s.opened then OutT.panic else OutT.ret s

end Session

namespace Device

/-- tcg/device_opal.go:105-130 `revertTPer`. -/
def revertOpal (ctx : Ctx) (d : Device) (password : Bytes) (isPsid : Bool) : TcgM (Option GoErr) := do
  let s0 : Session := if isPsid then { newTcgSession with noHash := true } else newTcgSession
  let uid := if isPsid then PSID_UID else SID_UID
  let (s, e) ← s0.start ctx d ADMINSP_UID password (.uid uid)
  match e with
  | some e => OutT.ret (some e)
  | none =>
    let cmd ← OutT.lift (Cmd.make ctx.base (.uid ADMINSP_UID) (.method M_REVERT) [tSTARTLIST, tENDLIST])
    let (_, e) ← s.sendCommand ctx d cmd
    OutT.ret e

/-- tcg/device_enterprise.go:40-71 `RevertTPer`. -/
def revertEnterprise (ctx : Ctx) (d : Device) (password : Bytes) (isPsid isAdminSp : Bool) :
    TcgM (Option GoErr) := do
  let s0 : Session := if isPsid then { newTcgSession with noHash := true } else newTcgSession
  let uid := if isPsid then PSID_UID else SID_UID
  let (s, e) ← s0.start ctx d ADMINSP_UID password (.uid uid)
  match e with
  | some e => OutT.ret (some e)
  | none =>
    let cmd ← OutT.lift (Cmd.make ctx.base
      (.uid (if isAdminSp then ADMINSP_UID else THISSP_UID))
      (.method (if isAdminSp then M_REVERT else M_REVERTSP)) [tSTARTLIST, tENDLIST])
    let (_, e) ← { s with autoClose := false }.sendCommand ctx d cmd
    OutT.ret e

/-- `RevertTPer` of the device kinds: tcg/device.go:225-227, tcg/device_opal.go:45-47,93-95,
tcg/device_enterprise.go:40-71. -/
def revertTPer (ctx : Ctx) (d : Device) (password : Bytes) (isPsid isAdminSp : Bool) :
    TcgM (Option GoErr) :=
  match d.kind with
  | .generic => OutT.ret (some (.msg "not supported"))
  | .opal1 => revertOpal ctx d password isPsid
  | .opal2 => revertOpal ctx d password isPsid
  | .enterprise => revertEnterprise ctx d password isPsid isAdminSp

/-- tcg/device_opal.go:135-151: arguments of `Get` with a column range. -/
def getTableOps (startCol endCol : BitVec 16) : List AddOp :=
  [tSTARTLIST, tSTARTLIST, tSTARTNAME, .tok (.int 3), .num (startCol.setWidth 64), tENDNAME,
   tSTARTNAME, .tok (.int 4), .num (endCol.setWidth 64), tENDNAME, tENDLIST, tENDLIST]

/-- tcg/device_opal.go:132-155 `opalGetTable`. -/
def opalGetTable (ctx : Ctx) (d : Device) (s : Session) (table : Bytes) (startCol endCol : BitVec 16) :
    TcgM (Option Resp × Option GoErr) := do
  let cmd ← OutT.lift (Cmd.make ctx.base (.buf table) (.method M_GET) (getTableOps startCol endCol))
  s.sendCommand ctx d cmd

/-- `OpalGetTable` of the device kinds: tcg/device.go:221-223 (generic, and inherited by Enterprise,
tcg/device_enterprise.go:8-10), tcg/device_opal.go:49-51,97-99. `recv` is the device the method is called on, `d` the
device the session was made for: the command goes through the session (tcg/device_opal.go:154). -/
def getTable (ctx : Ctx) (recv d : Device) (s : Session) (table : Bytes) (startCol endCol : BitVec 16) :
    TcgM (Option Resp × Option GoErr) :=
  match recv.kind with
  | .generic => OutT.ret (none, some (.msg "not supported"))
  | .enterprise => OutT.ret (none, some (.msg "not supported"))
  | .opal1 => d.opalGetTable ctx s table startCol endCol
  | .opal2 => d.opalGetTable ctx s table startCol endCol

/-- tcg/device_enterprise.go:76-92: arguments of `EnterpriseGetTable`. -/
def entGetTableOps (startCol endCol : Bytes) : List AddOp :=
  [tSTARTLIST, tSTARTLIST, tSTARTNAME, .str txtStartColumn none, .str startCol none, tENDNAME,
   tSTARTNAME, .str txtEndColumn none, .str endCol none, tENDNAME, tENDLIST, tENDLIST]

/-- tcg/device_enterprise.go:73-96 `EnterpriseGetTable`. -/
def entGetTable (ctx : Ctx) (d : Device) (s : Session) (table startCol endCol : Bytes) :
    TcgM (Option Resp × Option GoErr) := do
  let cmd ← OutT.lift (Cmd.make ctx.base (.buf table) (.method M_GET) (entGetTableOps startCol endCol))
  s.sendCommand ctx d cmd

/-- tcg/device_opal.go:164-165 the table argument: `BYTESTRING8` and the UID of C_PIN_MSID. -/
def msidTable : Bytes := 0xa8 :: C_PIN_MSID.bytes

/-- tcg/device_opal.go:157-178 and tcg/device_enterprise.go:98-118: the same steps with the device's own
table getter; `GetDefaultPassword` of the generic device is "not supported" (tcg/device.go:217-219). -/
def getDefaultPassword (ctx : Ctx) (d : Device) : TcgM (Bytes × Option GoErr) :=
  match d.kind with
  | .generic => OutT.ret ([], some (.msg "not supported"))
  | k => do
    let (s, e) ← newTcgSession.start ctx d ADMINSP_UID [] (.uid UID_HEXFF)
    match e with
    | some e => OutT.ret ([], some e)
    | none =>
      let (resp, err) ← (if k == .enterprise then d.entGetTable ctx s msidTable txtPIN txtPIN
        else d.opalGetTable ctx s msidTable 3 3)
      match err, resp with
      | some e, _ => OutT.ret ([], some e)
      | none, none => OutT.panic
      | none, some r =>
        match ← OutT.lift (r.getToken 4) with
        | none => OutT.ret ([], some .illegalResponse)
        | some t => match Tok.getString t with
          | .panic => OutT.panic
          | .err e => OutT.ret ([], some e)
          | .ok v => OutT.ret (v, none)

end Device
end Dparm
