import Verif.Model.DriveHandle
import Verif.Model.SessionHistory
/-!
# `TcgDiscovery0` and the calls on a session under `recover`

`Handle.tcgDiscovery0` (Model/DriveHandle.lean) and `Session.start` (Model/Session.lean) do not say what the object holds after a panic. Here
they do: the same code, for a caller who recovers from the panic and goes on using the object.
-/
namespace Dparm

/-- common/drive_handle.go:206-237: the loop; the information stored when it ends, and whether it ended by a panic. A flag is set (216-233)
before the map is written (235). -/
def discoveryWalkKept (buf : Bytes) (behind : Nat → Byte) (length : Nat) (off : Nat) (union : Bytes) (info : Level0) : Level0 × Bool :=
  if off < length then
    let u := unionCopy union buf off
    let fc : BitVec 16 := BitVec.ofNat 16 (Spec.beVal (slice u 0 2))
    let n : Nat := (u.getD 3 0).toNat
    if off + n + 4 > buf.length then (info, true)
    else
      match (info.mark fc).store fc (rawItem buf behind off (n + 4)) with
      | .panic => (info.mark fc, true)
      | .ret info' => discoveryWalkKept buf behind length (off + n + 4) u info'
  else (info, false)
termination_by length - off

/-- common/drive_handle.go:187-239: the information afterwards, and the result, `none` after a panic. -/
def discoveryKept (info : Level0) (buf : Bytes) (behind : Nat → Byte) : Level0 × Option (Option GoErr) :=
  let length := Spec.beVal (slice buf 0 4)
  if buf.length < length then (info, some (some (.msg "invalid data: length overflow")))
  else
    let (info', panicked) := discoveryWalkKept buf behind length Layout.header.sum (zeros 16) info
    (info', if panicked then none else some none)

/-- common/drive_handle.go:175-240 `TcgDiscovery0` under `recover`: the handle afterwards and the result, `none` after a panic. The security
command itself does not panic on the buffer used (line 176). -/
def Handle.tcgDiscovery0Kept (h : Handle) : DrvM (Handle × Option (Option GoErr)) := do
  let r ← h.securityCommand false false 0x01 0x0001 (zeros Handle.discoverySize) 3
  match r.err with
  | some e => OutT.ret ({ h with info := Handle.afterFailure h.info e }, some (some e))
  | none =>
    let (l, e) := discoveryKept h.info.level0 r.data r.behind
    OutT.ret ({ h with info := Handle.afterParse h.info l }, e)

/-- A call under Go's `recover`: `none` after a panic (external: Go's `defer` and `recover`). -/
def OutT.recover {Q R α : Type} (p : OutT Q R α) : OutT Q R (Option α) :=
  Prog.bind p (fun o => match o with
    | .ret a => Prog.done (.ret (some a))
    | .panic => Prog.done (.ret none)
    | .running => Prog.done .running)

/-- tcg/session.go:115-137 under `recover`: `hostSessionNum` is written (126) before the other number is read (128). -/
def Session.startTailKept (ctx : Ctx) (d : Device) (s : Session) (challenge : Bytes) (auth : AuthArg) (r : Resp) :
    TcgM (Session × Option (Option GoErr)) :=
  match r.getToken 4, r.getToken 5 with
  | .ret (some h), .ret (some t) =>
    match Tok.getUint32 h with
    | .panic => OutT.ret (s, none)
    | .err e => OutT.ret (s, some (some e))
    | .ok hv =>
      let s1 := { s with hsn := (bswap32 hv).setWidth 64 }
      match Tok.getUint32 t with
      | .panic => OutT.ret (s1, none)
      | .err e => OutT.ret (s1, some (some e))
      | .ok tv =>
        let s2 := { s1 with tsn := (bswap32 tv).setWidth 64 }
        if challenge ≠ [] ∧ d.isEnterprise then do
          let e ← OutT.recover (s2.authenticate ctx d auth.bytes challenge)
          OutT.ret (s2, e)
        else OutT.ret (s2, some none)
  | .ret _, .ret _ => OutT.ret (s, some (some .illegalResponse))
  | _, _ => OutT.ret (s, none)

/-- tcg/session.go:60-138 `Start` under `recover`: the object afterwards and the result, `none` after a panic. -/
def Session.startKept (ctx : Ctx) (d : Device) (s : Session) (sp : UID) (challenge : Bytes) (auth : AuthArg) :
    TcgM (Session × Option (Option GoErr)) :=
  match Cmd.make ctx.base (.uid SMUID_UID) (.method M_STARTSESSION) (s.startOps ctx d sp challenge auth) with
  | .panic => OutT.ret (s, none)
  | .ret cmd => do
    let x ← OutT.recover (s.sendCommand ctx d cmd)
    match x with
    | none => OutT.ret (s, none)
    | some (_, some e) => OutT.ret (s, some (some e))
    | some (none, none) => OutT.ret (s, none)
    | some (some r, none) => s.startTailKept ctx d challenge auth r

/-- One call on a session object under `recover` (tcg/session.go:31-58,60,140,190): the object afterwards and what was returned, `none` after a
panic. `Authenticate` and `SendCommand` do not write to the object; neither does `Close` before its panic, unless the unexported mark
`sessionOpened` is up, which it takes down first (line 33). -/
def SessOp.callKept (ctx : Ctx) (d : Device) (s : Session) : SessOp → TcgM (Session × Option (List SessRet))
  | .start sp ch au => do let (s', e) ← s.startKept ctx d sp ch au; OutT.ret (s', e.map (fun e => [.err e]))
  | .authenticate a c => do let e ← OutT.recover (s.authenticate ctx d a c); OutT.ret (s, e.map (fun e => [.err e]))
  | .sendCommand c => do let x ← OutT.recover (s.sendCommand ctx d c); OutT.ret (s, x.map (fun x => [.reply x.1 x.2]))
  | .close => if s.autoClose && s.opened then OutT.ret ({ s with opened := false }, none) else OutT.ret (s, some [])
  | .isNoHashPassword => OutT.ret (s, some [.flag s.noHash])
  | .setNoHashPassword b => OutT.ret ({ s with noHash := b }, some [])
  | .noAutoClose => OutT.ret ({ s with autoClose := false }, some [])
  | .setTimeout ms => OutT.ret ({ s with timeout := ms }, some [])

/-- Calls on one session object, one after the other (tcg/session.go:31-238), each under `recover`: the caller goes on after errors and after
panics. The object afterwards and, for each call, what was returned (`none` after a panic). -/
def sessionHistoryKept (ctx : Ctx) (d : Device) (s : Session) : List SessOp → TcgM (Session × List (Option (List SessRet)))
  | [] => OutT.ret (s, [])
  | o :: os => do
    let (s', r) ← o.callKept ctx d s
    let (s'', rs) ← sessionHistoryKept ctx d s' os
    OutT.ret (s'', r :: rs)

end Dparm
