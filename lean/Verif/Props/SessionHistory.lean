import Verif.Props.SessionOps
import Verif.Lemmas.WireLength
import Verif.Lemmas.SharedDrive
/-!
# One session object, any history of calls (C153)
-/
namespace Dparm
open Spec

/-! ## Settings -/

/-- The calls that look as if they configured the session: `Close`, `NoAutoClose`, `SetTimeout`. -/
def SessOp.isSetting : SessOp → Bool
  | .close => true
  | .noAutoClose => true
  | .setTimeout _ => true
  | _ => false

/-- An outcome without the two fields of the session object that these calls write. -/
def withoutSettings : Out (Session × List SessRet) → Out ((Bool × BitVec 64 × BitVec 64 × Bool) × List SessRet)
  | .ret (s, rs) => .ret ((s.opened, s.hsn, s.tsn, s.noHash), rs)
  | .panic => .panic
  | .running => .running

/-- A session object with other settings. -/
def Session.with (s : Session) (a : Bool) (ms : BitVec 32) : Session := { s with autoClose := a, timeout := ms }

def outWith (a : Bool) (ms : BitVec 32) {β : Type} : Out (Session × β) → Out (Session × β)
  | .ret (s, x) => .ret (s.with a ms, x)
  | .panic => .panic
  | .running => .running

theorem startNumbers_with (authn : Session → TcgM (Option GoErr)) (d : Device) (hd : d.isEnterprise = false) (s : Session) (challenge : Bytes)
    (r : Resp) (a : Bool) (ms : BitVec 32) (env : Prog.Env SecReq SecRep) (h : Prog.Trace SecReq SecRep) :
    OutT.run env h ((s.with a ms).startNumbers authn d challenge r)
      = (outWith a ms (OutT.run env h (s.startNumbers authn d challenge r)).1, (OutT.run env h (s.startNumbers authn d challenge r)).2) := by
  unfold Session.startNumbers
  rw [OutT.run_bind, OutT.run_bind]
  cases r.getToken 4 with
  | panic => rfl
  | ret x =>
    rw [OutT.run_lift_ret]
    simp only [List.append_nil, List.nil_append]
    rw [OutT.run_bind, OutT.run_bind]
    cases r.getToken 5 with
    | panic => rfl
    | ret y =>
      rw [OutT.run_lift_ret]
      simp only [List.append_nil, List.nil_append]
      cases x with
      | none => rfl
      | some x =>
        cases y with
        | none => rfl
        | some y =>
          dsimp only
          cases Tok.getUint32 x with
          | panic => rfl
          | err e => rfl
          | ok hv =>
            dsimp only
            cases Tok.getUint32 y with
            | panic => rfl
            | err e => rfl
            | ok tv =>
              dsimp only
              rw [if_neg (by rw [hd]; simp), if_neg (by rw [hd]; simp)]
              rfl

theorem start_with (ctx : Ctx) (d : Device) (s : Session) (sp : UID) (challenge : Bytes) (auth : AuthArg) (a : Bool) (ms : BitVec 32)
    (env : Prog.Env SecReq SecRep) (h : Prog.Trace SecReq SecRep) :
    OutT.run env h ((s.with a ms).start ctx d sp challenge auth)
      = (outWith a ms (OutT.run env h (s.start ctx d sp challenge auth)).1, (OutT.run env h (s.start ctx d sp challenge auth)).2) := by
  by_cases hd : d.isAnySSC = true
  · have he : d.isEnterprise = false := by
      unfold Device.isAnySSC at hd
      unfold Device.isEnterprise
      cases hk : d.kind <;> simp [hk] at hd ⊢
    have hops : (s.with a ms).startOps ctx d sp challenge auth = s.startOps ctx d sp challenge auth := by
      unfold Session.startOps
      simp only [he, Bool.false_eq_true, if_false]
      rfl
    unfold Session.start
    rw [hops, OutT.run_bind, OutT.run_bind]
    obtain ⟨c, hc, _⟩ := make_total ctx.base (.uid SMUID_UID) (.method M_STARTSESSION) (s.startOps ctx d sp challenge auth)
    rw [hc, OutT.run_lift_ret]
    simp only [List.append_nil, List.nil_append]
    have hsend : (s.with a ms).sendCommand ctx d c = s.sendCommand ctx d c := rfl
    rw [hsend, OutT.run_bind, OutT.run_bind]
    rcases OutT.run env h (s.sendCommand ctx d c) with ⟨o, t⟩
    cases o with
    | panic => rfl
    | running => rfl
    | ret x =>
      obtain ⟨resp, err⟩ := x
      cases err with
      | some e => rfl
      | none =>
        cases resp with
        | none => rfl
        | some r =>
          have hn : ∀ (authn authn' : Session → TcgM (Option GoErr)) (s : Session), s.startNumbers authn d challenge r = s.startNumbers authn' d challenge r := by
            intro authn authn' s
            unfold Session.startNumbers
            simp only [he, Bool.false_eq_true, and_false, if_false]
          simp only [Session.startTail]
          rw [startNumbers_with _ d he]
  · have hd : d.isAnySSC = false := by simpa using hd
    rw [run_start_unsupported ctx d _ sp challenge auth env h hd, run_start_unsupported ctx d _ sp challenge auth env h hd]
    rfl

theorem call_with (ctx : Ctx) (d : Device) (s : Session) (op : SessOp) (hop : op.isSetting = false) (a : Bool) (ms : BitVec 32)
    (env : Prog.Env SecReq SecRep) (h : Prog.Trace SecReq SecRep) :
    OutT.run env h (op.call ctx d (s.with a ms))
      = (outWith a ms (OutT.run env h (op.call ctx d s)).1, (OutT.run env h (op.call ctx d s)).2) := by
  cases op with
  | start sp ch au =>
    unfold SessOp.call
    rw [OutT.run_bind, OutT.run_bind, start_with]
    rcases OutT.run env h (s.start ctx d sp ch au) with ⟨o, t⟩
    cases o <;> rfl
  | authenticate au ch =>
    have : (s.with a ms).authenticate ctx d au ch = s.authenticate ctx d au ch := rfl
    simp only [SessOp.call]
    rw [this, OutT.run_bind, OutT.run_bind]
    rcases OutT.run env h (s.authenticate ctx d au ch) with ⟨o, t⟩
    cases o <;> rfl
  | sendCommand c =>
    have : (s.with a ms).sendCommand ctx d c = s.sendCommand ctx d c := rfl
    simp only [SessOp.call]
    rw [this, OutT.run_bind, OutT.run_bind]
    rcases OutT.run env h (s.sendCommand ctx d c) with ⟨o, t⟩
    cases o <;> rfl
  | isNoHashPassword => rfl
  | setNoHashPassword b => rfl
  | close => cases hop
  | noAutoClose => cases hop
  | setTimeout ms => cases hop

/-- C153: `SetTimeout`, `NoAutoClose` and `Close` have no effect. For every device, every behaviour of the drive and every history of
calls on a new session object, leaving these calls out changes neither the conversation with the drive nor what any other call returns, nor
the rest of the object, nor whether the history ends in a panic. -/
theorem settings_unobservable (ctx : Ctx) (d : Device) (ops : List SessOp) (env : Prog.Env SecReq SecRep) (h : Prog.Trace SecReq SecRep) :
    (OutT.run env h (sessionHistory ctx d newTcgSession ops)).2
      = (OutT.run env h (sessionHistory ctx d newTcgSession (ops.filter (fun o => !o.isSetting)))).2 ∧
    withoutSettings (OutT.run env h (sessionHistory ctx d newTcgSession ops)).1
      = withoutSettings (OutT.run env h (sessionHistory ctx d newTcgSession (ops.filter (fun o => !o.isSetting)))).1 := by
  have gen : ∀ (ops : List SessOp) (s : Session), s.opened = false → ∀ a ms h,
      (OutT.run env h (sessionHistory ctx d (s.with a ms) ops)).2
        = (OutT.run env h (sessionHistory ctx d s (ops.filter (fun o => !o.isSetting)))).2 ∧
      withoutSettings (OutT.run env h (sessionHistory ctx d (s.with a ms) ops)).1
        = withoutSettings (OutT.run env h (sessionHistory ctx d s (ops.filter (fun o => !o.isSetting)))).1 := by
    intro ops
    induction ops with
    | nil => intro s _ a ms h; exact ⟨rfl, rfl⟩
    | cons op ops ih =>
      intro s hs a ms h
      by_cases hop : op.isSetting = true
      · have hf : (op :: ops).filter (fun o => !o.isSetting) = ops.filter (fun o => !o.isSetting) := by
          rw [List.filter_cons, if_neg (by simp [hop])]
        obtain ⟨a', ms', hc⟩ : ∃ a' ms', op.call ctx d (s.with a ms) = OutT.ret (s.with a' ms', []) := by
          cases op with
          | close =>
            refine ⟨a, ms, ?_⟩
            unfold SessOp.call Session.close
            rw [show (s.with a ms).opened = false from hs, Bool.and_false, if_neg (by decide)]
            rfl
          | noAutoClose => exact ⟨false, ms, rfl⟩
          | setTimeout x => exact ⟨a, x, rfl⟩
          | start => cases hop
          | authenticate => cases hop
          | sendCommand => cases hop
          | isNoHashPassword => cases hop
          | setNoHashPassword => cases hop
        rw [hf, sessionHistory, hc, OutT.run_bind]
        simp only [OutT.run_ret, List.append_nil, List.nil_append]
        rw [OutT.run_bind]
        have := ih s hs a' ms' h
        rcases hr : OutT.run env h (sessionHistory ctx d (s.with a' ms') ops) with ⟨o, t⟩
        rw [hr] at this
        rw [← this.1, ← this.2]
        cases o <;> simp
      · have hop : op.isSetting = false := by simpa using hop
        have hf : (op :: ops).filter (fun o => !o.isSetting) = op :: ops.filter (fun o => !o.isSetting) := by
          rw [List.filter_cons, if_pos (by simp [hop])]
        rw [hf, sessionHistory, sessionHistory, OutT.run_bind, OutT.run_bind, call_with ctx d s op hop]
        have hopened := call_opened ctx d s hs op env h
        rcases hr : OutT.run env h (op.call ctx d s) with ⟨o, t⟩
        rw [hr] at hopened
        cases o with
        | panic => exact ⟨rfl, rfl⟩
        | running => exact ⟨rfl, rfl⟩
        | ret x =>
          obtain ⟨s', r⟩ := x
          simp only [outWith]
          rw [OutT.run_bind, OutT.run_bind]
          obtain ⟨i1, i2⟩ := ih s' (hopened _ rfl) a ms (h ++ t)
          rcases hr1 : OutT.run env (h ++ t) (sessionHistory ctx d (s'.with a ms) ops) with ⟨o1, t1⟩
          rcases hr2 : OutT.run env (h ++ t) (sessionHistory ctx d s' (ops.filter (fun o => !o.isSetting))) with ⟨o2, t2⟩
          rw [hr1, hr2] at i1 i2
          simp only at i1 i2
          subst i1
          cases o1 <;> cases o2 <;> simp_all [withoutSettings]
  exact gen ops newTcgSession rfl true 60000 h

/-- A history with all of them around a successful start. -/
example : (match (OutT.run (replyEnv [0xf8, 0xa1, 0, 0xa1, 0, 0xf0, 0x81, 105, 0x82, 0x10, 7, 0xf1, 0xf9, 0xf0, 0, 0, 0, 0xf1]) []
    (sessionHistory sampleCtx opalDevice newTcgSession
      [.setTimeout 5, .start ADMINSP_UID [] (.uid SID_UID), .noAutoClose, .close, .setNoHashPassword true, .isNoHashPassword])).1 with
    | .ret (s, [.err none, .flag true]) => s.timeout == 5 && !s.autoClose | _ => false) = true := by
  decide +kernel

/-! ## Hashing -/

/-- The argument of the last `SetNoHashPassword` of a history, `false` if there was none. -/
def lastNoHash (ops : List SessOp) : Bool :=
  (ops.filterMap (fun o => match o with | .setNoHashPassword b => some b | _ => none)).getLast?.getD false

theorem keeps_noHash (s : Session) (h t : BitVec 64) (e : Option GoErr) :
    ((⟨s.opened, h, t, s.noHash, s.autoClose, s.timeout⟩ : Session), e).1.noHash = s.noHash := rfl

theorem startNumbers_noHash (authn : Session → TcgM (Option GoErr)) (d : Device) (s : Session) (challenge : Bytes) (r : Resp) :
    OutT.Post (fun x : Session × Option GoErr => x.1.noHash = s.noHash) (s.startNumbers authn d challenge r) := by
  unfold Session.startNumbers
  refine post_bind _ _ (post_true _) fun a _ => post_bind _ _ (post_true _) fun b _ => ?_
  split
  · split
    · exact post_panic
    · exact post_ret _ rfl
    · split
      · exact post_panic
      · exact post_ret _ (keeps_noHash ..)
      · split
        · exact post_bind _ _ (post_true _) fun e _ => post_ret _ (keeps_noHash ..)
        · exact post_ret _ (keeps_noHash ..)
  · exact post_ret _ rfl

theorem startTail_noHash (ctx : Ctx) (d : Device) (s : Session) (challenge : Bytes) (auth : AuthArg) (r : Resp) :
    OutT.Post (fun x : Session × Option GoErr => x.1.noHash = s.noHash) (s.startTail ctx d challenge auth r) :=
  startNumbers_noHash _ d s challenge r

theorem start_noHash (ctx : Ctx) (d : Device) (s : Session) (sp : UID) (challenge : Bytes) (auth : AuthArg) :
    OutT.Post (fun x : Session × Option GoErr => x.1.noHash = s.noHash) (s.start ctx d sp challenge auth) := by
  unfold Session.start
  refine post_bind _ _ (post_true _) fun cmd _ => post_bind _ _ (post_true _) ?_
  rintro ⟨resp, err⟩ _
  cases err with
  | some e => exact post_ret _ rfl
  | none =>
    cases resp with
    | none => exact post_panic
    | some r => exact startTail_noHash ctx d s challenge auth r

theorem close_post (s : Session) : OutT.Post (fun s' => s' = s) s.close := by
  unfold Session.close
  split
  · exact post_panic
  · exact post_ret _ rfl

theorem history_noHash (ctx : Ctx) (d : Device) (ops : List SessOp) : ∀ s : Session,
    OutT.Post (fun x : Session × List SessRet => x.1.noHash =
      (ops.filterMap (fun o => match o with | .setNoHashPassword b => some b | _ => none)).getLast?.getD s.noHash)
      (sessionHistory ctx d s ops) := by
  induction ops with
  | nil => intro s; exact post_ret _ rfl
  | cons op ops ih =>
    intro s
    unfold sessionHistory
    refine post_bind (ψ := fun x => x.1.noHash = match op with | .setNoHashPassword b => b | _ => s.noHash) _ _ ?_ ?_
    · cases op with
      | start sp ch au => exact post_bind _ _ (start_noHash ctx d s sp ch au) fun x hx => post_ret _ hx
      | authenticate a c => exact post_bind _ _ (post_true _) fun _ _ => post_ret _ rfl
      | sendCommand c => exact post_bind _ _ (post_true _) fun _ _ => post_ret _ rfl
      | close => exact post_bind _ _ (close_post s) fun x hx => post_ret _ (by rw [hx])
      | isNoHashPassword => exact post_ret _ rfl
      | setNoHashPassword b => exact post_ret _ rfl
      | noAutoClose => exact post_ret _ rfl
      | setTimeout ms => exact post_ret _ rfl
    · rintro ⟨s', r⟩ hs'
      refine post_bind _ _ (ih s') ?_
      rintro ⟨s'', rs⟩ hs''
      refine post_ret _ ?_
      show s''.noHash = _
      rw [hs'']
      simp only at hs'
      cases op with
      | setNoHashPassword b =>
        simp only at hs'
        rw [hs']
        cases hl : (ops.filterMap (fun o => match o with | .setNoHashPassword b => some b | _ => none)) with
        | nil => simp [hl]
        | cons x xs => simp [hl, List.getLast?_cons]
      | _ => simp only at hs'; rw [hs']; rfl

/-- C153: the credential that leaves the host. After any history of calls on a new session object, a `Start` or an `Authenticate` sends one
packet, and the credential in it (`challengeValue`: the derived key, or the password itself) is chosen by the last `SetNoHashPassword` of
the history: the password goes out unhashed exactly if that call turned hashing off. `IsNoHashPassword` tells. -/
theorem history_credentials (ctx : Ctx) (d : Device) (hd : d.isAnySSC = true) (hf : 0 < ctx.fuel) (ops : List SessOp)
    (env : Prog.Env SecReq SecRep) (h t : Prog.Trace SecReq SecRep) (s : Session) (rs : List SessRet)
    (hrun : OutT.run env h (sessionHistory ctx d newTcgSession ops) = (.ret (s, rs), t)) :
    (∀ sp challenge (auth : AuthArg), auth.bytes.length ≤ 50000 → ∃ sent tsn hsn,
      sends (OutT.run env (h ++ t) (SessOp.call ctx d s (.start sp challenge auth))).2 =
        [(sendOf d.baseComId (wireImage d.baseComId.toNat tsn hsn (startSessionCall sp.bytes
          (if challenge = [] then none
           else some (stringArg (challengeValue ctx.kdf (lastNoHash ops) d.serial challenge), auth.bytes)))), sent)]) ∧
    (∀ authority challenge, authority.length ≤ 50000 → ∃ sent tsn hsn,
      sends (OutT.run env (h ++ t) (SessOp.call ctx d s (.authenticate authority challenge))).2 =
        [(sendOf d.baseComId (wireImage d.baseComId.toNat tsn hsn (authenticateCall authority
          (if challenge = [] then none else some (stringArg (challengeValue ctx.kdf (lastNoHash ops) d.serial challenge))))), sent)]) ∧
    OutT.run env (h ++ t) (SessOp.call ctx d s .isNoHashPassword) = (.ret (s, [.flag (lastNoHash ops)]), []) := by
  have hn : s.noHash = lastNoHash ops := history_noHash ctx d ops newTcgSession env h (s, rs) (by rw [hrun])
  have hcall : ∀ {α : Type} (p : TcgM α) (f : α → Session × List SessRet),
      (OutT.run env (h ++ t) (p >>= fun x => OutT.ret (f x))).2 = (OutT.run env (h ++ t) p).2 := by
    intro α p f
    rw [OutT.run_bind]
    rcases OutT.run env (h ++ t) p with ⟨o, t'⟩
    cases o <;> simp
  refine ⟨?_, ?_, ?_⟩
  · intro sp challenge auth ha
    obtain ⟨sent, hs⟩ := start_sends ctx d s sp challenge auth env (h ++ t) hd hf ha
    refine ⟨sent, leBytes 4 (s.tsn.toNat % 2 ^ 32), leBytes 4 (s.hsn.toNat % 2 ^ 32), ?_⟩
    show sends (OutT.run env (h ++ t) (s.start ctx d sp challenge auth >>= fun x => OutT.ret (x.1, [SessRet.err x.2]))).2 = _
    rw [hcall, hs, hn]
  · intro authority challenge ha
    obtain ⟨sent, hs⟩ := authenticate_sends ctx d s authority challenge env (h ++ t) hd hf ha
    refine ⟨sent, leBytes 4 (s.tsn.toNat % 2 ^ 32), leBytes 4 (s.hsn.toNat % 2 ^ 32), ?_⟩
    show sends (OutT.run env (h ++ t) (s.authenticate ctx d authority challenge >>= fun x => OutT.ret (s, [SessRet.err x]))).2 = _
    rw [hcall, hs, hn]
  · rw [← hn]; rfl

/-! ## Session numbers -/

/-- `Start` calls. -/
def SessOp.isStart : SessOp → Bool
  | .start .. => true
  | _ => false

/-- The command of a `SendCommand` call has been begun (made by `NewTcgCommand`, something written to it). -/
def SessOp.Begun : SessOp → Prop
  | .sendCommand c => Geo c ∧ 0 < c.wpos
  | _ => True

theorem history_keeps_numbers (ctx : Ctx) (d : Device) (ops : List SessOp) (hops : ∀ o ∈ ops, o.isStart = false) : ∀ s : Session,
    OutT.Post (fun x : Session × List SessRet => x.1.hsn = s.hsn ∧ x.1.tsn = s.tsn) (sessionHistory ctx d s ops) := by
  induction ops with
  | nil => intro s; exact post_ret _ ⟨rfl, rfl⟩
  | cons op ops ih =>
    intro s
    unfold sessionHistory
    refine post_bind (ψ := fun x => x.1.hsn = s.hsn ∧ x.1.tsn = s.tsn) _ _ ?_ ?_
    · cases op with
      | start sp ch au => have := hops _ (List.mem_cons_self ..); cases this
      | authenticate a c => exact post_bind _ _ (post_true _) fun _ _ => post_ret _ ⟨rfl, rfl⟩
      | sendCommand c => exact post_bind _ _ (post_true _) fun _ _ => post_ret _ ⟨rfl, rfl⟩
      | close => exact post_bind _ _ (close_post s) fun x hx => post_ret _ (by rw [hx]; exact ⟨rfl, rfl⟩)
      | isNoHashPassword => exact post_ret _ ⟨rfl, rfl⟩
      | setNoHashPassword b => exact post_ret _ ⟨rfl, rfl⟩
      | noAutoClose => exact post_ret _ ⟨rfl, rfl⟩
      | setTimeout ms => exact post_ret _ ⟨rfl, rfl⟩
    · rintro ⟨s', r⟩ ⟨h1, h2⟩
      refine post_bind _ _ (ih (fun o ho => hops o (List.mem_cons_of_mem _ ho)) s') ?_
      rintro ⟨s'', rs⟩ ⟨h3, h4⟩
      exact post_ret _ ⟨h3.trans h1, h4.trans h2⟩

/-- A send carries these four bytes as host and TPer session number. -/
def CarriesNumbers (host tper : Bytes) (q : SecReq) : Prop :=
  ∀ comId data, q = sendOf comId data → slice data 24 4 = host ∧ slice data 20 4 = tper

section
attribute [local irreducible] OutT.Asks Session.start

theorem call_numbers (ctx : Ctx) (d : Device) (s : Session) (op : SessOp) (hop : op.Begun) :
    OutT.Asks (CarriesNumbers (leBytes 4 (s.hsn.toNat % 2 ^ 32)) (leBytes 4 (s.tsn.toNat % 2 ^ 32))) (op.call ctx d s) := by
  have hnow : CarriesNumbers (leBytes 4 (s.hsn.toNat % 2 ^ 32)) (leBytes 4 (s.tsn.toNat % 2 ^ 32)) .now := by
    intro _ _ e; unfold sendOf at e; cases e
  have hcmd : ∀ c, Geo c → 0 < c.wpos →
      CmdAsks (CarriesNumbers (leBytes 4 (s.hsn.toNat % 2 ^ 32)) (leBytes 4 (s.tsn.toNat % 2 ^ 32))) d (Cmd.wire (s.stamp d c)) := by
    intro c g hw
    refine ⟨hnow, fun _ => ⟨?_, ?_, ?_⟩⟩
    · intro _ _ e; unfold sendOf at e; cases e
    · intro _ _ e; unfold sendOf Device.recvReq at e; cases e
    · intro _ data e
      unfold sendOf Device.sendReq at e
      simp only [SecReq.sec.injEq] at e
      obtain ⟨_, w2, w3, _⟩ := wire_stamp g hw s d
      rw [← e.2.2.2.2.1]
      exact ⟨w3, w2⟩
  cases op with
  | start sp ch au =>
    refine OutT.asks_bind (start_asks_of ctx d s sp ch au hnow fun c hm => ?_) fun x => OutT.asks_ret _
    obtain ⟨g, hw⟩ := make_begun _ _ _ _ hm
    exact hcmd c g hw
  | authenticate au ch =>
    refine OutT.asks_bind ?_ fun x => OutT.asks_ret _
    unfold Session.authenticate
    refine OutT.asks_lift_bind fun cmd hm => ?_
    obtain ⟨g, hw⟩ := make_begun _ _ _ _ hm
    refine OutT.asks_bind (sendCommand_asks_of ctx d s cmd (hcmd cmd g hw)) fun x => ?_
    obtain ⟨resp, err⟩ := x
    cases err with
    | some e => exact OutT.asks_ret _
    | none =>
      cases resp with
      | none => exact OutT.asks_panic
      | some r => exact OutT.asks_lift _
  | sendCommand c => exact OutT.asks_bind (sendCommand_asks_of ctx d s c (hcmd c hop.1 hop.2)) fun x => OutT.asks_ret _
  | close =>
    refine OutT.asks_bind ?_ fun x => OutT.asks_ret _
    unfold Session.close
    split
    · exact OutT.asks_panic
    · exact OutT.asks_ret _
  | isNoHashPassword => exact OutT.asks_ret _
  | setNoHashPassword b => exact OutT.asks_ret _
  | noAutoClose => exact OutT.asks_ret _
  | setTimeout ms => exact OutT.asks_ret _

end

/-- C153: the session numbers of a packet. (1) As long as `Start` has not been called on a session object, everything it sends carries the
session numbers 0 and 0. (2) After a `Start` that returned nil, with any history before it and any calls but `Start` after it, everything
the next call sends (also another `Start`) carries the two numbers of that `Start`'s reply, big-endian. -/
theorem history_numbers (ctx : Ctx) (d : Device) (hd : d.isAnySSC = true) (hf : 0 < ctx.fuel) (env : Prog.Env SecReq SecRep)
    (h : Prog.Trace SecReq SecRep) (op : SessOp) (hop : op.Begun) :
    (∀ ops s rs t, (∀ o ∈ ops, o.isStart = false) →
      OutT.run env h (sessionHistory ctx d newTcgSession ops) = (.ret (s, rs), t) →
      ∀ comId data rep, (sendOf comId data, rep) ∈ (OutT.run env (h ++ t) (op.call ctx d s)).2 →
        slice data 24 4 = [0, 0, 0, 0] ∧ slice data 20 4 = [0, 0, 0, 0]) ∧
    (∀ before s0 rs0 t0 sp challenge (auth : AuthArg) s1 t1 after s2 rs2 t2, auth.bytes.length ≤ 50000 →
      OutT.run env h (sessionHistory ctx d newTcgSession before) = (.ret (s0, rs0), t0) →
      OutT.run env (h ++ t0) (SessOp.call ctx d s0 (.start sp challenge auth)) = (.ret (s1, [.err none]), t1) →
      (∀ o ∈ after, o.isStart = false) →
      OutT.run env (h ++ t0 ++ t1) (sessionHistory ctx d s1 after) = (.ret (s2, rs2), t2) →
      ∃ r host tper, Answered t1 r ∧ Accepted r ∧ SessionNumbers r host tper ∧
        ∀ comId data rep, (sendOf comId data, rep) ∈ (OutT.run env (h ++ t0 ++ t1 ++ t2) (op.call ctx d s2)).2 →
          slice data 24 4 = beBytes 4 host ∧ slice data 20 4 = beBytes 4 tper) := by
  refine ⟨?_, ?_⟩
  · intro ops s rs t hops hrun comId data rep hm
    obtain ⟨e1, e2⟩ := history_keeps_numbers ctx d ops hops newTcgSession env h (s, rs) (by rw [hrun])
    have := OutT.asks_run (call_numbers ctx d s op hop) env (h ++ t) _ hm comId data rfl
    simp only at e1 e2
    rw [e1, e2] at this
    exact this
  · intro before s0 rs0 t0 sp challenge auth s1 t1 after s2 rs2 t2 ha _ hstart hops hafter
    have hst : OutT.run env (h ++ t0) (s0.start ctx d sp challenge auth) = (.ret (s1, none), t1) := by
      unfold SessOp.call at hstart
      simp only at hstart
      rw [OutT.run_bind] at hstart
      rcases hr : OutT.run env (h ++ t0) (s0.start ctx d sp challenge auth) with ⟨o, t⟩
      rw [hr] at hstart
      cases o with
      | panic => simp at hstart
      | running => simp at hstart
      | ret x =>
        obtain ⟨s', e⟩ := x
        simp only [OutT.run_ret, List.append_nil, Prod.mk.injEq, Out.ret.injEq, List.cons.injEq, SessRet.err.injEq, and_true] at hstart
        obtain ⟨⟨rfl, rfl⟩, rfl⟩ := hstart
        rfl
    obtain ⟨c, _, _, _, hcase⟩ := start_summary ctx d s0 sp challenge auth env (h ++ t0) hd hf ha
    rw [hst] at hcase
    rcases hcase with ⟨x, e, h1, _⟩ | ⟨r, _, _, _, h1⟩ | ⟨r, host, tper, h1, h2, _, h3, s', h4, h5, h6, _⟩ | ⟨_, h1⟩
    · cases h1
    · cases h1
    · simp only [Out.ret.injEq, Prod.mk.injEq, and_true] at h4
      subst h4
      refine ⟨r, host, tper, h1, h2, h3, ?_⟩
      intro comId data rep hm
      obtain ⟨e1, e2⟩ := history_keeps_numbers ctx d after hops s1 env (h ++ t0 ++ t1) (s2, rs2) (by rw [hafter])
      have := OutT.asks_run (call_numbers ctx d s2 op hop) env (h ++ t0 ++ t1 ++ t2) _ hm comId data rfl
      simp only at e1 e2
      rw [e1, e2, h5, h6] at this
      exact this
    · cases h1

/-- The second `Start` on one object is sent with the numbers of the first one's session (105 and 0x1007). -/
example : ((OutT.run (replyEnv [0xf8, 0xa1, 0, 0xa1, 0, 0xf0, 0x81, 105, 0x82, 0x10, 7, 0xf1, 0xf9, 0xf0, 0, 0, 0, 0xf1]) []
    (sessionHistory sampleCtx opalDevice newTcgSession
      [.start ADMINSP_UID [] (.uid SID_UID), .close, .start ADMINSP_UID [] (.uid SID_UID)])).2.filterMap (fun x => match x.1 with
        | .sec true _ _ _ data _ => some (slice data 20 8) | _ => none))
    = [[0, 0, 0, 0, 0, 0, 0, 0], [0, 0, 0x10, 7, 0, 0, 0, 105]] := by
  decide +kernel

end Dparm
