import Verif.Props.Start
import Verif.Model.SessionHistory
/-!
# Close over histories (C25), devices without SSC (C30), Authenticate (C77)
-/
namespace Dparm
open Spec

/-! ## Outcomes in every run -/

/-- Whatever the environment, a returned value satisfies `φ`. -/
def OutT.Post {α : Type} (φ : α → Prop) (p : TcgM α) : Prop :=
  ∀ env h a, (OutT.run env h p).1 = .ret a → φ a

theorem post_bind {α β : Type} {φ : β → Prop} {ψ : α → Prop} (p : TcgM α) (f : α → TcgM β)
    (hp : OutT.Post ψ p) (hf : ∀ a, ψ a → OutT.Post φ (f a)) : OutT.Post φ (p >>= f) := by
  intro env h b hb
  rw [OutT.run_bind] at hb
  rcases hr : OutT.run env h p with ⟨o, t⟩
  rw [hr] at hb
  cases o with
  | ret a => exact hf a (hp env h a (by rw [hr])) env _ b hb
  | panic => cases hb
  | running => cases hb

theorem post_true {α : Type} (p : TcgM α) : OutT.Post (fun _ => True) p := fun _ _ _ _ => trivial

theorem post_ret {α : Type} {φ : α → Prop} (a : α) (h : φ a) : OutT.Post φ (OutT.ret a) := by
  intro env t b hb
  simp only [OutT.run_ret, Out.ret.injEq] at hb
  rw [← hb]; exact h

theorem post_panic {α : Type} {φ : α → Prop} : OutT.Post φ (OutT.panic) := by
  intro env t b hb
  simp only [OutT.run_panic] at hb
  cases hb

theorem keeps_numbers (s : Session) (h t : BitVec 64) (e : Option GoErr) :
    ((⟨s.opened, h, t, s.noHash, s.autoClose, s.timeout⟩ : Session), e).1.opened = s.opened ∧
    ((⟨s.opened, h, t, s.noHash, s.autoClose, s.timeout⟩ : Session), e).1.autoClose = s.autoClose :=
  ⟨rfl, rfl⟩

theorem startNumbers_frame (authn : Session → TcgM (Option GoErr)) (d : Device) (s : Session)
    (challenge : Bytes) (r : Resp) :
    OutT.Post (fun x : Session × Option GoErr => x.1.opened = s.opened ∧ x.1.autoClose = s.autoClose)
      (s.startNumbers authn d challenge r) := by
  unfold Session.startNumbers
  refine post_bind _ _ (post_true _) fun a _ => post_bind _ _ (post_true _) fun b _ => ?_
  split
  · split
    · exact post_panic
    · exact post_ret _ ⟨rfl, rfl⟩
    · split
      · exact post_panic
      · exact post_ret _ (keeps_numbers ..)
      · split
        · exact post_bind _ _ (post_true _) fun e _ => post_ret _ (keeps_numbers ..)
        · exact post_ret _ (keeps_numbers ..)
  · exact post_ret _ ⟨rfl, rfl⟩

theorem startTail_frame (ctx : Ctx) (d : Device) (s : Session) (challenge : Bytes) (auth : AuthArg)
    (r : Resp) :
    OutT.Post (fun x : Session × Option GoErr => x.1.opened = s.opened ∧ x.1.autoClose = s.autoClose)
      (s.startTail ctx d challenge auth r) :=
  startNumbers_frame _ d s challenge r

/-- `Start` changes nothing of the session but its two numbers. -/
theorem start_frame (ctx : Ctx) (d : Device) (s : Session) (sp : UID) (challenge : Bytes) (auth : AuthArg) :
    OutT.Post (fun x : Session × Option GoErr => x.1.opened = s.opened ∧ x.1.autoClose = s.autoClose)
      (s.start ctx d sp challenge auth) := by
  unfold Session.start
  refine post_bind _ _ (post_true _) fun cmd _ => post_bind _ _ (post_true _) ?_
  rintro ⟨resp, err⟩ _
  cases err with
  | some e => exact post_ret _ ⟨rfl, rfl⟩
  | none =>
    cases resp with
    | none => exact post_panic
    | some r => exact startTail_frame ctx d s challenge auth r

/-! ## C25: histories -/

def SessOp.isClose : SessOp → Bool
  | .close => true
  | _ => false

theorem call_opened (ctx : Ctx) (d : Device) (s : Session) (hs : s.opened = false) (o : SessOp) :
    OutT.Post (fun x => x.1.opened = false) (o.call ctx d s) := by
  cases o with
  | start sp ch au =>
    refine post_bind _ _ (start_frame ctx d s sp ch au) ?_
    rintro ⟨s', e⟩ ⟨h1, _⟩
    exact post_ret _ (by rw [← hs, ← h1])
  | authenticate a c => exact post_bind _ _ (post_true _) fun _ _ => post_ret _ hs
  | sendCommand c => exact post_bind _ _ (post_true _) fun _ _ => post_ret _ hs
  | close =>
    show OutT.Post _ (s.close >>= fun s' => OutT.ret (s', []))
    unfold Session.close
    rw [hs, Bool.and_false, if_neg (by decide)]
    exact post_bind _ _ (ψ := fun s' => s'.opened = false) (post_ret _ hs) fun _ h => post_ret _ h
  | isNoHashPassword => exact post_ret _ hs
  | setNoHashPassword b => exact post_ret _ hs
  | noAutoClose => exact post_ret _ hs
  | setTimeout ms => exact post_ret _ hs

/-- C25: `Close` is never observable. For every device and device behaviour and every history of
calls on a new session object, leaving out all `Close` calls changes neither the conversation with the
drive nor the outcome (the state of the object, what the other calls return, a panic); and after any history `Close`
returns at once without a single exchange. -/
theorem close_unobservable (ctx : Ctx) (d : Device) (ops : List SessOp)
    (env : Prog.Env SecReq SecRep) (h : Prog.Trace SecReq SecRep) :
    OutT.run env h (sessionHistory ctx d newTcgSession ops)
      = OutT.run env h (sessionHistory ctx d newTcgSession (ops.filter (fun o => !o.isClose))) ∧
    ∀ s rs, (OutT.run env h (sessionHistory ctx d newTcgSession ops)).1 = .ret (s, rs) →
      s.opened = false ∧ ∀ env' h', OutT.run env' h' s.close = (.ret s, []) := by
  have gen : ∀ (ops : List SessOp) (s : Session), s.opened = false →
      ∀ h, OutT.run env h (sessionHistory ctx d s ops)
        = OutT.run env h (sessionHistory ctx d s (ops.filter (fun o => !o.isClose))) ∧
      ∀ s' rs, (OutT.run env h (sessionHistory ctx d s ops)).1 = .ret (s', rs) → s'.opened = false := by
    intro ops
    induction ops with
    | nil =>
      intro s hs h
      refine ⟨rfl, ?_⟩
      intro s' rs hs'
      simp only [sessionHistory, OutT.run_ret, Out.ret.injEq, Prod.mk.injEq] at hs'
      rw [← hs'.1, hs]
    | cons o os ih =>
      intro s hs h
      have hp := call_opened ctx d s hs o env h
      by_cases hc : o.isClose = true
      · have : o = .close := by cases o <;> simp_all [SessOp.isClose]
        subst this
        have hclose : (SessOp.close.call ctx d s) = (OutT.ret (s, []) : TcgM _) := by
          show (s.close >>= fun s' => OutT.ret (s', [])) = _
          unfold Session.close
          rw [hs, Bool.and_false, if_neg (by decide)]
          rfl
        simp only [List.filter_cons, SessOp.isClose, Bool.not_true, Bool.false_eq_true, if_false]
        have : OutT.run env h (sessionHistory ctx d s (SessOp.close :: os))
            = OutT.run env h (sessionHistory ctx d s os) := by
          rw [sessionHistory, hclose, OutT.run_bind]
          simp only [OutT.run_ret, List.append_nil, List.nil_append]
          rw [OutT.run_bind]
          rcases OutT.run env h (sessionHistory ctx d s os) with ⟨out, t⟩
          cases out <;> simp
        rw [this]
        exact ih s hs h
      · have hk : (o :: os).filter (fun o => !o.isClose) = o :: os.filter (fun o => !o.isClose) := by
          rw [List.filter_cons, if_pos (by simpa using hc)]
        rw [hk, sessionHistory, sessionHistory, OutT.run_bind, OutT.run_bind]
        rcases hr : OutT.run env h (o.call ctx d s) with ⟨out, t⟩
        rw [hr] at hp
        cases out with
        | ret x =>
          obtain ⟨s', r⟩ := x
          obtain ⟨i1, i2⟩ := ih s' (hp (s', r) rfl) (h ++ t)
          simp only [OutT.run_bind, i1]
          refine ⟨trivial, ?_⟩
          rw [← i1]
          rcases hr' : OutT.run env (h ++ t) (sessionHistory ctx d s' os) with ⟨out, t'⟩
          rw [hr'] at i2
          cases out with
          | ret y =>
            intro s'' rs e
            simp only [OutT.run_ret, Out.ret.injEq, Prod.mk.injEq] at e
            rw [← e.1]
            exact i2 y.1 y.2 rfl
          | panic => intro _ _ e; cases e
          | running => intro _ _ e; cases e
        | panic => exact ⟨rfl, fun _ _ hh => by cases hh⟩
        | running => exact ⟨rfl, fun _ _ hh => by cases hh⟩
  obtain ⟨g1, g2⟩ := gen ops newTcgSession rfl h
  refine ⟨g1, ?_⟩
  intro s rs hs
  have ho := g2 s rs hs
  refine ⟨ho, ?_⟩
  intro env' h'
  unfold Session.close
  rw [ho, Bool.and_false, if_neg (by decide)]
  rfl

/-- A history with a successful start on an Opal drive and two closes: it runs to the end. -/
example : (match (OutT.run (replyEnv [0xf8, 0xa1, 0, 0xa1, 0, 0xf0, 0x81, 105, 0x82, 0x10, 7, 0xf1, 0xf9, 0xf0, 0, 0, 0, 0xf1]) []
    (sessionHistory sampleCtx opalDevice newTcgSession
      [.close, .start ADMINSP_UID [] (.uid SID_UID), .close])).1 with
    | .ret (s, [.err none]) => s.hsn == 0x69000000 | _ => false) = true := by
  decide +kernel

/-! ## C30: devices that are not SSC -/

theorem run_exec_unsupported (ctx : Ctx) (d : Device) (cmd : ABuf) (p : Byte)
    (env : Prog.Env SecReq SecRep) (h : Prog.Trace SecReq SecRep) (hd : d.isAnySSC = false) :
    OutT.run env h (d.exec ctx.fuel cmd p)
      = (.ret (none, some (.msg "not supported")), [(.now, env h .now)]) := by
  rw [Device.exec, OutT.run_ask_bind, if_pos (by simp [hd])]
  rfl

theorem run_send_unsupported (ctx : Ctx) (d : Device) (s : Session) (cmd : ABuf)
    (env : Prog.Env SecReq SecRep) (h : Prog.Trace SecReq SecRep) (hd : d.isAnySSC = false) :
    OutT.run env h (s.sendCommand ctx d cmd)
      = (.ret (none, some (.msg "not supported")), [(.now, env h .now)]) := by
  unfold Session.sendCommand
  rw [OutT.run_bind, run_exec_unsupported ctx d _ _ env h hd]
  simp

theorem run_start_unsupported (ctx : Ctx) (d : Device) (s : Session) (sp : UID) (ch : Bytes) (au : AuthArg)
    (env : Prog.Env SecReq SecRep) (h : Prog.Trace SecReq SecRep) (hd : d.isAnySSC = false) :
    OutT.run env h (s.start ctx d sp ch au)
      = (.ret (s, some (.msg "not supported")), [(.now, env h .now)]) := by
  obtain ⟨c, hc, _⟩ := make_total ctx.base (.uid SMUID_UID) (.method M_STARTSESSION)
    (s.startOps ctx d sp ch au)
  unfold Session.start
  rw [hc, OutT.run_bind, OutT.run_lift_ret]
  simp only [List.append_nil, List.nil_append]
  rw [OutT.run_bind, run_send_unsupported ctx d s c env h hd]
  simp

/-- C30: a device that is not an Opal SSC device (generic or Enterprise) never receives anything: every
operation fails with "not supported" and without a single request to the drive. -/
theorem unsupported_device_silent (ctx : Ctx) (d : Device)
    (hd : d.kind = .generic ∨ d.kind = .enterprise)
    (env : Prog.Env SecReq SecRep) (h : Prog.Trace SecReq SecRep) :
    (∀ pw psid adm, (OutT.run env h (d.revertTPer ctx pw psid adm)).1 = .ret (some (.msg "not supported")) ∧
      ((OutT.run env h (d.revertTPer ctx pw psid adm)).2.filter isDriveIO) = []) ∧
    ((OutT.run env h (d.getDefaultPassword ctx)).1 = .ret ([], some (.msg "not supported")) ∧
      ((OutT.run env h (d.getDefaultPassword ctx)).2.filter isDriveIO) = []) ∧
    (∀ (s : Session) sp ch au,
      (OutT.run env h (s.start ctx d sp ch au)).1 = .ret (s, some (.msg "not supported")) ∧
      ((OutT.run env h (s.start ctx d sp ch au)).2.filter isDriveIO) = []) ∧
    (∀ (s : Session) a ch,
      (OutT.run env h (s.authenticate ctx d a ch)).1 = .ret (some (.msg "not supported")) ∧
      ((OutT.run env h (s.authenticate ctx d a ch)).2.filter isDriveIO) = []) ∧
    (∀ (s : Session) cmd,
      (OutT.run env h (s.sendCommand ctx d cmd)).1 = .ret (none, some (.msg "not supported")) ∧
      ((OutT.run env h (s.sendCommand ctx d cmd)).2.filter isDriveIO) = []) := by
  have hs : d.isAnySSC = false := by
    unfold Device.isAnySSC
    rcases hd with e | e <;> rw [e]
  have nio : ([(SecReq.now, env h .now)] : Prog.Trace SecReq SecRep).filter isDriveIO = [] := rfl
  refine ⟨?_, ?_, ?_, ?_, ?_⟩
  · intro pw psid adm
    unfold Device.revertTPer
    rcases hd with e | e
    · rw [e]; exact ⟨rfl, rfl⟩
    · rw [e]
      show (OutT.run env h (d.revertEnterprise ctx pw psid adm)).1 = _ ∧ _
      unfold Device.revertEnterprise
      simp only
      rw [OutT.run_bind, run_start_unsupported ctx d _ _ _ _ env h hs]
      exact ⟨rfl, nio⟩
  · unfold Device.getDefaultPassword
    rcases hd with e | e
    · rw [e]; exact ⟨rfl, rfl⟩
    · rw [e]
      simp only
      rw [OutT.run_bind, run_start_unsupported ctx d _ _ _ _ env h hs]
      exact ⟨rfl, nio⟩
  · intro s sp ch au
    rw [run_start_unsupported ctx d s sp ch au env h hs]
    exact ⟨rfl, nio⟩
  · intro s a ch
    obtain ⟨c, hc, _⟩ := make_total ctx.base (.uid THISSP_UID)
      (.method (if d.isEnterprise then M_EAUTHENTICATE else M_AUTHENTICATE)) (s.authOps ctx d a ch)
    unfold Session.authenticate
    rw [hc, OutT.run_bind, OutT.run_lift_ret]
    simp only [List.append_nil, List.nil_append]
    rw [OutT.run_bind, run_send_unsupported ctx d s c env h hs]
    exact ⟨rfl, nio⟩
  · intro s cmd
    rw [run_send_unsupported ctx d s cmd env h hs]
    exact ⟨rfl, nio⟩

/-- An Enterprise drive's device. -/
example : (newTcgDevice { enterprise := true } [0x41]).kind = .enterprise := rfl

/-- C30: conversely every Opal device gets its command. -/
theorem opal_device_sends (ctx : Ctx) (d : Device) (s : Session) (cmd : ABuf) (hf : 0 < ctx.fuel)
    (hd : d.kind = .opal1 ∨ d.kind = .opal2)
    (env : Prog.Env SecReq SecRep) (h : Prog.Trace SecReq SecRep) :
    ∃ sent, sends (OutT.run env h (s.sendCommand ctx d cmd)).2
      = [(sendOf d.baseComId (Cmd.wire (s.stamp d cmd)), sent)] :=
  (sendCommand_summary ctx d s cmd env h (by
    unfold Device.isAnySSC
    rcases hd with e | e <;> rw [e]) hf).1

/-! ## C77: Authenticate -/

/-- The number in the second token of a reply. -/
def SecondNumber (r : Resp) (v : Nat) : Prop :=
  ∃ a t rest, r.tokens = a :: t :: rest ∧ unsignedValue t = some v

theorem authTail_cases {r : Resp} (hp : Parsed r) :
    (Session.authTail r = .ret none ↔ ∃ v, SecondNumber r v ∧ v % 256 = 0) ∧
    (∀ v, SecondNumber r v → v % 256 ≠ 0 →
      Session.authTail r = .ret (some (.msg s!"authentication failed: {v % 256}"))) ∧
    Session.authTail r ≠ .panic := by
  unfold Session.authTail
  have g := getToken_exact r
  match hm : r.tokens with
  | [] =>
    have h1 : r.getToken 1 = .ret none := ((g 1).2.1).2 (by unfold Resp.getTokenCount; simp [hm])
    rw [h1]
    simp only [P.ret_bind]
    refine ⟨?_, ?_, by simp⟩
    · constructor
      · intro h; cases h
      · rintro ⟨v, ⟨_, _, _, h, _⟩, _⟩; rw [hm] at h; cases h
    · rintro v ⟨_, _, _, h, _⟩; rw [hm] at h; cases h
  | [a] =>
    have h1 : r.getToken 1 = .ret none := ((g 1).2.1).2 (by unfold Resp.getTokenCount; simp [hm])
    rw [h1]
    simp only [P.ret_bind]
    refine ⟨?_, ?_, by simp⟩
    · constructor
      · intro h; cases h
      · rintro ⟨v, ⟨_, _, _, h, _⟩, _⟩; rw [hm] at h; simp at h
    · rintro v ⟨_, _, _, h, _⟩; rw [hm] at h; simp at h
  | a :: t :: rest =>
    have h1 : r.getToken 1 = .ret (some t) := by
      rw [show (1 : Int) = ((1 : Nat) : Int) from rfl, (g 0).2.2 1 (by simp [hm])]; simp [hm]
    rw [h1]
    simp only [P.ret_bind]
    have ht := ((parsed_tokens hp).2 t (by simp [hm])).1
    obtain ⟨u1, u2⟩ := getUint8_value t ht
    have uniq : ∀ v, SecondNumber r v ↔ unsignedValue t = some v := by
      intro v
      constructor
      · rintro ⟨_, _, _, h, hv⟩
        rw [hm] at h
        simp only [List.cons.injEq] at h
        rw [h.2.1]; exact hv
      · exact fun hv => ⟨a, t, rest, hm, hv⟩
    cases hv : unsignedValue t with
    | none =>
      rw [u2 hv]
      simp only
      refine ⟨?_, ?_, by simp⟩
      · constructor
        · intro h; cases h
        · rintro ⟨v, h, _⟩; rw [uniq, hv] at h; cases h
      · intro v h; rw [uniq, hv] at h; cases h
    | some v =>
      rw [u1 v hv]
      simp only
      have hz : (BitVec.ofNat 8 v = 0) ↔ v % 256 = 0 := by
        constructor
        · intro h
          have := congrArg BitVec.toNat h
          simpa using this
        · intro h
          apply BitVec.eq_of_toNat_eq
          simpa using h
      refine ⟨?_, ?_, ?_⟩
      · by_cases h0 : v % 256 = 0
        · rw [if_neg (by simp [hz.2 h0])]
          exact ⟨fun _ => ⟨v, (uniq v).2 hv, h0⟩, fun _ => rfl⟩
        · rw [if_pos (by intro h; exact h0 (hz.1 h))]
          constructor
          · intro h; cases h
          · rintro ⟨w, hw, hw0⟩
            rw [uniq, hv] at hw
            cases hw; exact absurd hw0 h0
      · intro w hw h0
        rw [uniq, hv] at hw
        cases hw
        rw [if_pos (by intro h; exact h0 (hz.1 h))]
        simp
      · split <;> simp

/-- C77: on every device, `Authenticate` returns nil exactly when its command was answered by an accepted
response whose second token carries a number with low byte 0; an accepted response carrying any other
number (in particular 1, the TCG boolean TRUE) makes it fail. -/
theorem authenticate_verdict (ctx : Ctx) (d : Device) (s : Session) (authority challenge : Bytes)
    (env : Prog.Env SecReq SecRep) (h : Prog.Trace SecReq SecRep) :
    ∃ c, Cmd.make ctx.base (.uid THISSP_UID)
        (.method (if d.isEnterprise then M_EAUTHENTICATE else M_AUTHENTICATE))
        (s.authOps ctx d authority challenge) = .ret c ∧
      (OutT.run env h (s.authenticate ctx d authority challenge)).2
        = (OutT.run env h (s.sendCommand ctx d c)).2 ∧
      ((OutT.run env h (s.authenticate ctx d authority challenge)).1 = .ret none ↔
        ∃ r v, (OutT.run env h (s.sendCommand ctx d c)).1 = .ret (some r, none) ∧
          SecondNumber r v ∧ v % 256 = 0) ∧
      (∀ r v, (OutT.run env h (s.sendCommand ctx d c)).1 = .ret (some r, none) → SecondNumber r v →
        v % 256 ≠ 0 → (OutT.run env h (s.authenticate ctx d authority challenge)).1
          = .ret (some (.msg s!"authentication failed: {v % 256}"))) := by
  obtain ⟨c, hc, _⟩ := make_total ctx.base (.uid THISSP_UID)
    (.method (if d.isEnterprise then M_EAUTHENTICATE else M_AUTHENTICATE)) (s.authOps ctx d authority challenge)
  refine ⟨c, hc, ?_⟩
  unfold Session.authenticate
  rw [hc, OutT.run_bind, OutT.run_lift_ret]
  simp only [List.append_nil, List.nil_append]
  rw [OutT.run_bind]
  obtain ⟨_, hcase⟩ := run_sendCommand ctx d s c env h
  rcases hs : OutT.run env h (s.sendCommand ctx d c) with ⟨o, t⟩
  rw [hs] at hcase
  simp only at hcase
  rcases hcase with ⟨x, e, _, rfl⟩ | ⟨r, _, hp, ⟨_, rfl⟩ | ⟨e, _, rfl⟩⟩ | ⟨_, rfl⟩
  · simp
  · simp
  · cases e with
    | some e => simp
    | none =>
      obtain ⟨a1, a2, a3⟩ := authTail_cases hp
      show _ ∧ _ ∧ _
      cases ht : Session.authTail r with
      | panic => exact absurd ht a3
      | ret x =>
        rw [ht] at a1 a2
        simp only [P.ret.injEq] at a1 a2
        simp only [ht, OutT.run_lift_ret, List.append_nil, Out.ret.injEq, Prod.mk.injEq, Option.some.injEq,
          and_true]
        refine ⟨trivial, ?_, ?_⟩
        · rw [a1]
          constructor
          · rintro ⟨v, hv⟩; exact ⟨r, v, rfl, hv⟩
          · rintro ⟨r', v, rfl, hv⟩; exact ⟨v, hv⟩
        · rintro r' v rfl hv h0
          exact a2 v hv h0
  · simp

theorem encAdd_str_some (t : Bytes) : encAdd (.str t (some t.length)) = stringArg t := by
  rw [← encAdd_str_none]
  simp only [encAdd]
  rw [if_neg (by omega), Int.toNat_natCast]

theorem authOps_enc (ctx : Ctx) (d : Device) (s : Session) (authority challenge : Bytes)
    (hd : d.isAnySSC = true) :
    encInit (.uid THISSP_UID) (.method (if d.isEnterprise then M_EAUTHENTICATE else M_AUTHENTICATE))
        ++ encAdds (s.authOps ctx d authority challenge)
      = authenticateCall authority (if challenge = [] then none
          else some (stringArg (challengeValue ctx.kdf s.noHash d.serial challenge))) := by
  have he : d.isEnterprise = false := by
    unfold Device.isAnySSC at hd
    unfold Device.isEnterprise
    cases hk : d.kind <;> simp [hk] at hd ⊢
  have hhead : encInit (.uid THISSP_UID) (.method M_AUTHENTICATE)
      = callHead [0, 0, 0, 0, 0, 0, 0, 1] [0, 0, 0, 6, 0, 0, 0, 0x1c] := by decide
  have e1 : encAdd tSTARTNAME = Token.encode .startName := by decide
  have e2 : encAdd tENDNAME = Token.encode .endName := by decide
  have e3 : encAdd (tUINT 0) = Token.encode (.uint 0) := by decide
  have e4 : encAdd tSTARTLIST = Token.encode .startList := by decide
  have e5 : encAdd tENDLIST = Token.encode .endList := by decide
  have e6 : encAdd (.raw authority) = authority := rfl
  unfold Session.authOps authenticateCall
  simp only [he, Bool.false_eq_true, if_false, hhead]
  by_cases hc : challenge = []
  · simp only [hc, ne_eq, not_true_eq_false, if_false, if_true, encAdds, encodeAll, List.flatMap_append,
      List.flatMap_cons, List.flatMap_nil, e4, e5, e6, List.append_nil, List.append_assoc]
  · simp only [hc, ne_eq, not_false_eq_true, if_false, if_true, encAdds, encodeAll, List.flatMap_append,
      List.flatMap_cons, List.flatMap_nil, e1, e2, e3, e4, e5, e6, encAdd_str_some, credential_eq,
      List.append_nil, List.append_assoc]

/-- C77: on an SSC device `Authenticate` sends exactly one command: Authenticate on the session's SP with
the authority as given and, unless the challenge is empty, the hashed or plain challenge. -/
theorem authenticate_sends (ctx : Ctx) (d : Device) (s : Session) (authority challenge : Bytes)
    (env : Prog.Env SecReq SecRep) (h : Prog.Trace SecReq SecRep)
    (hd : d.isAnySSC = true) (hf : 0 < ctx.fuel) (ha : authority.length ≤ 50000) :
    ∃ sent, sends (OutT.run env h (s.authenticate ctx d authority challenge)).2 =
      [(sendOf d.baseComId
        (wireImage d.baseComId.toNat (leBytes 4 (s.tsn.toNat % 2 ^ 32)) (leBytes 4 (s.hsn.toNat % 2 ^ 32))
          (authenticateCall authority
            (if challenge = [] then none
             else some (stringArg (challengeValue ctx.kdf s.noHash d.serial challenge))))), sent)] := by
  obtain ⟨c, hc, htr, _⟩ := authenticate_verdict ctx d s authority challenge env h
  have henc := authOps_enc ctx d s authority challenge hd
  have hlen : (authenticateCall authority (if challenge = [] then none
      else some (stringArg (challengeValue ctx.kdf s.noHash d.serial challenge)))).length ≤ 53000 := by
    have h1 := stringArg_length (challengeValue ctx.kdf s.noHash d.serial challenge)
    have h3 : (callHead [0, 0, 0, 0, 0, 0, 0, 1] [0, 0, 0, 6, 0, 0, 0, 0x1c]).length = 19 := by decide
    have h4 : (encodeAll [.startList]).length = 1 := by decide
    have h5 : (encodeAll [.endList]).length = 1 := by decide
    have h6 : (encodeAll [.startName, .uint 0]).length = 2 := by decide
    have h7 : (encodeAll [.endName]).length = 1 := by decide
    unfold authenticateCall
    by_cases hc : challenge = []
    · simp only [hc, if_true, List.length_append, h3, h4, h5, List.length_nil]; omega
    · simp only [hc, if_false, List.length_append, h3, h4, h5, h6, h7]; omega
  rw [← henc, List.length_append] at hlen
  obtain ⟨c', hc', _, _, hwire⟩ := make_wire ctx.base (.uid THISSP_UID)
    (.method (if d.isEnterprise then M_EAUTHENTICATE else M_AUTHENTICATE))
    (s.authOps ctx d authority challenge) s d (by simp) (by omega)
  have : c' = c := by rw [hc] at hc'; cases hc'; rfl
  subst this
  rw [htr, ← henc, ← hwire]
  exact (sendCommand_summary ctx d s c' env h hd hf).1

/-- A drive confirming with TRUE (1) and status 0 is taken as a refusal; with FALSE (0) as success. -/
example : (match (OutT.run (replyEnv [0xf0, 0x01, 0xf1, 0xf9, 0xf0, 0, 0, 0, 0xf1]) []
    (newTcgSession.authenticate sampleCtx opalDevice [0xa8, 0, 0, 0, 9, 0, 0, 0, 6] [0x70])).1 with
    | .ret (some (.msg _)) => true | _ => false) = true ∧
    (match (OutT.run (replyEnv [0xf0, 0x00, 0xf1, 0xf9, 0xf0, 0, 0, 0, 0xf1]) []
    (newTcgSession.authenticate sampleCtx opalDevice [0xa8, 0, 0, 0, 9, 0, 0, 0, 6] [0x70])).1 with
    | .ret none => true | _ => false) = true := by
  decide +kernel

end Dparm
