import Verif.Props.SessionHistory
import Verif.Props.SharedDrive
/-!
# Reusing a session object on a conforming drive (C154)
-/
namespace Dparm
open Spec

/-- Calls on a session object that the reference drive has a meaning for: `Start` of the Admin SP (with a UID as authority and at most 400
bytes of password), `SendCommand` of the command that reads the MSID, `Close` and the settings. -/
def SessOp.Plain (ctx : Ctx) : SessOp → Prop
  | .start sp challenge auth => sp = ADMINSP_UID ∧ challenge.length ≤ 400 ∧ ∃ u, auth = .uid u
  | .sendCommand c => Cmd.make ctx.base (.buf Device.msidTable) (.method M_GET) (Device.getTableOps 3 3) = .ret c
  | .authenticate .. => False
  | _ => True

/-- The session numbers a session object puts into its packets. -/
def Session.hostNumber (s : Session) : Nat := beVal (leBytes 4 (s.hsn.toNat % 2 ^ 32))
def Session.tperNumber (s : Session) : Nat := beVal (leBytes 4 (s.tsn.toNat % 2 ^ 32))

theorem leBytes_own (n : Nat) : leBytes 4 (n % 2 ^ 32) = beBytes 4 (beVal (leBytes 4 (n % 2 ^ 32))) ∧
    beVal (leBytes 4 (n % 2 ^ 32)) < 2 ^ 32 := by
  have h1 := beBytes_beVal (leBytes 4 (n % 2 ^ 32))
  have h2 := beVal_lt (leBytes 4 (n % 2 ^ 32))
  rw [leBytes_length] at h1 h2
  exact ⟨h1.symm, by have : (256 : Nat) ^ 4 = 2 ^ 32 := by decide
                     omega⟩

/-- The object's session is open on the drive. -/
def InSession (s : Session) (σ : DriveState) : Prop :=
  ¬ (s.tperNumber = 0 ∧ s.hostNumber = 0) ∧ ∃ o, σ.sessions.find? (fun o => o.tper == s.tperNumber && o.host == s.hostNumber) = some o

/-- Nothing of the drive has changed but the answer that waits. -/
def SameBut (a b : DriveState) : Prop := a.sid = b.sid ∧ a.sessions = b.sessions ∧ a.reverts = b.reverts

theorem SameBut.trans {a b c : DriveState} (h : SameBut a b) (k : SameBut b c) : SameBut a c :=
  ⟨h.1.trans k.1, h.2.1.trans k.2.1, h.2.2.trans k.2.2⟩

variable {dr : Drive} {W : Nat} {env : Prog.Env SecReq SecRep} {st : Prog.Trace SecReq SecRep → DriveState}

section
attribute [local irreducible] Session.start Session.sendCommand

/-- A command whose answer is fixed. -/
theorem send_fetched (hc : Conforming dr W env st) (hp : Prompt env) (ctx : Ctx) (d : Device) (hd : d.baseComId = dr.comId)
    (hs : d.isAnySSC = true) (hf : W < ctx.fuel) (s : Session) (cmd : ABuf) (h : Prog.Trace SecReq SecRep) (p : Packet)
    (hpk : readPacket (Cmd.wire (s.stamp d cmd)) = some p) (hcom : p.comId = dr.comId.toNat)
    (hlen : (Cmd.wire (s.stamp d cmd)).length ≤ 4096 ∧ 512 ∣ (Cmd.wire (s.stamp d cmd)).length) (a : Answer) (σ : DriveState)
    (hperf : ∀ tper, dr.perform tper (st h) p = { σ with answer := some a }) (hk : ∀ k, a = .refused k → 0 < k ∧ k < 256) :
    ∃ r t, Fetched a r ∧ OutT.run env h (s.sendCommand ctx d cmd) = (.ret (some r, answerError a), t) ∧ st (h ++ t) = { σ with answer := none, wait := 0 } := by
  obtain ⟨tper, _, hrest⟩ := sendCommand_conforming hc ctx d hd hs hf s cmd h p hpk hcom hlen
  rw [hperf] at hrest
  rcases hrest a rfl hk with ⟨r, hr, h2, h3⟩ | ⟨h1, _⟩
  · refine ⟨r, (OutT.run env h (s.sendCommand ctx d cmd)).2, hr, ?_, h3⟩
    rw [← h2]
  · exact absurd h1 (not_slow hp)

theorem send_answered (hc : Conforming dr W env st) (hp : Prompt env) (ctx : Ctx) (d : Device) (hd : d.baseComId = dr.comId)
    (hs : d.isAnySSC = true) (hf : W < ctx.fuel) (s : Session) (cmd : ABuf) (h : Prog.Trace SecReq SecRep) (p : Packet)
    (hpk : readPacket (Cmd.wire (s.stamp d cmd)) = some p) (hcom : p.comId = dr.comId.toNat)
    (hlen : (Cmd.wire (s.stamp d cmd)).length ≤ 4096 ∧ 512 ∣ (Cmd.wire (s.stamp d cmd)).length) (a : Answer) (σ : DriveState)
    (hperf : ∀ tper, dr.perform tper (st h) p = { σ with answer := some a }) (hk : ∀ k, a = .refused k → 0 < k ∧ k < 256) :
    ∃ r t, OutT.run env h (s.sendCommand ctx d cmd) = (.ret (some r, answerError a), t) ∧ st (h ++ t) = { σ with answer := none, wait := 0 } := by
  obtain ⟨r, t, -, h1, h2⟩ := send_fetched hc hp ctx d hd hs hf s cmd h p hpk hcom hlen a σ hperf hk
  exact ⟨r, t, h1, h2⟩

theorem getMsid_packet (ctx : Ctx) (d : Device) (s : Session) {c : ABuf}
    (hm : Cmd.make ctx.base (.buf Device.msidTable) (.method M_GET) (Device.getTableOps 3 3) = .ret c) :
    readPacket (Cmd.wire (s.stamp d c)) = some ⟨d.baseComId.toNat, s.tperNumber, s.hostNumber, getMsidTokens ++ trailerTokens⟩ := by
  obtain ⟨c', hm', h⟩ := session_packet ctx.base (.buf Device.msidTable) (.method M_GET) (Device.getTableOps 3 3) s d (by simp)
      getMsidTokens (getMsid_enc.trans getMsidCall_tokens) (by decide) (by decide) _ _ (leBytes_own s.hsn.toNat).2 (leBytes_own s.tsn.toNat).2
      (leBytes_own s.hsn.toNat).1 (leBytes_own s.tsn.toNat).1
  rw [hm] at hm'
  simp only [P.ret.injEq] at hm'
  subst hm'
  exact h

/-- An error of `SendCommand` is the error of `Start`. -/
theorem start_error (ctx : Ctx) (d : Device) (s : Session) (sp : UID) (challenge : Bytes) (auth : AuthArg) {c : ABuf}
    (hm : Cmd.make ctx.base (.uid SMUID_UID) (.method M_STARTSESSION) (s.startOps ctx d sp challenge auth) = .ret c)
    {h t : Prog.Trace SecReq SecRep} {x : Option Resp} {e : GoErr} (hx : OutT.run env h (s.sendCommand ctx d c) = (.ret (x, some e), t)) :
    OutT.run env h (s.start ctx d sp challenge auth) = (.ret (s, some e), t) := by
  unfold Session.start
  rw [hm, OutT.run_bind, OutT.run_lift_ret]
  simp only [List.append_nil, List.nil_append]
  rw [OutT.run_bind, hx]
  simp only [OutT.run_ret, List.append_nil]

/-- Calls while the object's session is open. -/
theorem held_call (hc : Conforming dr W env st) (hp : Prompt env) (ctx : Ctx) (d : Device) (hd : d.baseComId = dr.comId)
    (hs : d.isAnySSC = true) (hf : W < ctx.fuel) (op : SessOp) (hop : op.Plain ctx) (s : Session) (hso : s.opened = false)
    (h : Prog.Trace SecReq SecRep) (hH : InSession s (st h)) :
    ∃ s' rs t, OutT.run env h (op.call ctx d s) = (.ret (s', rs), t) ∧ s'.hsn = s.hsn ∧ s'.tsn = s.tsn ∧ s'.opened = false ∧
      SameBut (st (h ++ t)) (st h) ∧ (∀ e, .err e ∈ rs → e = some (.tcg 12)) ∧ (∀ r e, .reply r e ∈ rs → e = none) := by
  obtain ⟨hz, o, ho⟩ := hH
  have quiet : ∀ (s' : Session) (rs : List SessRet), op.call ctx d s = OutT.ret (s', rs) → s'.hsn = s.hsn → s'.tsn = s.tsn →
      s'.opened = false → (∀ e, .err e ∈ rs → e = some (.tcg 12)) → (∀ r e, .reply r e ∈ rs → e = none) →
      ∃ s' rs t, OutT.run env h (op.call ctx d s) = (.ret (s', rs), t) ∧ s'.hsn = s.hsn ∧ s'.tsn = s.tsn ∧ s'.opened = false ∧
        SameBut (st (h ++ t)) (st h) ∧ (∀ e, .err e ∈ rs → e = some (.tcg 12)) ∧ (∀ r e, .reply r e ∈ rs → e = none) := by
    intro s' rs hcall h1 h2 h3 h4 h5
    refine ⟨s', rs, [], by rw [hcall]; rfl, h1, h2, h3, ?_, h4, h5⟩
    rw [List.append_nil]
    exact ⟨rfl, rfl, rfl⟩
  cases op with
  | authenticate a b => exact hop.elim
  | start sp challenge auth =>
    obtain ⟨rfl, hl, u, rfl⟩ := hop
    obtain ⟨c, hm, hpk⟩ := start_packet_any ctx d s challenge u hs (fun _ => hl)
    rw [show beVal (leBytes 4 (s.tsn.toNat % 2 ^ 32)) = s.tperNumber from rfl,
      show beVal (leBytes 4 (s.hsn.toNat % 2 ^ 32)) = s.hostNumber from rfl] at hpk
    obtain ⟨r, t, h1, h2⟩ := send_answered hc hp ctx d hd hs hf s c h _ hpk (by rw [hd]) (make_readable_length _ _ _ _ (by simp) s d hm hpk) (.refused 12)
      (st h) (fun tper => by
        unfold Drive.perform
        rw [startTokens_read]
        simp only
        rw [if_neg hz, show (st h).sessions.find? _ = some o from ho]
        simp only
        unfold Drive.method
        rw [if_neg (fun x => absurd (show smUid = adminSP from x.1) (by decide)),
          if_neg (fun x => absurd (show smUid = cPinMsid from x.1) (by decide))])
      (by intro k hk; simp only [Answer.refused.injEq] at hk; omega)
    refine ⟨s, [.err (some (.tcg 12))], t, ?_, rfl, rfl, hso, ?_, ?_, ?_⟩
    · simp only [SessOp.call]
      rw [OutT.run_bind, start_error ctx d s _ challenge _ hm h1]
      simp only [OutT.run_ret, List.append_nil]
    · rw [h2]; exact ⟨rfl, rfl, rfl⟩
    · intro e he
      simp only [List.mem_singleton, SessRet.err.injEq] at he
      exact he
    · intro r e he
      simp at he
  | sendCommand c =>
    have hm : Cmd.make ctx.base (.buf Device.msidTable) (.method M_GET) (Device.getTableOps 3 3) = .ret c := hop
    obtain ⟨r, t, h1, h2⟩ := send_answered hc hp ctx d hd hs hf s c h _ (getMsid_packet ctx d s hm) (by rw [hd])
      (make_readable_length _ _ _ _ (by simp) s d hm (getMsid_packet ctx d s hm)) (.column 3 dr.msid) (st h) (fun tper => by
        unfold Drive.perform
        rw [getMsidTokens_read]
        simp only
        rw [if_neg hz, show (st h).sessions.find? _ = some o from ho]
        simp only
        unfold Drive.method
        rw [if_neg (by intro x; exact absurd x.1 (by decide)), if_pos ⟨rfl, rfl, rfl⟩])
      (by intro k hk; cases hk)
    refine ⟨s, [.reply (some r) none], t, ?_, rfl, rfl, hso, ?_, ?_, ?_⟩
    · simp only [SessOp.call]
      rw [OutT.run_bind, h1]
      simp only [answerError, OutT.run_ret, List.append_nil]
    · rw [h2]; exact ⟨rfl, rfl, rfl⟩
    · intro e he; simp at he
    · intro r e he
      simp only [List.mem_singleton, SessRet.reply.injEq] at he
      exact he.2
  | close =>
    refine quiet s [] ?_ rfl rfl hso (by simp) (by simp)
    simp only [SessOp.call]
    unfold Session.close
    rw [hso, Bool.and_false, if_neg (by decide)]
    rfl
  | isNoHashPassword => exact quiet s [.flag s.noHash] rfl rfl rfl hso (by simp) (by simp)
  | setNoHashPassword b => exact quiet _ [] rfl rfl rfl hso (by simp) (by simp)
  | noAutoClose => exact quiet _ [] rfl rfl rfl hso (by simp) (by simp)
  | setTimeout ms => exact quiet _ [] rfl rfl rfl hso (by simp) (by simp)

theorem InSession.congr {s s' : Session} {σ σ' : DriveState} (h : InSession s σ) (h1 : s'.hsn = s.hsn) (h2 : s'.tsn = s.tsn)
    (h3 : SameBut σ' σ) : InSession s' σ' := by
  unfold InSession Session.tperNumber Session.hostNumber at *
  rw [h1, h2, h3.2.1]
  exact h

theorem held_history (hc : Conforming dr W env st) (hp : Prompt env) (ctx : Ctx) (d : Device) (hd : d.baseComId = dr.comId)
    (hs : d.isAnySSC = true) (hf : W < ctx.fuel) (ops : List SessOp) (hops : ∀ o ∈ ops, o.Plain ctx) : ∀ (s : Session), s.opened = false →
    ∀ h, InSession s (st h) →
    ∃ s' rs t, OutT.run env h (sessionHistory ctx d s ops) = (.ret (s', rs), t) ∧ s'.hsn = s.hsn ∧ s'.tsn = s.tsn ∧
      SameBut (st (h ++ t)) (st h) ∧ (∀ e, .err e ∈ rs → e = some (.tcg 12)) ∧ (∀ r e, .reply r e ∈ rs → e = none) := by
  induction ops with
  | nil =>
    intro s hso h _
    refine ⟨s, [], [], rfl, rfl, rfl, ?_, by simp, by simp⟩
    rw [List.append_nil]
    exact ⟨rfl, rfl, rfl⟩
  | cons op ops ih =>
    intro s hso h hH
    obtain ⟨s1, rs1, t1, k1, k2, k3, k4, k5, k6, k7⟩ := held_call hc hp ctx d hd hs hf op (hops op (List.mem_cons_self ..)) s hso h hH
    obtain ⟨s2, rs2, t2, m1, m2, m3, m4, m5, m6⟩ := ih (fun o ho => hops o (List.mem_cons_of_mem _ ho)) s1 k4 (h ++ t1) (hH.congr k2 k3 k5)
    refine ⟨s2, rs1 ++ rs2, t1 ++ t2, ?_, m2.trans k2, m3.trans k3, ?_, ?_, ?_⟩
    · rw [sessionHistory, OutT.run_bind, k1]
      simp only
      rw [OutT.run_bind, m1]
      simp only [OutT.run_ret, List.append_nil]
    · rw [← List.append_assoc]; exact m4.trans k5
    · intro e he
      rcases List.mem_append.1 he with he | he
      · exact k6 e he
      · exact m5 e he
    · intro r e he
      rcases List.mem_append.1 he with he | he
      · exact k7 r e he
      · exact m6 r e he

/-- Calls before the object's session is open: nothing happens on the drive, or a `Start` opens the session. -/
theorem fresh_call (hc : Conforming dr W env st) (hp : Prompt env) (ctx : Ctx) (d : Device) (hd : d.baseComId = dr.comId)
    (hs : d.isAnySSC = true) (hf : W < ctx.fuel) (op : SessOp) (hop : op.Plain ctx) (s : Session) (hso : s.opened = false)
    (h : Prog.Trace SecReq SecRep) (hn : s.hsn = 0 ∧ s.tsn = 0) :
    ∃ s' rs t, OutT.run env h (op.call ctx d s) = (.ret (s', rs), t) ∧ s'.opened = false ∧
      ((s'.hsn = 0 ∧ s'.tsn = 0 ∧ SameBut (st (h ++ t)) (st h) ∧ (∀ e, .err e ∈ rs → e ≠ none)) ∨
       (rs = [.err none] ∧ InSession s' (st (h ++ t)) ∧ (st (h ++ t)).sid = (st h).sid ∧ (st (h ++ t)).reverts = (st h).reverts ∧
        ∃ o, (st (h ++ t)).sessions = o :: (st h).sessions)) := by
  have quiet : ∀ (s' : Session) (rs : List SessRet), op.call ctx d s = OutT.ret (s', rs) → s'.hsn = 0 → s'.tsn = 0 →
      s'.opened = false → (∀ e, .err e ∈ rs → e ≠ none) →
      ∃ s' rs t, OutT.run env h (op.call ctx d s) = (.ret (s', rs), t) ∧ s'.opened = false ∧
      ((s'.hsn = 0 ∧ s'.tsn = 0 ∧ SameBut (st (h ++ t)) (st h) ∧ (∀ e, .err e ∈ rs → e ≠ none)) ∨
       (rs = [.err none] ∧ InSession s' (st (h ++ t)) ∧ (st (h ++ t)).sid = (st h).sid ∧ (st (h ++ t)).reverts = (st h).reverts ∧
        ∃ o, (st (h ++ t)).sessions = o :: (st h).sessions)) := by
    intro s' rs hcall h1 h2 h3 h4
    refine ⟨s', rs, [], by rw [hcall]; rfl, h3, .inl ⟨h1, h2, ?_, h4⟩⟩
    rw [List.append_nil]
    exact ⟨rfl, rfl, rfl⟩
  cases op with
  | authenticate a b => exact hop.elim
  | start sp challenge auth =>
    obtain ⟨rfl, hl, u, rfl⟩ := hop
    obtain ⟨cred, hcred⟩ : ∃ x, x = presented ctx.kdf s.noHash d.serial challenge u := ⟨_, rfl⟩
    obtain ⟨tper, ht, hcase⟩ := start_conforming hc ctx d hd hs hf s challenge u (fun _ => hl) (by rw [hn.1, hn.2]; decide) h (seenArgs cred)
      (by rw [hcred])
    obtain ⟨fr1, fr2⟩ := startSession_frame dr tper (st h) (seenArgs cred)
    have hop' := start_frame ctx d s ADMINSP_UID challenge (.uid u) env h
    rcases hr : OutT.run env h (s.start ctx d ADMINSP_UID challenge (.uid u)) with ⟨o, t⟩
    rw [hr] at hcase hop'
    simp only at hcase hop'
    rcases hcase with ⟨hslow, _⟩ | ⟨hst, ⟨k, hk1, hk2, hk3, rfl⟩ | ⟨s', hroom, hadmit, rfl, hh, htt⟩⟩
    · exact absurd hslow (not_slow hp)
    · refine ⟨s, [.err (some (.tcg k))], t, ?_, hso, .inl ⟨hn.1, hn.2, ?_, ?_⟩⟩
      · simp only [SessOp.call]
        rw [OutT.run_bind, hr]
        simp only [OutT.run_ret, List.append_nil]
      · have hses : (dr.startSession tper (st h) (seenArgs cred)).sessions = (st h).sessions := by
          refine startSession_refused dr tper (st h) cred ?_
          rcases hk1 with e | e
          · exact .inl (hk2.1 e)
          · exact .inr (hk3 e)
        rw [hst]
        exact ⟨fr1, hses, fr2⟩
      · intro e he
        simp only [List.mem_singleton, SessRet.err.injEq] at he
        rw [he]; simp
    · refine ⟨s', [.err none], t, ?_, (hop' _ rfl).1.trans hso, .inr ⟨rfl, ?_, ?_, ?_, ?_⟩⟩
      · simp only [SessOp.call]
        rw [OutT.run_bind, hr]
        simp only [OutT.run_ret, List.append_nil]
      · rw [startSession_open dr tper (st h) cred hroom hadmit] at hst
        have e1 : s'.hostNumber = 105 := by
          unfold Session.hostNumber
          rw [hh, beVal_beBytes]
        have e2 : s'.tperNumber = tper := by
          unfold Session.tperNumber
          rw [htt, beVal_beBytes, Nat.mod_eq_of_lt (by omega)]
        refine ⟨by rw [e1]; omega, ⟨105, tper, true, cred.map (·.2)⟩, ?_⟩
        rw [hst, e1, e2]
        exact List.find?_cons_of_pos (by simp)
      · rw [hst]; exact fr1
      · rw [hst]; exact fr2
      · rw [startSession_open dr tper (st h) cred hroom hadmit] at hst
        rw [hst]
        exact ⟨_, rfl⟩
  | sendCommand c =>
    have hm : Cmd.make ctx.base (.buf Device.msidTable) (.method M_GET) (Device.getTableOps 3 3) = .ret c := hop
    obtain ⟨r, t, h1, h2⟩ := send_answered hc hp ctx d hd hs hf s c h _ (getMsid_packet ctx d s hm) (by rw [hd])
      (make_readable_length _ _ _ _ (by simp) s d hm (getMsid_packet ctx d s hm)) (.refused 12) (st h) (fun tper => by
        unfold Drive.perform
        rw [getMsidTokens_read]
        simp only
        rw [if_pos (by unfold Session.tperNumber Session.hostNumber; rw [hn.1, hn.2]; decide),
          if_neg (by intro x; exact absurd x.1 (by decide))])
      (by intro k hk; simp only [Answer.refused.injEq] at hk; omega)
    refine ⟨s, [.reply (some r) (some (.tcg 12))], t, ?_, hso, .inl ⟨hn.1, hn.2, ?_, ?_⟩⟩
    · simp only [SessOp.call]
      rw [OutT.run_bind, h1]
      simp only [answerError, OutT.run_ret, List.append_nil]
    · rw [h2]; exact ⟨rfl, rfl, rfl⟩
    · intro e he; simp at he
  | close =>
    refine quiet s [] ?_ hn.1 hn.2 hso (by simp)
    simp only [SessOp.call]
    unfold Session.close
    rw [hso, Bool.and_false, if_neg (by decide)]
    rfl
  | isNoHashPassword => exact quiet s [.flag s.noHash] rfl hn.1 hn.2 hso (by simp)
  | setNoHashPassword b => exact quiet _ [] rfl hn.1 hn.2 hso (by simp)
  | noAutoClose => exact quiet _ [] rfl hn.1 hn.2 hso (by simp)
  | setTimeout ms => exact quiet _ [] rfl hn.1 hn.2 hso (by simp)

/-- C154: a session object is good for one session. On a conforming drive, with nothing taking longer than 10 s, every history of calls on a
new session object ends without a panic, and either no `Start` returned nil and the drive has the sessions it had before; or the first
`Start` that returned nil opened the one session that was added, every later `Start` on the object failed with the TCG status 12 (invalid
parameter), whatever the password, and every later read of the MSID in that session succeeded. Credential and factory state of the drive are
as before. `Close` between the calls does not help. -/
theorem one_session_per_object (hc : Conforming dr W env st) (hp : Prompt env) (ctx : Ctx) (hf : W < ctx.fuel) (d : Device)
    (hk : d.kind = .opal1 ∨ d.kind = .opal2) (hd : d.baseComId = dr.comId) (ops : List SessOp) (hops : ∀ o ∈ ops, o.Plain ctx)
    (h : Prog.Trace SecReq SecRep) :
    ∃ s rs t, OutT.run env h (sessionHistory ctx d newTcgSession ops) = (.ret (s, rs), t) ∧
      (st (h ++ t)).sid = (st h).sid ∧ (st (h ++ t)).reverts = (st h).reverts ∧
      (((∀ e, .err e ∈ rs → e ≠ none) ∧ (st (h ++ t)).sessions = (st h).sessions) ∨
       (∃ before after o, rs = before ++ .err none :: after ∧ (∀ e, .err e ∈ before → e ≠ none) ∧
         (∀ e, .err e ∈ after → e = some (.tcg 12)) ∧ (∀ r e, .reply r e ∈ after → e = none) ∧
         (st (h ++ t)).sessions = o :: (st h).sessions)) := by
  have hs := opal_ssc hk
  have gen : ∀ (ops : List SessOp), (∀ o ∈ ops, o.Plain ctx) → ∀ (s : Session), s.opened = false → s.hsn = 0 ∧ s.tsn = 0 → ∀ h,
    ∃ s' rs t, OutT.run env h (sessionHistory ctx d s ops) = (.ret (s', rs), t) ∧
      (st (h ++ t)).sid = (st h).sid ∧ (st (h ++ t)).reverts = (st h).reverts ∧
      (((∀ e, .err e ∈ rs → e ≠ none) ∧ (st (h ++ t)).sessions = (st h).sessions) ∨
       (∃ before after o, rs = before ++ .err none :: after ∧ (∀ e, .err e ∈ before → e ≠ none) ∧
         (∀ e, .err e ∈ after → e = some (.tcg 12)) ∧ (∀ r e, .reply r e ∈ after → e = none) ∧
         (st (h ++ t)).sessions = o :: (st h).sessions)) := by
    intro ops
    induction ops with
    | nil =>
      intro _ s _ _ h
      exact ⟨s, [], [], rfl, by rw [List.append_nil], by rw [List.append_nil], .inl ⟨by simp, by rw [List.append_nil]⟩⟩
    | cons op ops ih =>
      intro hops s hso hn h
      have hops' : ∀ o ∈ ops, o.Plain ctx := fun o ho => hops o (List.mem_cons_of_mem _ ho)
      obtain ⟨s1, rs1, t1, k1, k2, hcase⟩ := fresh_call hc hp ctx d hd hs hf op (hops op (List.mem_cons_self ..)) s hso h hn
      rcases hcase with ⟨n1, n2, k3, k4⟩ | ⟨rfl, k3, k4, k5, o, k6⟩
      · obtain ⟨s2, rs2, t2, m1, m2, m3, m4⟩ := ih hops' s1 k2 ⟨n1, n2⟩ (h ++ t1)
        refine ⟨s2, rs1 ++ rs2, t1 ++ t2, ?_, ?_, ?_, ?_⟩
        · rw [sessionHistory, OutT.run_bind, k1]
          simp only
          rw [OutT.run_bind, m1]
          simp only [OutT.run_ret, List.append_nil]
        · rw [← List.append_assoc, m2, k3.1]
        · rw [← List.append_assoc, m3, k3.2.2]
        · rw [← List.append_assoc]
          rcases m4 with ⟨m5, m6⟩ | ⟨before, after, o, rfl, m5, m6, m7, m8⟩
          · left
            refine ⟨?_, by rw [m6, k3.2.1]⟩
            intro e he
            rcases List.mem_append.1 he with he | he
            · exact k4 e he
            · exact m5 e he
          · right
            refine ⟨rs1 ++ before, after, o, by rw [List.append_assoc], ?_, m6, m7, by rw [m8, k3.2.1]⟩
            intro e he
            rcases List.mem_append.1 he with he | he
            · exact k4 e he
            · exact m5 e he
      · obtain ⟨s2, rs2, t2, m1, _, _, m2, m3, m4⟩ := held_history hc hp ctx d hd hs hf ops hops' s1 k2 (h ++ t1) k3
        refine ⟨s2, [.err none] ++ rs2, t1 ++ t2, ?_, ?_, ?_, .inr ⟨[], rs2, o, rfl, by simp, m3, m4, ?_⟩⟩
        · rw [sessionHistory, OutT.run_bind, k1]
          simp only
          rw [OutT.run_bind, m1]
          simp only [OutT.run_ret, List.append_nil]
        · rw [← List.append_assoc, m2.1, k4]
        · rw [← List.append_assoc, m2.2.2, k5]
        · rw [← List.append_assoc, m2.2.1, k6]
  exact gen ops hops newTcgSession rfl ⟨rfl, rfl⟩ h

/-! ## After the session has ended -/

theorem Prog.run_inv {α : Type} {A : SecReq → Prop} {I : DriveState → Prop}
    (hstep : ∀ h q, A q → I (st h) → I (st (h ++ [(q, env h q)]))) (p : Prog SecReq SecRep α) :
    Prog.Asks A p → ∀ h, I (st h) → I (st (h ++ (Prog.run env h p).2)) := by
  induction p with
  | done a => intro _ h hI; rw [Prog.run_done, List.append_nil]; exact hI
  | ask q k ih =>
    intro hA h hI
    have := ih (env h q) (hA.2 _) (h ++ [(q, env h q)]) (hstep h q hA.1 hI)
    rw [Prog.run_ask]
    rw [List.append_assoc] at this
    exact this

/-- The object's session is not (or no longer) open on the drive, and the object does not know. -/
def OutOfSession (s : Session) (σ : DriveState) : Prop :=
  ¬ (s.tperNumber = 0 ∧ s.hostNumber = 0) ∧ σ.sessions.find? (fun o => o.tper == s.tperNumber && o.host == s.hostNumber) = none

/-- What such an object asks of the drive. -/
def StaleReq (dr : Drive) (s : Session) : SecReq → Prop
  | .now => True
  | .sleep _ => True
  | .sec false dma p c data _ => dma = false ∧ p = 1 ∧ c = dr.comId ∧ data = zeros 2048
  | .sec true dma p c data _ => dma = false ∧ p = 1 ∧ c = dr.comId ∧ data.length ≤ 4096 ∧ 512 ∣ data.length ∧
      ∃ k, readPacket data = some k ∧ k.comId = dr.comId.toNat ∧ k.tsn = s.tperNumber ∧ k.hsn = s.hostNumber

theorem stale_step (hc : SharedDrive dr W env st) (s : Session) (σ : DriveState) (hs : OutOfSession s σ) (h : Prog.Trace SecReq SecRep)
    (q : SecReq) (hq : StaleReq dr s q) (hI : SameBut (st h) σ) : SameBut (st (h ++ [(q, env h q)])) σ := by
  cases q with
  | now => rw [hc.now]; exact hI
  | sleep ns => rw [hc.sleep]; exact hI
  | sec rw dma p c data secs =>
    cases rw with
    | false =>
      obtain ⟨rfl, rfl, rfl, rfl⟩ := hq
      cases ha : (st h).answer with
      | none => rw [hc.idle h secs ha]; exact hI
      | some a =>
        cases hw : (st h).wait with
        | zero => rw [(hc.ready h secs a ha hw).2.2]; exact hI
        | succ w => rw [(hc.notReady h secs a w ha hw).2.2]; exact hI
    | true =>
      obtain ⟨rfl, rfl, rfl, h1, h2, k, h3, h4, h5, h6⟩ := hq
      obtain ⟨_, tper, w, _, _, hst⟩ := hc.send h data secs k h1 h2 h3 h4
      rw [hst]
      have : SameBut (dr.perform tper (st h) k) σ := by
        unfold Drive.perform
        cases readCall k.tokens with
        | none => exact hI
        | some cl =>
          simp only
          have hnone := hs.2
          rw [← hI.2.1] at hnone
          rw [h5, h6, if_neg hs.1, hnone]
          exact hI
      exact this

/-- C154: when the session of an object has ended on the drive (a Revert ends all sessions; the object keeps its numbers, also over `Close`),
the object is of no more use: a further `Start`, read of the MSID or any other call on it changes nothing on the drive, for every behaviour
of the drive and the clock. No new session is opened. -/
theorem ended_object_is_useless (hc : SharedDrive dr W env st) (ctx : Ctx) (d : Device) (hd : d.baseComId = dr.comId)
    (hk : d.kind = .opal1 ∨ d.kind = .opal2) (op : SessOp) (hop : op.Plain ctx) (s : Session) (h : Prog.Trace SecReq SecRep)
    (hs : OutOfSession s (st h)) : SameBut (st (h ++ (OutT.run env h (op.call ctx d s)).2)) (st h) := by
  have hssc := opal_ssc hk
  have hasks : OutT.Asks (StaleReq dr s) (op.call ctx d s) := by
    have hcmd : ∀ c k, (Cmd.wire (s.stamp d c)).length ≤ 4096 ∧ 512 ∣ (Cmd.wire (s.stamp d c)).length →
        readPacket (Cmd.wire (s.stamp d c)) = some k → k.comId = d.baseComId.toNat → k.tsn = s.tperNumber → k.hsn = s.hostNumber →
        CmdAsks (StaleReq dr s) d (Cmd.wire (s.stamp d c)) := by
      intro c k hl h1 h2 h3 h4
      exact ⟨trivial, fun _ => ⟨trivial, ⟨rfl, rfl, hd, rfl⟩, ⟨rfl, rfl, hd, hl.1, hl.2, k, h1, by rw [h2, hd], h3, h4⟩⟩⟩
    cases op with
    | authenticate a b => exact hop.elim
    | start sp challenge auth =>
      obtain ⟨rfl, hl, u, rfl⟩ := hop
      refine OutT.asks_bind (start_asks_of ctx d s _ challenge _ trivial fun c hm => ?_) fun x => OutT.asks_ret _
      obtain ⟨c', hm', hpk⟩ := start_packet_any ctx d s challenge u hssc (fun _ => hl)
      rw [hm] at hm'
      simp only [P.ret.injEq] at hm'
      subst hm'
      exact hcmd c _ (make_readable_length _ _ _ _ (by simp) s d hm hpk) hpk rfl rfl rfl
    | sendCommand c =>
      have hm : Cmd.make ctx.base (.buf Device.msidTable) (.method M_GET) (Device.getTableOps 3 3) = .ret c := hop
      exact OutT.asks_bind (sendCommand_asks_of ctx d s c (hcmd c _ (make_readable_length _ _ _ _ (by simp) s d hm (getMsid_packet ctx d s hm)) (getMsid_packet ctx d s hm) rfl rfl rfl))
        fun x => OutT.asks_ret _
    | close =>
      refine OutT.asks_bind ?_ fun x => OutT.asks_ret _
      unfold Session.close
      split
      · exact OutT.asks_panic
      · exact OutT.asks_ret _
    | isNoHashPassword => exact OutT.asks_ret _
    | setNoHashPassword b => exact OutT.asks_ret _
    | noAutoClose => exact OutT.asks_ret _
    | setTimeout ms => exact OutT.asks_ret _
  exact Prog.run_inv (I := fun σ => SameBut σ (st h)) (fun h' q hq hI => stale_step hc s (st h) hs h' q hq hI) _ hasks h ⟨rfl, rfl, rfl⟩

end

/-! ## These hypotheses can be met -/

/-- A wrong PSID, then a session without credentials, then two more attempts. -/
def reuse : List SessOp :=
  [.start ADMINSP_UID [1, 2, 3] (.uid PSID_UID), .start ADMINSP_UID [] (.uid UID_HEXFF), .close, .setNoHashPassword true,
   .start ADMINSP_UID [0x50, 0x31] (.uid PSID_UID)]

example : ∀ o ∈ reuse, o.Plain sampleCtx := by
  intro o ho
  simp only [reuse, List.mem_cons, List.not_mem_nil, or_false] at ho
  rcases ho with rfl | rfl | rfl | rfl | rfl
  · exact ⟨rfl, by decide, _, rfl⟩
  · exact ⟨rfl, by decide, _, rfl⟩
  · trivial
  · trivial
  · exact ⟨rfl, by decide, _, rfl⟩

/-- On a drive with room for three sessions the last attempt fails although the PSID is right, and one session is open. -/
example : (match (OutT.run (idealEnv roomyDrive ownedState) [] (sessionHistory sampleCtx shippedDevice newTcgSession reuse)).1 with
    | .ret (_, [.err (some (.tcg 1)), .err none, .err (some (.tcg 12))]) => true | _ => false) = true ∧
    (idealState roomyDrive ownedState (OutT.run (idealEnv roomyDrive ownedState) []
      (sessionHistory sampleCtx shippedDevice newTcgSession reuse)).2).sessions.length = 1 := by
  decide +kernel

/-- On a new object the same call succeeds. -/
example : (match (OutT.run (idealEnv roomyDrive ownedState) [] (sessionHistory sampleCtx shippedDevice newTcgSession
      [.setNoHashPassword true, .start ADMINSP_UID [0x50, 0x31] (.uid PSID_UID)])).1 with
    | .ret (_, [.err none]) => true | _ => false) = true := by
  decide +kernel

/-- An object whose session is not open on the drive. -/
example : OutOfSession { newTcgSession with hsn := 0x69000000, tsn := 0x01000000 } ownedState := by
  refine ⟨?_, ?_⟩ <;> decide

end Dparm
