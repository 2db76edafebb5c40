import Verif.Spec.Sessions
import Verif.Props.Table
import Verif.Props.TperScsi
import Verif.Lemmas.TcgCalls
/-!
# Properties: sessions on a conforming drive, from opening it on (C168)
-/
namespace Dparm
open Spec

/-! ## On the drive -/

section
variable {dr : Drive} {W : Nat} {env : Prog.Env SecReq SecRep} {st : Prog.Trace SecReq SecRep → DriveState}

theorem admits_iff (dr : Drive) (σ : DriveState) (kdf : Kdf) (noHash : Bool) (serial pw : Bytes) (u : UID) :
    dr.admits σ (seenArgs (presented kdf noHash serial pw u)) = true ↔ LetsIn dr σ (shown kdf noHash serial pw u.bytes) := by
  unfold LetsIn shown presented
  by_cases h : pw = []
  · rw [if_pos h]
    exact ⟨fun _ => .inl rfl, fun _ => rfl⟩
  · rw [if_neg h]
    simp only [Drive.admits, seenArgs, Option.map_some, Bool.or_eq_true, Bool.and_eq_true, beq_iff_eq, Option.some.injEq, Prod.mk.injEq,
      reduceCtorEq, false_or]
    exact or_congr and_comm and_comm

/-- **C168.** `Start` of the Admin SP on a new session object, with any password (up to 400 bytes if it is not hashed) and authority: while the
drive has sessions left, it succeeds exactly if the drive lets the credential in, and then exactly one session has been opened, for that
authority, with the right to write, and the object is in it; otherwise it fails with TCG error 1 and nothing has changed. If no session is left
it fails with error 7. -/
theorem start_outcome (hc : Conforming dr W env st) (hp : Prompt env) (ctx : Ctx) (hf : W < ctx.fuel) (d : Device)
    (hk : d.kind = .opal1 ∨ d.kind = .opal2) (hd : d.baseComId = dr.comId) (noHash : Bool) (pw : Bytes) (u : UID)
    (hl : noHash = true → pw.length ≤ 400) (h : Prog.Trace SecReq SecRep) :
    ∃ s e t, OutT.run env h (({ newTcgSession with noHash := noHash } : Session).start ctx d ADMINSP_UID pw (.uid u)) = (.ret (s, e), t) ∧
      (dr.maxSessions ≤ (st h).sessions.length → e = some (.tcg 7) ∧ SameBut (st (h ++ t)) (st h)) ∧
      ((st h).sessions.length < dr.maxSessions → ¬ LetsIn dr (st h) (shown ctx.kdf noHash d.serial pw u.bytes) →
        e = some (.tcg 1) ∧ SameBut (st (h ++ t)) (st h)) ∧
      ((st h).sessions.length < dr.maxSessions → LetsIn dr (st h) (shown ctx.kdf noHash d.serial pw u.bytes) →
        e = none ∧ InSession s (st (h ++ t)) ∧ ∃ tper,
          (st (h ++ t)).sessions = ⟨105, tper, true, if pw = [] then none else some u.bytes⟩ :: (st h).sessions ∧
          (st (h ++ t)).sid = (st h).sid ∧ (st (h ++ t)).reverts = (st h).reverts) := by
  obtain ⟨s0, hs0⟩ : ∃ x : Session, x = { newTcgSession with noHash := noHash } := ⟨_, rfl⟩
  have hn : s0.noHash = noHash := by rw [hs0]
  obtain ⟨cred, hcred⟩ : ∃ x, x = presented ctx.kdf s0.noHash d.serial pw u := ⟨_, rfl⟩
  obtain ⟨tper, ht, hcase⟩ := start_conforming hc ctx d hd (opal_ssc hk) hf s0 pw u (by rw [hn]; exact hl)
    (by rw [hs0]; exact (by decide : leBytes 4 (newTcgSession.hsn.toNat % 2 ^ 32) = [0, 0, 0, 0] ∧ leBytes 4 (newTcgSession.tsn.toNat % 2 ^ 32) = [0, 0, 0, 0])) h (seenArgs cred) (by rw [hcred])
  have hadm := admits_iff dr (st h) ctx.kdf s0.noHash d.serial pw u
  rw [← hcred] at hadm
  rw [hn] at hadm
  rw [← hs0]
  obtain ⟨fr1, fr2⟩ := startSession_frame dr tper (st h) (seenArgs cred)
  rcases hr : OutT.run env h (s0.start ctx d ADMINSP_UID pw (.uid u)) with ⟨o, t⟩
  rw [hr] at hcase
  simp only at hcase
  rcases hcase with ⟨hslow, _⟩ | ⟨hst, ⟨k, hk1, hk2, hk3, rfl⟩ | ⟨s', hroom, hadmit, rfl, hh, htt⟩⟩
  · exact absurd hslow (not_slow hp)
  · have hsame : SameBut (st (h ++ t)) (st h) := by
      have hses : (dr.startSession tper (st h) (seenArgs cred)).sessions = (st h).sessions := by
        refine startSession_refused dr tper (st h) cred ?_
        rcases hk1 with e | e
        · exact .inl (hk2.1 e)
        · exact .inr (hk3 e)
      rw [hst]
      exact ⟨fr1, hses, fr2⟩
    refine ⟨s0, _, t, rfl, fun hfull => ⟨by rw [hk2.2 hfull], hsame⟩, fun hroom _ => ⟨?_, hsame⟩, fun hroom hlet => ?_⟩
    · rcases hk1 with e | e
      · have := hk2.1 e
        omega
      · rw [e]
    · rcases hk1 with e | e
      · have := hk2.1 e
        omega
      · have := hk3 e
        rw [hadm.2 hlet] at this
        cases this
  · have hlet := hadm.1 hadmit
    refine ⟨s', none, t, rfl, fun hfull => absurd hfull hroom, fun _ hno => absurd hlet hno, fun _ _ => ⟨rfl, ?_, tper, ?_, ?_, ?_⟩⟩
    · rw [startSession_open dr tper (st h) cred hroom hadmit] at hst
      have e1 : s'.hostNumber = 105 := by
        unfold Session.hostNumber
        rw [hh, beVal_beBytes]
      have e2 : s'.tperNumber = tper := by
        unfold Session.tperNumber
        rw [htt, beVal_beBytes, Nat.mod_eq_of_lt (by omega)]
      refine ⟨by rw [e1]; omega, ⟨105, tper, true, cred.map (·.2)⟩, ?_⟩
      rw [hst, e1, e2]
      exact List.find?_cons_of_pos (by simp)
    · rw [startSession_open dr tper (st h) cred hroom hadmit] at hst
      rw [hst, hcred]
      unfold presented
      by_cases hpw : pw = []
      · rw [if_pos hpw, if_pos hpw]; rfl
      · rw [if_neg hpw, if_neg hpw]; rfl
    · rw [hst]; exact fr1
    · rw [hst]; exact fr2

/-- The command `Revert` on the Admin SP, as a caller builds it: `Init`, START LIST, END LIST, `Complete`. -/
def revertByHand (ctx : Ctx) (d : Device) (s : Session) : TcgM (Option Resp × Option GoErr) := do
  let c ← OutT.lift (Cmd.make ctx.base (.uid ADMINSP_UID) (.method M_REVERT) [tSTARTLIST, tENDLIST])
  s.sendCommand ctx d c

/-- **C168.** A `Revert` the caller sends in an open session: it resets the drive exactly if the session is a writing one of the SID or the PSID;
otherwise TCG error 1, and nothing has changed. -/
theorem revert_by_hand (hc : Conforming dr W env st) (hp : Prompt env) (ctx : Ctx) (hf : W < ctx.fuel) (d : Device)
    (hk : d.kind = .opal1 ∨ d.kind = .opal2) (hd : d.baseComId = dr.comId) (s : Session) (h : Prog.Trace SecReq SecRep) (o : OpenSession)
    (hz : ¬ (s.tperNumber = 0 ∧ s.hostNumber = 0))
    (ho : (st h).sessions.find? (fun o => o.tper == s.tperNumber && o.host == s.hostNumber) = some o) :
    ∃ r e t, OutT.run env h (revertByHand ctx d s) = (.ret (r, e), t) ∧
      (o.write = true ∧ (o.authority = some sidAuthority ∨ o.authority = some psidAuthority) →
        e = none ∧ st (h ++ t) = ⟨dr.msid, [], none, 0, (st h).reverts + 1⟩) ∧
      (¬ (o.write = true ∧ (o.authority = some sidAuthority ∨ o.authority = some psidAuthority)) →
        e = some (.tcg 1) ∧ SameBut (st (h ++ t)) (st h)) := by
  obtain ⟨c, hm, hpk⟩ := session_packet ctx.base (.uid ADMINSP_UID) (.method M_REVERT) [tSTARTLIST, tENDLIST] s d (by simp)
      revertTokens (revertOps_enc.trans revertCall_tokens) (by decide) (by decide) _ _ (leBytes_own s.hsn.toNat).2 (leBytes_own s.tsn.toNat).2
      (leBytes_own s.hsn.toNat).1 (leBytes_own s.tsn.toNat).1
  have e0 : revertByHand ctx d s = s.sendCommand ctx d c := by unfold revertByHand; rw [hm]; rfl
  have hperf : ∀ tper com, dr.perform tper (st h) ⟨com, s.tperNumber, s.hostNumber, revertTokens ++ trailerTokens⟩ =
      dr.method (st h) o ⟨adminSP, mRevert, []⟩ := by
    intro tper com
    unfold Drive.perform
    rw [revertTokens_read]
    simp only
    rw [if_neg hz, ho]
  rw [e0]
  by_cases hw : o.write = true ∧ (o.authority = some sidAuthority ∨ o.authority = some psidAuthority)
  · obtain ⟨r, t, h1, h2⟩ := send_answered hc hp ctx d hd (opal_ssc hk) hf s c h _ hpk (by rw [hd])
      (make_readable_length _ _ _ _ (by simp) s d hm hpk) .done { st h with sid := dr.msid, sessions := [], reverts := (st h).reverts + 1 } (fun tper => by
        refine (hperf tper _).trans ?_
        unfold Drive.method
        rw [if_pos ⟨rfl, rfl, rfl⟩, if_pos hw])
      (by intro k hk; cases hk)
    exact ⟨some r, none, t, h1, fun _ => ⟨rfl, h2⟩, fun x => absurd hw x⟩
  · obtain ⟨r, t, h1, h2⟩ := send_answered hc hp ctx d hd (opal_ssc hk) hf s c h _ hpk (by rw [hd])
      (make_readable_length _ _ _ _ (by simp) s d hm hpk) (.refused 1) (st h) (fun tper => by
        refine (hperf tper _).trans ?_
        unfold Drive.method
        rw [if_pos ⟨rfl, rfl, rfl⟩, if_neg hw])
      (by intro k hk; simp only [Answer.refused.injEq] at hk; omega)
    exact ⟨some r, some (.tcg 1), t, h1, fun x => absurd x hw, fun _ => ⟨rfl, by rw [h2]; exact ⟨rfl, rfl, rfl⟩⟩⟩

end

/-! ## What the calls ask -/

section
attribute [local irreducible] OutT.Asks

theorem getTable_asks (ctx : Ctx) (recv d : Device) (s : Session) (t : Bytes) (a b : BitVec 16) :
    OutT.Asks (TcgAsk d.baseComId) (recv.getTable ctx d s t a b) := by
  have hg : OutT.Asks (TcgAsk d.baseComId) (d.opalGetTable ctx s t a b) := by
    unfold Device.opalGetTable
    exact OutT.asks_lift_bind (fun cmd hc => sendCommand_asks ctx d s cmd (make_wire_length _ _ _ _ s d hc))
  unfold Device.getTable
  split
  · exact OutT.asks_ret _
  · exact OutT.asks_ret _
  · exact hg
  · exact hg

theorem plain_asks (ctx : Ctx) (d : Device) (op : SessOp) (hop : op.Plain ctx) (s : Session) :
    OutT.Asks (TcgAsk d.baseComId) (op.call ctx d s) := by
  cases op with
  | start sp ch au => exact OutT.asks_bind (start_asks ctx d s sp ch au) (fun _ => OutT.asks_ret _)
  | authenticate a b => exact hop.elim
  | sendCommand c =>
    exact OutT.asks_bind (sendCommand_asks ctx d s c (make_wire_length _ _ _ _ s d hop)) (fun _ => OutT.asks_ret _)
  | close =>
    simp only [SessOp.call]
    refine OutT.asks_bind ?_ (fun _ => OutT.asks_ret _)
    unfold Session.close
    split
    · exact OutT.asks_panic
    · exact OutT.asks_ret _
  | isNoHashPassword => exact OutT.asks_ret _
  | setNoHashPassword b => exact OutT.asks_ret _
  | noAutoClose => exact OutT.asks_ret _
  | setTimeout ms => exact OutT.asks_ret _

theorem history_asks (ctx : Ctx) (d : Device) (ops : List SessOp) (hops : ∀ x ∈ ops, x.Plain ctx) :
    ∀ s, OutT.Asks (TcgAsk d.baseComId) (sessionHistory ctx d s ops) := by
  induction ops with
  | nil => intro s; exact OutT.asks_ret _
  | cons op ops ih =>
    intro s
    rw [sessionHistory]
    refine OutT.asks_bind (plain_asks ctx d op (hops op (List.mem_cons_self ..)) s) fun x => ?_
    exact OutT.asks_bind (ih (fun y hy => hops y (List.mem_cons_of_mem _ hy)) x.1) (fun _ => OutT.asks_ret _)

end

/-! ## From opening it on -/

variable {dr : Drive} {W : Nat} {env : Prog.Env AReq ARep} {st : Prog.Trace AReq ARep → DriveState} {o : Opened}

/-- Whatever drives the device, the library's TCG code runs on it as on the reference drive. -/
theorem opened_runs (ho : OpenedOn o dr W env st) :
    (o.tcgDevice.kind = .opal1 ∨ o.tcgDevice.kind = .opal2) ∧ o.tcgDevice.baseComId = dr.comId ∧
    ∀ h, Conforming dr W (envOn o env h) (stateOn o env h st) ∧
      ∀ {α : Type} (comId : BitVec 16) (p : TcgM α), OutT.Asks (TcgAsk comId) p →
        (OutT.run env h (tcgOnLinux o p)).1 = (OutT.run (envOn o env h) [] p).1 ∧
        st (h ++ (OutT.run env h (tcgOnLinux o p)).2) = stateOn o env h st (OutT.run (envOn o env h) [] p).2 := by
  obtain ⟨order, path, h₀, fd, hopen, ⟨hs, hc⟩ | ⟨hs, hc⟩⟩ := ho
  · obtain ⟨hn, hk, hd, -⟩ := open_conforming hc order path h₀ o hopen hs
    exact ⟨hk, hd, fun h => ⟨conforming_on_nvme hc hn h, fun comId p hp => run_on_nvme hn comId p hp env h st⟩⟩
  · obtain ⟨hn, hk, hd, -⟩ := open_conforming' hc order path h₀ o hopen hs
    exact ⟨hk, hd, fun h => ⟨conforming_on_scsi hc hn h, fun comId p hp => run_on_scsi hn comId p hp env h st⟩⟩

/-- The outcome of one run from what the reference drive says about it. -/
theorem on_opened (ho : OpenedOn o dr W env st) (hp : PromptSystem env) (h : Prog.Trace AReq ARep) {α : Type} (comId : BitVec 16)
    (p : TcgM α) (ha : OutT.Asks (TcgAsk comId) p) (Q : Out α → DriveState → DriveState → Prop)
    (hq : ∀ (env' : Prog.Env SecReq SecRep) (st' : Prog.Trace SecReq SecRep → DriveState), Conforming dr W env' st' → Prompt env' →
      Q (OutT.run env' [] p).1 (st' []) (st' ([] ++ (OutT.run env' [] p).2))) :
    Q (OutT.run env h (tcgOnLinux o p)).1 (st h) (st (h ++ (OutT.run env h (tcgOnLinux o p)).2)) := by
  obtain ⟨-, -, hr⟩ := opened_runs ho
  obtain ⟨hc, hrun⟩ := hr h
  obtain ⟨e1, e2⟩ := hrun comId p ha
  have := hq _ _ hc (prompt_on hp h)
  rw [List.nil_append] at this
  rw [e1, e2]
  exact this

section
attribute [local irreducible] OutT.Asks Session.start sessionHistory Device.getTable revertByHand

/-- **C168.** `Start` on an opened drive: the same outcomes, from opening the node on, whichever driver it has. -/
theorem start_outcome_opened (ho : OpenedOn o dr W env st) (hp : PromptSystem env) (ctx : Ctx) (hf : W < ctx.fuel) (noHash : Bool)
    (pw : Bytes) (u : UID) (hl : noHash = true → pw.length ≤ 400) (h : Prog.Trace AReq ARep) :
    ∃ s e t, OutT.run env h (tcgOnLinux o
        (({ newTcgSession with noHash := noHash } : Session).start ctx o.tcgDevice ADMINSP_UID pw (.uid u))) = (.ret (s, e), t) ∧
      (dr.maxSessions ≤ (st h).sessions.length → e = some (.tcg 7) ∧ SameBut (st (h ++ t)) (st h)) ∧
      ((st h).sessions.length < dr.maxSessions → ¬ LetsIn dr (st h) (shown ctx.kdf noHash o.tcgDevice.serial pw u.bytes) →
        e = some (.tcg 1) ∧ SameBut (st (h ++ t)) (st h)) ∧
      ((st h).sessions.length < dr.maxSessions → LetsIn dr (st h) (shown ctx.kdf noHash o.tcgDevice.serial pw u.bytes) →
        e = none ∧ InSession s (st (h ++ t)) ∧ ∃ tper,
          (st (h ++ t)).sessions = ⟨105, tper, true, if pw = [] then none else some u.bytes⟩ :: (st h).sessions ∧
          (st (h ++ t)).sid = (st h).sid ∧ (st (h ++ t)).reverts = (st h).reverts) := by
  obtain ⟨hk, hd, -⟩ := opened_runs ho
  have := on_opened ho hp h o.tcgDevice.baseComId _
    (start_asks ctx o.tcgDevice { newTcgSession with noHash := noHash } ADMINSP_UID pw (.uid u))
    (fun r σ σ' => ∃ s e, r = .ret (s, e) ∧
      (dr.maxSessions ≤ σ.sessions.length → e = some (.tcg 7) ∧ SameBut σ' σ) ∧
      (σ.sessions.length < dr.maxSessions → ¬ LetsIn dr σ (shown ctx.kdf noHash o.tcgDevice.serial pw u.bytes) →
        e = some (.tcg 1) ∧ SameBut σ' σ) ∧
      (σ.sessions.length < dr.maxSessions → LetsIn dr σ (shown ctx.kdf noHash o.tcgDevice.serial pw u.bytes) →
        e = none ∧ InSession s σ' ∧ ∃ tper,
          σ'.sessions = ⟨105, tper, true, if pw = [] then none else some u.bytes⟩ :: σ.sessions ∧
          σ'.sid = σ.sid ∧ σ'.reverts = σ.reverts))
    (fun env' st' hc hp' => by
      obtain ⟨s, e, t, h1, h2⟩ := start_outcome hc hp' ctx hf o.tcgDevice hk hd noHash pw u hl []
      rw [h1]
      exact ⟨s, e, rfl, h2⟩)
  obtain ⟨s, e, h1, h2⟩ := this
  exact ⟨s, e, _, Prod.ext h1 rfl, h2⟩

/-- **C168.** `OpalGetTable` on an opened drive, in an open session. -/
theorem table_outcome_opened (ho : OpenedOn o dr W env st) (hp : PromptSystem env) (ctx : Ctx) (hf : W < ctx.fuel) (recv : Device)
    (hr : recv.kind = .opal1 ∨ recv.kind = .opal2) (s : Session) (uid : Bytes) (hu : uid.length = 8) (first last : BitVec 16)
    (h : Prog.Trace AReq ARep) (hH : InSession s (st h)) :
    ∃ r t, OutT.run env h (tcgOnLinux o (recv.getTable ctx o.tcgDevice s (0xa8 :: uid) first last)) =
        (.ret (some r, if uid = cPinMsid ∧ first = 3 ∧ last = 3 then none else some (.tcg 12)), t) ∧
      SameBut (st (h ++ t)) (st h) ∧
      (uid = cPinMsid ∧ first = 3 ∧ last = 3 → ∃ b, r.getToken 4 = .ret (some b) ∧ Tok.getString b = .ok dr.msid) := by
  obtain ⟨hk, hd, -⟩ := opened_runs ho
  have := on_opened ho hp h o.tcgDevice.baseComId _
    (getTable_asks ctx recv o.tcgDevice s (0xa8 :: uid) first last)
    (fun x σ σ' => InSession s σ → ∃ r, x = .ret (some r, if uid = cPinMsid ∧ first = 3 ∧ last = 3 then none else some (.tcg 12)) ∧
      SameBut σ' σ ∧
      (uid = cPinMsid ∧ first = 3 ∧ last = 3 → ∃ b, r.getToken 4 = .ret (some b) ∧ Tok.getString b = .ok dr.msid))
    (fun env' st' hc hp' hH' => by
      obtain ⟨r, t, h1, h2⟩ := table_conforming hc hp' ctx recv o.tcgDevice hr hd (opal_ssc hk) hf s uid hu first last [] hH'
      rw [h1]
      exact ⟨r, rfl, h2⟩) hH
  obtain ⟨r, h1, h2⟩ := this
  exact ⟨r, _, Prod.ext h1 rfl, h2⟩

/-- **C168.** A `Revert` the caller sends on an opened drive, in an open session. -/
theorem revert_by_hand_opened (ho : OpenedOn o dr W env st) (hp : PromptSystem env) (ctx : Ctx) (hf : W < ctx.fuel) (s : Session)
    (h : Prog.Trace AReq ARep) (x : OpenSession) (hz : ¬ (s.tperNumber = 0 ∧ s.hostNumber = 0))
    (hx : (st h).sessions.find? (fun o => o.tper == s.tperNumber && o.host == s.hostNumber) = some x) :
    ∃ r e t, OutT.run env h (tcgOnLinux o (revertByHand ctx o.tcgDevice s)) = (.ret (r, e), t) ∧
      (x.write = true ∧ (x.authority = some sidAuthority ∨ x.authority = some psidAuthority) →
        e = none ∧ st (h ++ t) = ⟨dr.msid, [], none, 0, (st h).reverts + 1⟩) ∧
      (¬ (x.write = true ∧ (x.authority = some sidAuthority ∨ x.authority = some psidAuthority)) →
        e = some (.tcg 1) ∧ SameBut (st (h ++ t)) (st h)) := by
  obtain ⟨hk, hd, -⟩ := opened_runs ho
  have ha : OutT.Asks (TcgAsk o.tcgDevice.baseComId) (revertByHand ctx o.tcgDevice s) := by
    rw [revertByHand]
    exact OutT.asks_lift_bind (fun cmd hc => sendCommand_asks ctx o.tcgDevice s cmd (make_wire_length _ _ _ _ s o.tcgDevice hc))
  have := on_opened ho hp h o.tcgDevice.baseComId _ ha
    (fun y σ σ' => σ.sessions.find? (fun o => o.tper == s.tperNumber && o.host == s.hostNumber) = some x → ∃ r e, y = .ret (r, e) ∧
      (x.write = true ∧ (x.authority = some sidAuthority ∨ x.authority = some psidAuthority) →
        e = none ∧ σ' = ⟨dr.msid, [], none, 0, σ.reverts + 1⟩) ∧
      (¬ (x.write = true ∧ (x.authority = some sidAuthority ∨ x.authority = some psidAuthority)) →
        e = some (.tcg 1) ∧ SameBut σ' σ))
    (fun env' st' hc hp' hx' => by
      obtain ⟨r, e, t, h1, h2⟩ := revert_by_hand hc hp' ctx hf o.tcgDevice hk hd s [] x hz hx'
      rw [h1]
      exact ⟨r, e, rfl, h2⟩) hx
  obtain ⟨r, e, h1, h2⟩ := this
  exact ⟨r, e, _, Prod.ext h1 rfl, h2⟩

/-- **C168.** Any history of calls on one session object of an opened drive (C154). -/
theorem one_session_opened (ho : OpenedOn o dr W env st) (hp : PromptSystem env) (ctx : Ctx) (hf : W < ctx.fuel) (ops : List SessOp)
    (hops : ∀ x ∈ ops, x.Plain ctx) (h : Prog.Trace AReq ARep) :
    ∃ s rs t, OutT.run env h (tcgOnLinux o (sessionHistory ctx o.tcgDevice newTcgSession ops)) = (.ret (s, rs), t) ∧
      (st (h ++ t)).sid = (st h).sid ∧ (st (h ++ t)).reverts = (st h).reverts ∧
      (((∀ e, .err e ∈ rs → e ≠ none) ∧ (st (h ++ t)).sessions = (st h).sessions) ∨
       (∃ before after x, rs = before ++ .err none :: after ∧ (∀ e, .err e ∈ before → e ≠ none) ∧
         (∀ e, .err e ∈ after → e = some (.tcg 12)) ∧ (∀ r e, .reply r e ∈ after → e = none) ∧
         (st (h ++ t)).sessions = x :: (st h).sessions)) := by
  obtain ⟨hk, hd, -⟩ := opened_runs ho
  have := on_opened ho hp h o.tcgDevice.baseComId _ (history_asks ctx o.tcgDevice ops hops newTcgSession)
    (fun y σ σ' => ∃ s rs, y = .ret (s, rs) ∧ σ'.sid = σ.sid ∧ σ'.reverts = σ.reverts ∧
      (((∀ e, .err e ∈ rs → e ≠ none) ∧ σ'.sessions = σ.sessions) ∨
       (∃ before after x, rs = before ++ .err none :: after ∧ (∀ e, .err e ∈ before → e ≠ none) ∧
         (∀ e, .err e ∈ after → e = some (.tcg 12)) ∧ (∀ r e, .reply r e ∈ after → e = none) ∧
         σ'.sessions = x :: σ.sessions)))
    (fun env' st' hc hp' => by
      obtain ⟨s, rs, t, h1, h2⟩ := one_session_per_object hc hp' ctx hf o.tcgDevice hk hd ops hops []
      rw [h1]
      exact ⟨s, rs, rfl, h2⟩)
  obtain ⟨s, rs, h1, h2⟩ := this
  exact ⟨s, rs, _, Prod.ext h1 rfl, h2⟩

end

/-! ## These hypotheses can be met -/

theorem opened_nvme_sample : ∃ o, OpenedOn o shippedDrive 0 (idealNvme 3 shippedDrive ownedState) (idealNvmeState 3 shippedDrive ownedState) := by
  obtain ⟨o, ho, hs⟩ := opens_owned
  exact ⟨o, _, _, _, 3, ho, .inl ⟨hs, idealNvme_conforming 3 shippedDrive (by decide) (by decide) ownedState rfl rfl⟩⟩

theorem opened_scsi_sample : ∃ o, OpenedOn o shippedDrive 0 (idealScsi 3 shippedDrive ownedState) (idealScsiState 3 shippedDrive ownedState) := by
  obtain ⟨o, ho, hs⟩ := opens_owned_scsi
  exact ⟨o, _, _, _, 3, ho, .inr ⟨hs, idealScsi_conforming 3 shippedDrive (by decide) (by decide) ownedState rfl rfl⟩⟩

/-- On an NVMe drive the owner starts a session with the password and reverts the drive by hand; no second session would have been left. -/
example : ∃ o s t r t', OutT.run (idealNvme 3 shippedDrive ownedState) []
      (tcgOnLinux o (newTcgSession.start sampleCtx o.tcgDevice ADMINSP_UID [0x70, 0x77] (.uid SID_UID))) = (.ret (s, none), t) ∧
    OutT.run (idealNvme 3 shippedDrive ownedState) t (tcgOnLinux o (revertByHand sampleCtx o.tcgDevice s)) = (.ret (r, none), t') ∧
    idealNvmeState 3 shippedDrive ownedState (t ++ t') = ⟨[0x4d, 0x31], [], none, 0, 1⟩ ∧
    ∃ s' t'', OutT.run (idealNvme 3 shippedDrive ownedState) t
      (tcgOnLinux o (newTcgSession.start sampleCtx o.tcgDevice ADMINSP_UID [] (.uid SID_UID))) = (.ret (s', some (.tcg 7)), t'') := by
  obtain ⟨o, ho⟩ := opened_nvme_sample
  have hpr := idealNvme_prompt 3 shippedDrive ownedState
  obtain ⟨s, e, t, h1, -, -, h2⟩ := start_outcome_opened ho hpr sampleCtx (by decide) false [0x70, 0x77] SID_UID (by simp) []
  obtain ⟨rfl, ⟨hz, x, hx⟩, tper, h3, -, h4⟩ := h2 (by decide) (.inr (.inr rfl))
  have hx' : x = ⟨105, tper, true, some SID_UID.bytes⟩ := by
    have := List.mem_of_find?_eq_some hx
    rw [h3] at this
    simpa [idealNvmeState, ownedState] using this
  obtain ⟨r, e, t', k1, k2, -⟩ := revert_by_hand_opened ho hpr sampleCtx (by decide) s t x hz hx
  obtain ⟨rfl, k3⟩ := k2 (by rw [hx']; exact ⟨rfl, .inl rfl⟩)
  obtain ⟨s', e', t'', m1, m2, -⟩ := start_outcome_opened ho hpr sampleCtx (by decide) false [] SID_UID (by simp) t
  obtain ⟨rfl, -⟩ := m2 (by rw [show idealNvmeState 3 shippedDrive ownedState t = idealNvmeState 3 shippedDrive ownedState ([] ++ t) from rfl, h3]; exact Nat.le_refl _)
  refine ⟨o, s, t, r, t', h1, k1, ?_, s', t'', m1⟩
  rw [k3]
  rw [List.nil_append] at h4
  rw [h4]
  rfl

/-- On a SCSI drive a wrong PSID is refused; a session without credentials can read the MSID and nothing else. -/
example : ∃ o s t s1 t1 r t2 r' t3, OutT.run (idealScsi 3 shippedDrive ownedState) []
      (tcgOnLinux o (({ newTcgSession with noHash := true } : Session).start sampleCtx o.tcgDevice ADMINSP_UID [0x50, 0x32] (.uid PSID_UID)))
        = (.ret (s, some (.tcg 1)), t) ∧
    OutT.run (idealScsi 3 shippedDrive ownedState) []
      (tcgOnLinux o (newTcgSession.start sampleCtx o.tcgDevice ADMINSP_UID [] (.uid UID_HEXFF))) = (.ret (s1, none), t1) ∧
    OutT.run (idealScsi 3 shippedDrive ownedState) t1
      (tcgOnLinux o (o.tcgDevice.getTable sampleCtx o.tcgDevice s1 (0xa8 :: cPinMsid) 3 3)) = (.ret (some r, none), t2) ∧
    (∃ b, r.getToken 4 = .ret (some b) ∧ Tok.getString b = .ok [0x4d, 0x31]) ∧
    OutT.run (idealScsi 3 shippedDrive ownedState) t1
      (tcgOnLinux o (o.tcgDevice.getTable sampleCtx o.tcgDevice s1 (0xa8 :: [0, 0, 0, 0x0b, 0, 0, 0, 1]) 3 3)) = (.ret (some r', some (.tcg 12)), t3) := by
  obtain ⟨o, ho⟩ := opened_scsi_sample
  have hpr := idealScsi_prompt 3 shippedDrive ownedState
  have hk := (opened_runs ho).1
  obtain ⟨s, e, t, h1, -, h2, -⟩ := start_outcome_opened ho hpr sampleCtx (by decide) true [0x50, 0x32] PSID_UID (by simp) []
  obtain ⟨rfl, -⟩ := h2 (by decide) (by
    rintro (x | x | x)
    · exact absurd x (by simp [shown])
    · simp [shown, challengeValue, shippedDrive] at x
    · have y := congrArg (fun y => (y.map (·.2)).getD []) x
      exact absurd (show PSID_UID.bytes = sidAuthority from y) (by decide))
  obtain ⟨s1, e1, t1, i1, -, -, i2⟩ := start_outcome_opened ho hpr sampleCtx (by decide) false [] UID_HEXFF (by simp) []
  obtain ⟨rfl, hin, -⟩ := i2 (by decide) (.inl rfl)
  rw [List.nil_append] at hin
  obtain ⟨r, t2, j1, -, j2⟩ := table_outcome_opened ho hpr sampleCtx (by decide) o.tcgDevice hk s1 cPinMsid rfl 3 3 t1 hin
  obtain ⟨r', t3, m1, -, -⟩ := table_outcome_opened ho hpr sampleCtx (by decide) o.tcgDevice hk s1 [0, 0, 0, 0x0b, 0, 0, 0, 1] rfl 3 3 t1 hin
  exact ⟨o, s, t, s1, t1, r, t2, r', t3, h1, i1, j1, j2 ⟨rfl, rfl, rfl⟩, m1⟩

/-- A history of calls that keeps to the hypothesis of `one_session_opened`. -/
example : ∀ x ∈ [SessOp.start ADMINSP_UID [0x70] (.uid SID_UID), .close, .start ADMINSP_UID [] (.uid SID_UID)], x.Plain sampleCtx := by
  intro x hx
  simp only [List.mem_cons, List.not_mem_nil, or_false] at hx
  rcases hx with rfl | rfl | rfl
  · exact ⟨rfl, by decide, _, rfl⟩
  · trivial
  · exact ⟨rfl, by decide, _, rfl⟩

end Dparm
