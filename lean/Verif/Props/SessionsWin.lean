import Verif.Props.Sessions
import Verif.Props.TperWinOpen
/-!
# Properties: sessions on a conforming drive behind the Windows miniport, from opening it on (C176)
-/
namespace Dparm
open Spec

variable {o : WinOpened} {dr : Drive} {W : Nat} {env : Prog.Env WAReq WARep} {st : Prog.Trace WAReq WARep → DriveState}

theorem opened_win_runs (ho : OpenedOnWin o dr W env st) :
    (o.tcgDevice.kind = .opal1 ∨ o.tcgDevice.kind = .opal2) ∧ o.tcgDevice.baseComId = dr.comId ∧
    ∀ h, Conforming dr W (envOnWin o env h) (stateOnWin o env h st) ∧
      ∀ {α : Type} (comId : BitVec 16) (p : TcgM α), OutT.Asks (TcgAsk comId) p →
        (OutT.run env h (tcgOnWindows o p)).1 = (OutT.run (envOnWin o env h) [] p).1 ∧
        st (h ++ (OutT.run env h (tcgOnWindows o p)).2) = stateOnWin o env h st (OutT.run (envOnWin o env h) [] p).2 := by
  obtain ⟨w, b, b', path, h₀, hd, sh, hopen, hs, hc, ha⟩ := ho
  obtain ⟨hn, hk, hcom, -⟩ := win_open_conforming hc ha w b b' path h₀ o hd hopen hs
  exact ⟨hk, hcom, fun h => ⟨conforming_on_miniport hc hn h, fun comId p hp => run_on_miniport hn comId p hp env h st⟩⟩

/-- The outcome of one run from what the reference drive says about it. -/
theorem on_opened_win (ho : OpenedOnWin o dr W env st) (hp : PromptWindows env) (h : Prog.Trace WAReq WARep) {α : Type} (comId : BitVec 16)
    (p : TcgM α) (ha : OutT.Asks (TcgAsk comId) p) (Q : Out α → DriveState → DriveState → Prop)
    (hq : ∀ (env' : Prog.Env SecReq SecRep) (st' : Prog.Trace SecReq SecRep → DriveState), Conforming dr W env' st' → Prompt env' →
      Q (OutT.run env' [] p).1 (st' []) (st' ([] ++ (OutT.run env' [] p).2))) :
    Q (OutT.run env h (tcgOnWindows o p)).1 (st h) (st (h ++ (OutT.run env h (tcgOnWindows o p)).2)) := by
  obtain ⟨-, -, hr⟩ := opened_win_runs ho
  obtain ⟨hc, hrun⟩ := hr h
  obtain ⟨e1, e2⟩ := hrun comId p ha
  have := hq _ _ hc (prompt_on_win hp h)
  rw [List.nil_append] at this
  rw [e1, e2]
  exact this

section
attribute [local irreducible] OutT.Asks Session.start sessionHistory Device.getTable revertByHand

/-- **C176.** `Start` on an opened drive: the same outcomes, from opening the path on. -/
theorem start_outcome_opened_win (ho : OpenedOnWin o dr W env st) (hp : PromptWindows env) (ctx : Ctx) (hf : W < ctx.fuel) (noHash : Bool)
    (pw : Bytes) (u : UID) (hl : noHash = true → pw.length ≤ 400) (h : Prog.Trace WAReq WARep) :
    ∃ s e t, OutT.run env h (tcgOnWindows o
        (({ newTcgSession with noHash := noHash } : Session).start ctx o.tcgDevice ADMINSP_UID pw (.uid u))) = (.ret (s, e), t) ∧
      (dr.maxSessions ≤ (st h).sessions.length → e = some (.tcg 7) ∧ SameBut (st (h ++ t)) (st h)) ∧
      ((st h).sessions.length < dr.maxSessions → ¬ LetsIn dr (st h) (shown ctx.kdf noHash o.tcgDevice.serial pw u.bytes) →
        e = some (.tcg 1) ∧ SameBut (st (h ++ t)) (st h)) ∧
      ((st h).sessions.length < dr.maxSessions → LetsIn dr (st h) (shown ctx.kdf noHash o.tcgDevice.serial pw u.bytes) →
        e = none ∧ InSession s (st (h ++ t)) ∧ ∃ tper,
          (st (h ++ t)).sessions = ⟨105, tper, true, if pw = [] then none else some u.bytes⟩ :: (st h).sessions ∧
          (st (h ++ t)).sid = (st h).sid ∧ (st (h ++ t)).reverts = (st h).reverts) := by
  obtain ⟨hk, hd, -⟩ := opened_win_runs ho
  have := on_opened_win ho hp h o.tcgDevice.baseComId _
    (start_asks ctx o.tcgDevice { newTcgSession with noHash := noHash } ADMINSP_UID pw (.uid u))
    (fun r σ σ' => ∃ s e, r = .ret (s, e) ∧
      (dr.maxSessions ≤ σ.sessions.length → e = some (.tcg 7) ∧ SameBut σ' σ) ∧
      (σ.sessions.length < dr.maxSessions → ¬ LetsIn dr σ (shown ctx.kdf noHash o.tcgDevice.serial pw u.bytes) →
        e = some (.tcg 1) ∧ SameBut σ' σ) ∧
      (σ.sessions.length < dr.maxSessions → LetsIn dr σ (shown ctx.kdf noHash o.tcgDevice.serial pw u.bytes) →
        e = none ∧ InSession s σ' ∧ ∃ tper,
          σ'.sessions = ⟨105, tper, true, if pw = [] then none else some u.bytes⟩ :: σ.sessions ∧
          σ'.sid = σ.sid ∧ σ'.reverts = σ.reverts))
    (fun env' st' hc hp' => by
      obtain ⟨s, e, t, h1, h2⟩ := start_outcome hc hp' ctx hf o.tcgDevice hk hd noHash pw u hl []
      rw [h1]
      exact ⟨s, e, rfl, h2⟩)
  obtain ⟨s, e, h1, h2⟩ := this
  exact ⟨s, e, _, Prod.ext h1 rfl, h2⟩

/-- **C176.** `OpalGetTable` on an opened drive, in an open session. -/
theorem table_outcome_opened_win (ho : OpenedOnWin o dr W env st) (hp : PromptWindows env) (ctx : Ctx) (hf : W < ctx.fuel) (recv : Device)
    (hr : recv.kind = .opal1 ∨ recv.kind = .opal2) (s : Session) (uid : Bytes) (hu : uid.length = 8) (first last : BitVec 16)
    (h : Prog.Trace WAReq WARep) (hH : InSession s (st h)) :
    ∃ r t, OutT.run env h (tcgOnWindows o (recv.getTable ctx o.tcgDevice s (0xa8 :: uid) first last)) =
        (.ret (some r, if uid = cPinMsid ∧ first = 3 ∧ last = 3 then none else some (.tcg 12)), t) ∧
      SameBut (st (h ++ t)) (st h) ∧
      (uid = cPinMsid ∧ first = 3 ∧ last = 3 → ∃ b, r.getToken 4 = .ret (some b) ∧ Tok.getString b = .ok dr.msid) := by
  obtain ⟨hk, hd, -⟩ := opened_win_runs ho
  have := on_opened_win ho hp h o.tcgDevice.baseComId _
    (getTable_asks ctx recv o.tcgDevice s (0xa8 :: uid) first last)
    (fun x σ σ' => InSession s σ → ∃ r, x = .ret (some r, if uid = cPinMsid ∧ first = 3 ∧ last = 3 then none else some (.tcg 12)) ∧
      SameBut σ' σ ∧
      (uid = cPinMsid ∧ first = 3 ∧ last = 3 → ∃ b, r.getToken 4 = .ret (some b) ∧ Tok.getString b = .ok dr.msid))
    (fun env' st' hc hp' hH' => by
      obtain ⟨r, t, h1, h2⟩ := table_conforming hc hp' ctx recv o.tcgDevice hr hd (opal_ssc hk) hf s uid hu first last [] hH'
      rw [h1]
      exact ⟨r, rfl, h2⟩) hH
  obtain ⟨r, h1, h2⟩ := this
  exact ⟨r, _, Prod.ext h1 rfl, h2⟩

/-- **C176.** A `Revert` the caller sends on an opened drive, in an open session. -/
theorem revert_by_hand_opened_win (ho : OpenedOnWin o dr W env st) (hp : PromptWindows env) (ctx : Ctx) (hf : W < ctx.fuel) (s : Session)
    (h : Prog.Trace WAReq WARep) (x : OpenSession) (hz : ¬ (s.tperNumber = 0 ∧ s.hostNumber = 0))
    (hx : (st h).sessions.find? (fun o => o.tper == s.tperNumber && o.host == s.hostNumber) = some x) :
    ∃ r e t, OutT.run env h (tcgOnWindows o (revertByHand ctx o.tcgDevice s)) = (.ret (r, e), t) ∧
      (x.write = true ∧ (x.authority = some sidAuthority ∨ x.authority = some psidAuthority) →
        e = none ∧ st (h ++ t) = ⟨dr.msid, [], none, 0, (st h).reverts + 1⟩) ∧
      (¬ (x.write = true ∧ (x.authority = some sidAuthority ∨ x.authority = some psidAuthority)) →
        e = some (.tcg 1) ∧ SameBut (st (h ++ t)) (st h)) := by
  obtain ⟨hk, hd, -⟩ := opened_win_runs ho
  have ha : OutT.Asks (TcgAsk o.tcgDevice.baseComId) (revertByHand ctx o.tcgDevice s) := by
    rw [revertByHand]
    exact OutT.asks_lift_bind (fun cmd hc => sendCommand_asks ctx o.tcgDevice s cmd (make_wire_length _ _ _ _ s o.tcgDevice hc))
  have := on_opened_win ho hp h o.tcgDevice.baseComId _ ha
    (fun y σ σ' => σ.sessions.find? (fun o => o.tper == s.tperNumber && o.host == s.hostNumber) = some x → ∃ r e, y = .ret (r, e) ∧
      (x.write = true ∧ (x.authority = some sidAuthority ∨ x.authority = some psidAuthority) →
        e = none ∧ σ' = ⟨dr.msid, [], none, 0, σ.reverts + 1⟩) ∧
      (¬ (x.write = true ∧ (x.authority = some sidAuthority ∨ x.authority = some psidAuthority)) →
        e = some (.tcg 1) ∧ SameBut σ' σ))
    (fun env' st' hc hp' hx' => by
      obtain ⟨r, e, t, h1, h2⟩ := revert_by_hand hc hp' ctx hf o.tcgDevice hk hd s [] x hz hx'
      rw [h1]
      exact ⟨r, e, rfl, h2⟩) hx
  obtain ⟨r, e, h1, h2⟩ := this
  exact ⟨r, e, _, Prod.ext h1 rfl, h2⟩

/-- **C176.** Any history of calls on one session object of an opened drive (C154). -/
theorem one_session_opened_win (ho : OpenedOnWin o dr W env st) (hp : PromptWindows env) (ctx : Ctx) (hf : W < ctx.fuel) (ops : List SessOp)
    (hops : ∀ x ∈ ops, x.Plain ctx) (h : Prog.Trace WAReq WARep) :
    ∃ s rs t, OutT.run env h (tcgOnWindows o (sessionHistory ctx o.tcgDevice newTcgSession ops)) = (.ret (s, rs), t) ∧
      (st (h ++ t)).sid = (st h).sid ∧ (st (h ++ t)).reverts = (st h).reverts ∧
      (((∀ e, .err e ∈ rs → e ≠ none) ∧ (st (h ++ t)).sessions = (st h).sessions) ∨
       (∃ before after x, rs = before ++ .err none :: after ∧ (∀ e, .err e ∈ before → e ≠ none) ∧
         (∀ e, .err e ∈ after → e = some (.tcg 12)) ∧ (∀ r e, .reply r e ∈ after → e = none) ∧
         (st (h ++ t)).sessions = x :: (st h).sessions)) := by
  obtain ⟨hk, hd, -⟩ := opened_win_runs ho
  have := on_opened_win ho hp h o.tcgDevice.baseComId _ (history_asks ctx o.tcgDevice ops hops newTcgSession)
    (fun y σ σ' => ∃ s rs, y = .ret (s, rs) ∧ σ'.sid = σ.sid ∧ σ'.reverts = σ.reverts ∧
      (((∀ e, .err e ∈ rs → e ≠ none) ∧ σ'.sessions = σ.sessions) ∨
       (∃ before after x, rs = before ++ .err none :: after ∧ (∀ e, .err e ∈ before → e ≠ none) ∧
         (∀ e, .err e ∈ after → e = some (.tcg 12)) ∧ (∀ r e, .reply r e ∈ after → e = none) ∧
         σ'.sessions = x :: σ.sessions)))
    (fun env' st' hc hp' => by
      obtain ⟨s, rs, t, h1, h2⟩ := one_session_per_object hc hp' ctx hf o.tcgDevice hk hd ops hops []
      rw [h1]
      exact ⟨s, rs, rfl, h2⟩)
  obtain ⟨s, rs, h1, h2⟩ := this
  exact ⟨s, rs, _, Prod.ext h1 rfl, h2⟩

end


/-! ## These hypotheses can be met -/

theorem opened_win_sample : ∃ o, OpenedOnWin o shippedDrive 0 (idealWin 9 shippedDrive ownedState) (idealWinState 9 shippedDrive ownedState) := by
  obtain ⟨o, ho, hs⟩ := win_opens_owned
  exact ⟨o, _, _, _, _, [], 10, 9, ho, hs, idealWin_conforming 9 shippedDrive (by decide) (by decide) ownedState rfl rfl,
    idealWin_announces 9 shippedDrive (by decide) ownedState⟩

/-- On an NVMe drive the owner starts a session with the password and reverts the drive by hand; no second session would have been left. -/
example : ∃ o s t r t', OutT.run (idealWin 9 shippedDrive ownedState) []
      (tcgOnWindows o (newTcgSession.start sampleCtx o.tcgDevice ADMINSP_UID [0x70, 0x77] (.uid SID_UID))) = (.ret (s, none), t) ∧
    OutT.run (idealWin 9 shippedDrive ownedState) t (tcgOnWindows o (revertByHand sampleCtx o.tcgDevice s)) = (.ret (r, none), t') ∧
    idealWinState 9 shippedDrive ownedState (t ++ t') = ⟨[0x4d, 0x31], [], none, 0, 1⟩ ∧
    ∃ s' t'', OutT.run (idealWin 9 shippedDrive ownedState) t
      (tcgOnWindows o (newTcgSession.start sampleCtx o.tcgDevice ADMINSP_UID [] (.uid SID_UID))) = (.ret (s', some (.tcg 7)), t'') := by
  obtain ⟨o, ho⟩ := opened_win_sample
  have hpr := idealWin_prompt 9 shippedDrive ownedState
  obtain ⟨s, e, t, h1, -, -, h2⟩ := start_outcome_opened_win ho hpr sampleCtx (by decide) false [0x70, 0x77] SID_UID (by simp) []
  obtain ⟨rfl, ⟨hz, x, hx⟩, tper, h3, -, h4⟩ := h2 (by decide) (.inr (.inr rfl))
  have hx' : x = ⟨105, tper, true, some SID_UID.bytes⟩ := by
    have := List.mem_of_find?_eq_some hx
    rw [h3] at this
    simpa [idealWinState, ownedState] using this
  obtain ⟨r, e, t', k1, k2, -⟩ := revert_by_hand_opened_win ho hpr sampleCtx (by decide) s t x hz hx
  obtain ⟨rfl, k3⟩ := k2 (by rw [hx']; exact ⟨rfl, .inl rfl⟩)
  obtain ⟨s', e', t'', m1, m2, -⟩ := start_outcome_opened_win ho hpr sampleCtx (by decide) false [] SID_UID (by simp) t
  obtain ⟨rfl, -⟩ := m2 (by rw [show idealWinState 9 shippedDrive ownedState t = idealWinState 9 shippedDrive ownedState ([] ++ t) from rfl, h3]; exact Nat.le_refl _)
  refine ⟨o, s, t, r, t', h1, k1, ?_, s', t'', m1⟩
  rw [k3]
  rw [List.nil_append] at h4
  rw [h4]
  rfl

/-- A wrong PSID is refused; a session without credentials can read the MSID and nothing else. -/
example : ∃ o s t s1 t1 r t2 r' t3, OutT.run (idealWin 9 shippedDrive ownedState) []
      (tcgOnWindows o (({ newTcgSession with noHash := true } : Session).start sampleCtx o.tcgDevice ADMINSP_UID [0x50, 0x32] (.uid PSID_UID)))
        = (.ret (s, some (.tcg 1)), t) ∧
    OutT.run (idealWin 9 shippedDrive ownedState) []
      (tcgOnWindows o (newTcgSession.start sampleCtx o.tcgDevice ADMINSP_UID [] (.uid UID_HEXFF))) = (.ret (s1, none), t1) ∧
    OutT.run (idealWin 9 shippedDrive ownedState) t1
      (tcgOnWindows o (o.tcgDevice.getTable sampleCtx o.tcgDevice s1 (0xa8 :: cPinMsid) 3 3)) = (.ret (some r, none), t2) ∧
    (∃ b, r.getToken 4 = .ret (some b) ∧ Tok.getString b = .ok [0x4d, 0x31]) ∧
    OutT.run (idealWin 9 shippedDrive ownedState) t1
      (tcgOnWindows o (o.tcgDevice.getTable sampleCtx o.tcgDevice s1 (0xa8 :: [0, 0, 0, 0x0b, 0, 0, 0, 1]) 3 3)) = (.ret (some r', some (.tcg 12)), t3) := by
  obtain ⟨o, ho⟩ := opened_win_sample
  have hpr := idealWin_prompt 9 shippedDrive ownedState
  have hk := (opened_win_runs ho).1
  obtain ⟨s, e, t, h1, -, h2, -⟩ := start_outcome_opened_win ho hpr sampleCtx (by decide) true [0x50, 0x32] PSID_UID (by simp) []
  obtain ⟨rfl, -⟩ := h2 (by decide) (by
    rintro (x | x | x)
    · exact absurd x (by simp [shown])
    · simp [shown, challengeValue, shippedDrive] at x
    · have y := congrArg (fun y => (y.map (·.2)).getD []) x
      exact absurd (show PSID_UID.bytes = sidAuthority from y) (by decide))
  obtain ⟨s1, e1, t1, i1, -, -, i2⟩ := start_outcome_opened_win ho hpr sampleCtx (by decide) false [] UID_HEXFF (by simp) []
  obtain ⟨rfl, hin, -⟩ := i2 (by decide) (.inl rfl)
  rw [List.nil_append] at hin
  obtain ⟨r, t2, j1, -, j2⟩ := table_outcome_opened_win ho hpr sampleCtx (by decide) o.tcgDevice hk s1 cPinMsid rfl 3 3 t1 hin
  obtain ⟨r', t3, m1, -, -⟩ := table_outcome_opened_win ho hpr sampleCtx (by decide) o.tcgDevice hk s1 [0, 0, 0, 0x0b, 0, 0, 0, 1] rfl 3 3 t1 hin
  exact ⟨o, s, t, s1, t1, r, t2, r', t3, h1, i1, j1, j2 ⟨rfl, rfl, rfl⟩, m1⟩

end Dparm
