import Verif.Lemmas.TperIdeal
/-!
# The TCG operations on a conforming drive (C127 to C129)
-/
namespace Dparm
open Spec

/-- The credential a revert presents: the password for PSID, `D0 20` and the derived key for SID. -/
def revertCredential (kdf : Kdf) (serial pw : Bytes) (psid : Bool) : Bytes :=
  if psid then pw else [0xd0, 0x20] ++ kdf.key (pw.take 32) serial

/-- The drive accepts it. -/
def RightPassword (dr : Drive) (s : DriveState) (kdf : Kdf) (serial pw : Bytes) (psid : Bool) : Prop :=
  pw ≠ [] ∧ revertCredential kdf serial pw psid = if psid then dr.psid else s.sid

/-- Factory state. -/
def revertedState (dr : Drive) (s : DriveState) : DriveState :=
  ⟨dr.msid, [], none, 0, s.reverts + 1⟩

theorem psid_ne_sid : psidAuthority ≠ sidAuthority := by decide

theorem presented_revert (kdf : Kdf) (serial pw : Bytes) (psid : Bool) :
    presented kdf (revertSession psid).noHash serial pw (if psid then PSID_UID else SID_UID)
      = if pw = [] then none
        else some (revertCredential kdf serial pw psid, if psid then psidAuthority else sidAuthority) := by
  rw [(revertSession_num psid).1]
  unfold presented revertCredential challengeValue
  cases psid <;> rfl

theorem admits_revert (dr : Drive) (s : DriveState) (kdf : Kdf) (serial pw : Bytes) (psid : Bool) :
    dr.admits s (seenArgs (presented kdf (revertSession psid).noHash serial pw (if psid then PSID_UID else SID_UID)))
      = true ↔ (pw = [] ∨ RightPassword dr s kdf serial pw psid) := by
  rw [presented_revert]
  unfold RightPassword
  by_cases h0 : pw = []
  · simp [h0, seenArgs, Drive.admits]
  · simp only [h0, if_false, seenArgs, Option.map_some, Drive.admits, false_or, ne_eq, not_false_eq_true, true_and]
    have h1 : (psidAuthority == sidAuthority) = false := by decide
    have h2 : (sidAuthority == psidAuthority) = false := by decide
    cases psid
    · simp [h2]
    · simp [h1]

theorem perform_revert (dr : Drive) (n tper : Nat) (s : DriveState) (comId : Nat) (o : OpenSession)
    (rest : List OpenSession) (hs : s.sessions = o :: rest) (hh : o.host = 105) (ht : o.tper = tper) :
    dr.perform n s ⟨comId, tper, 105, revertTokens ++ trailerTokens⟩ =
      if o.write = true ∧ (o.authority = some sidAuthority ∨ o.authority = some psidAuthority) then
        { s with sid := dr.msid, sessions := [], answer := some .done, reverts := s.reverts + 1 }
      else { s with answer := some (.refused 1) } := by
  unfold Drive.perform
  rw [revertTokens_read]
  dsimp only
  have hfind : s.sessions.find? (fun o => o.tper == tper && o.host == 105) = some o := by
    rw [hs, List.find?_cons_of_pos (by simp [hh, ht])]
  rw [if_neg (by omega), hfind]
  dsimp only
  unfold Drive.method
  rw [if_pos ⟨rfl, rfl, rfl⟩]

theorem perform_getMsid (dr : Drive) (n tper : Nat) (s : DriveState) (comId : Nat) (o : OpenSession)
    (rest : List OpenSession) (hs : s.sessions = o :: rest) (hh : o.host = 105) (ht : o.tper = tper) :
    dr.perform n s ⟨comId, tper, 105, getMsidTokens ++ trailerTokens⟩
      = { s with answer := some (.column 3 dr.msid) } := by
  unfold Drive.perform
  rw [getMsidTokens_read]
  dsimp only
  have hfind : s.sessions.find? (fun o => o.tper == tper && o.host == 105) = some o := by
    rw [hs, List.find?_cons_of_pos (by simp [hh, ht])]
  rw [if_neg (by omega), hfind]
  dsimp only
  unfold Drive.method
  rw [if_neg (by intro h; exact absurd h.1 (by decide)), if_pos ⟨rfl, rfl, rfl⟩]

theorem startSession_open (dr : Drive) (tper : Nat) (s : DriveState) (cred : Option (Bytes × Bytes))
    (hroom : ¬ dr.maxSessions ≤ s.sessions.length) (hadm : dr.admits s (seenArgs cred) = true) :
    dr.startSession tper s (seenArgs cred)
      = { s with sessions := ⟨105, tper, true, cred.map (·.2)⟩ :: s.sessions,
                 answer := some (.sync 105 tper) } := by
  unfold Drive.startSession
  rw [if_neg (by simp [seenArgs]), if_neg hroom, if_pos hadm]
  rfl

theorem startSession_frame (dr : Drive) (tper : Nat) (s : DriveState) (a : StartArgs) :
    (dr.startSession tper s a).sid = s.sid ∧ (dr.startSession tper s a).reverts = s.reverts := by
  unfold Drive.startSession
  split
  · exact ⟨rfl, rfl⟩
  · split
    · exact ⟨rfl, rfl⟩
    · split <;> exact ⟨rfl, rfl⟩

theorem startSession_refused (dr : Drive) (tper : Nat) (s : DriveState) (cred : Option (Bytes × Bytes))
    (h : dr.maxSessions ≤ s.sessions.length ∨ dr.admits s (seenArgs cred) = false) :
    (dr.startSession tper s (seenArgs cred)).sessions = s.sessions := by
  unfold Drive.startSession
  rw [if_neg (by simp [seenArgs])]
  split
  · rfl
  · rename_i hr
    rcases h with h | h
    · exact absurd h hr
    · rw [if_neg (by simp [h])]

/-- Everything about `RevertTPer` on a conforming drive, with the number of sessions left open. -/
theorem revert_conforming_counted {dr : Drive} {W : Nat} {env : Prog.Env SecReq SecRep}
    {st : Prog.Trace SecReq SecRep → DriveState} (hc : Conforming dr W env st) (ctx : Ctx) (d : Device)
    (hk : d.kind = .opal1 ∨ d.kind = .opal2) (hd : d.baseComId = dr.comId) (hf : W < ctx.fuel)
    (pw : Bytes) (psid adm : Bool) (hl : psid = true → pw.length ≤ 400) (h : Prog.Trace SecReq SecRep) :
    ((OutT.run env h (d.revertTPer ctx pw psid adm)).1 = .ret none ∧
      RightPassword dr (st h) ctx.kdf d.serial pw psid ∧ (st h).sessions.length < dr.maxSessions ∧
      st (h ++ (OutT.run env h (d.revertTPer ctx pw psid adm)).2) = revertedState dr (st h)) ∨
    ((OutT.run env h (d.revertTPer ctx pw psid adm)).1 = .ret (some (.tcg 7)) ∧
      dr.maxSessions ≤ (st h).sessions.length ∧
      st (h ++ (OutT.run env h (d.revertTPer ctx pw psid adm)).2) = { st h with answer := none, wait := 0 }) ∨
    ((OutT.run env h (d.revertTPer ctx pw psid adm)).1 = .ret (some (.tcg 1)) ∧
      (st h).sessions.length < dr.maxSessions ∧ ¬ RightPassword dr (st h) ctx.kdf d.serial pw psid ∧
      (st (h ++ (OutT.run env h (d.revertTPer ctx pw psid adm)).2)).sid = (st h).sid ∧
      (st (h ++ (OutT.run env h (d.revertTPer ctx pw psid adm)).2)).reverts = (st h).reverts ∧
      (st (h ++ (OutT.run env h (d.revertTPer ctx pw psid adm)).2)).sessions.length
        = (st h).sessions.length + if pw = [] then 1 else 0) ∨
    (Slow env ∧ (OutT.run env h (d.revertTPer ctx pw psid adm)).1 = .ret (some (.msg "timeout")) ∧
      (RightPassword dr (st h) ctx.kdf d.serial pw psid ∨
       ((st (h ++ (OutT.run env h (d.revertTPer ctx pw psid adm)).2)).sid = (st h).sid ∧
        (st (h ++ (OutT.run env h (d.revertTPer ctx pw psid adm)).2)).reverts = (st h).reverts))) := by
  have hs := opal_ssc hk
  rw [revertTPer_opal hk]
  obtain ⟨hn0, hn1, hn2⟩ := revertSession_num psid
  obtain ⟨cred, hcred⟩ : ∃ x, x = presented ctx.kdf (revertSession psid).noHash d.serial pw
    (if psid then PSID_UID else SID_UID) := ⟨_, rfl⟩
  obtain ⟨tper, ht, hcase⟩ := start_conforming hc ctx d hd hs hf (revertSession psid) pw
    (if psid then PSID_UID else SID_UID) (fun hx => hl (by cases psid <;> first | rfl | exact absurd hx (by decide))) ⟨hn1, hn2⟩ h (seenArgs cred) (by rw [hcred])
  have hadm := admits_revert dr (st h) ctx.kdf d.serial pw psid
  rw [← hcred] at hadm
  have hdef : d.revertOpal ctx pw psid = ((revertSession psid).start ctx d ADMINSP_UID pw
      (.uid (if psid then PSID_UID else SID_UID)) >>= fun (s, e) => match e with
        | some e => OutT.ret (some e)
        | none => do
          let cmd ← OutT.lift (Cmd.make ctx.base (.uid ADMINSP_UID) (.method M_REVERT) [tSTARTLIST, tENDLIST])
          let (_, e) ← s.sendCommand ctx d cmd
          OutT.ret e) := rfl
  rw [hdef, OutT.run_bind]
  rcases hstart : OutT.run env h ((revertSession psid).start ctx d ADMINSP_UID pw
    (.uid (if psid then PSID_UID else SID_UID))) with ⟨o, t⟩
  rw [hstart] at hcase
  simp only at hcase
  obtain ⟨fr1, fr2⟩ := startSession_frame dr tper (st h) (seenArgs cred)
  rcases hcase with ⟨hslow, rfl, x, w, hst⟩ | ⟨hst, ⟨k, hk1, hk2, hk3, rfl⟩ | ⟨s', hroom, hadmit, rfl, hh, htt⟩⟩
  · right; right; right
    refine ⟨hslow, rfl, .inr ?_⟩
    simp only [OutT.run_ret, List.append_nil]
    rw [hst]
    exact ⟨fr1, fr2⟩
  · simp only [OutT.run_ret, List.append_nil]
    by_cases hfull : dr.maxSessions ≤ (st h).sessions.length
    · have : k = 7 := hk2.2 hfull
      subst this
      right; left
      refine ⟨rfl, hfull, ?_⟩
      rw [hst]
      have := startSession_refused dr tper (st h) cred (.inl hfull)
      rw [this, fr1, fr2]
    · have : k = 1 := by
        rcases hk1 with e | e
        · exact absurd (hk2.1 e) hfull
        · exact e
      subst this
      right; right; left
      have hna := hk3 rfl
      refine ⟨rfl, by omega, ?_, ?_⟩
      · intro hr
        rw [hadm.2 (.inr hr)] at hna
        cases hna
      · have h0 : pw ≠ [] := by
          intro h0
          rw [hadm.2 (.inl h0)] at hna
          cases hna
        have hsr := startSession_refused dr tper (st h) cred (.inr hna)
        rw [hst]
        refine ⟨fr1, fr2, ?_⟩
        rw [hsr, if_neg h0]
        rfl
  · rw [startSession_open dr tper (st h) cred hroom hadmit] at hst
    obtain ⟨cmd, hcmd, hp⟩ := session_packet ctx.base (.uid ADMINSP_UID) (.method M_REVERT) [tSTARTLIST, tENDLIST]
      s' d (by simp) revertTokens (revertOps_enc.trans revertCall_tokens) (by decide) (by decide) 105 tper (by decide)
      ht hh htt
    obtain ⟨tper2, _, hrest⟩ := sendCommand_conforming hc ctx d hd hs hf s' cmd (h ++ t) _ hp (by rw [hd])
      (make_readable_length _ _ _ _ (by simp) s' d hcmd hp)
    rw [perform_revert dr tper2 tper (st (h ++ t)) _ ⟨105, tper, true, cred.map (·.2)⟩ (st h).sessions
      (by rw [hst]) rfl rfl] at hrest
    have hauth : (cred.map (·.2) = some sidAuthority ∨ cred.map (·.2) = some psidAuthority) ↔ pw ≠ [] := by
      rw [hcred, presented_revert]
      by_cases h0 : pw = []
      · simp [h0]
      · cases psid <;> simp [h0]
    simp only
    rw [hcmd, OutT.run_bind, OutT.run_lift_ret]
    simp only [List.append_nil, List.nil_append]
    rw [OutT.run_bind]
    by_cases h0 : pw = []
    · rw [if_neg (by rintro ⟨_, hx⟩; exact hauth.1 hx h0)] at hrest
      have hnr : ¬ RightPassword dr (st h) ctx.kdf d.serial pw psid := fun hr => hr.1 h0
      rcases hrest (.refused 1) rfl (by intro k hk'; simp only [Answer.refused.injEq] at hk'; omega) with
        ⟨r, _, k2, k3⟩ | ⟨k1, k2, x, w, k3⟩
      · right; right; left
        rcases hsc : OutT.run env (h ++ t) (s'.sendCommand ctx d cmd) with ⟨o2, t2⟩
        rw [hsc] at k2 k3
        simp only at k2 k3
        subst k2
        simp only [OutT.run_ret, List.append_nil, answerError]
        rw [← List.append_assoc, k3, hst]
        exact ⟨trivial, by omega, hnr, rfl, rfl, by rw [if_pos h0]; rfl⟩
      · right; right; right
        rcases hsc : OutT.run env (h ++ t) (s'.sendCommand ctx d cmd) with ⟨o2, t2⟩
        rw [hsc] at k2 k3
        simp only at k2 k3
        subst k2
        simp only [OutT.run_ret, List.append_nil]
        rw [← List.append_assoc, k3, hst]
        exact ⟨k1, trivial, .inr ⟨rfl, rfl⟩⟩
    · have hright : RightPassword dr (st h) ctx.kdf d.serial pw psid := by
        rcases hadm.1 hadmit with e | e
        · exact absurd e h0
        · exact e
      rw [if_pos ⟨rfl, hauth.2 h0⟩] at hrest
      rcases hrest .done rfl (by intro k hk'; cases hk') with ⟨r, _, k2, k3⟩ | ⟨k1, k2, x, w, k3⟩
      · left
        rcases hsc : OutT.run env (h ++ t) (s'.sendCommand ctx d cmd) with ⟨o2, t2⟩
        rw [hsc] at k2 k3
        simp only at k2 k3
        subst k2
        simp only [OutT.run_ret, List.append_nil, answerError]
        rw [← List.append_assoc, k3, hst]
        exact ⟨trivial, hright, by omega, rfl⟩
      · right; right; right
        rcases hsc : OutT.run env (h ++ t) (s'.sendCommand ctx d cmd) with ⟨o2, t2⟩
        rw [hsc] at k2 k3
        simp only at k2 k3
        subst k2
        simp only [OutT.run_ret]
        exact ⟨k1, trivial, .inl hright⟩

/-- Everything about `RevertTPer` on a conforming drive. -/
theorem revert_conforming {dr : Drive} {W : Nat} {env : Prog.Env SecReq SecRep}
    {st : Prog.Trace SecReq SecRep → DriveState} (hc : Conforming dr W env st) (ctx : Ctx) (d : Device)
    (hk : d.kind = .opal1 ∨ d.kind = .opal2) (hd : d.baseComId = dr.comId) (hf : W < ctx.fuel)
    (pw : Bytes) (psid adm : Bool) (hl : psid = true → pw.length ≤ 400) (h : Prog.Trace SecReq SecRep) :
    ((OutT.run env h (d.revertTPer ctx pw psid adm)).1 = .ret none ∧
      RightPassword dr (st h) ctx.kdf d.serial pw psid ∧ (st h).sessions.length < dr.maxSessions ∧
      st (h ++ (OutT.run env h (d.revertTPer ctx pw psid adm)).2) = revertedState dr (st h)) ∨
    ((OutT.run env h (d.revertTPer ctx pw psid adm)).1 = .ret (some (.tcg 7)) ∧
      dr.maxSessions ≤ (st h).sessions.length ∧
      st (h ++ (OutT.run env h (d.revertTPer ctx pw psid adm)).2) = { st h with answer := none, wait := 0 }) ∨
    ((OutT.run env h (d.revertTPer ctx pw psid adm)).1 = .ret (some (.tcg 1)) ∧
      (st h).sessions.length < dr.maxSessions ∧ ¬ RightPassword dr (st h) ctx.kdf d.serial pw psid ∧
      (st (h ++ (OutT.run env h (d.revertTPer ctx pw psid adm)).2)).sid = (st h).sid ∧
      (st (h ++ (OutT.run env h (d.revertTPer ctx pw psid adm)).2)).reverts = (st h).reverts) ∨
    (Slow env ∧ (OutT.run env h (d.revertTPer ctx pw psid adm)).1 = .ret (some (.msg "timeout")) ∧
      (RightPassword dr (st h) ctx.kdf d.serial pw psid ∨
       ((st (h ++ (OutT.run env h (d.revertTPer ctx pw psid adm)).2)).sid = (st h).sid ∧
        (st (h ++ (OutT.run env h (d.revertTPer ctx pw psid adm)).2)).reverts = (st h).reverts))) := by
  rcases revert_conforming_counted hc ctx d hk hd hf pw psid adm hl h with x | x | ⟨a, b, c, e, f, -⟩ | x
  · exact .inl x
  · exact .inr (.inl x)
  · exact .inr (.inr (.inl ⟨a, b, c, e, f⟩))
  · exact .inr (.inr (.inr x))


/-- C127: a PSID revert on a conforming drive that has a session to spare and an environment in which
nothing takes longer than 10 s. With the PSID printed on the drive it succeeds and the drive is in factory
state afterwards (one revert more, SID credential = MSID, no sessions). With any other password it returns the
TCG error 1 (not authorized), and the drive has neither been reverted nor has it another SID credential. -/
theorem psid_revert_conforming {dr : Drive} {W : Nat} {env : Prog.Env SecReq SecRep}
    {st : Prog.Trace SecReq SecRep → DriveState} (hc : Conforming dr W env st) (hp : Prompt env)
    (ctx : Ctx) (hf : W < ctx.fuel) (d : Device) (hk : d.kind = .opal1 ∨ d.kind = .opal2)
    (hd : d.baseComId = dr.comId) (pw : Bytes) (adm : Bool) (hl : pw.length ≤ 400) (hne : dr.psid ≠ [])
    (h : Prog.Trace SecReq SecRep) (hroom : (st h).sessions.length < dr.maxSessions)
    (o : Out (Option GoErr)) (t : Prog.Trace SecReq SecRep)
    (hrun : OutT.run env h (d.revertTPer ctx pw true adm) = (o, t)) :
    (pw = dr.psid → o = .ret none ∧ st (h ++ t) = ⟨dr.msid, [], none, 0, (st h).reverts + 1⟩) ∧
    (pw ≠ dr.psid → o = .ret (some (.tcg 1)) ∧ (st (h ++ t)).reverts = (st h).reverts ∧
      (st (h ++ t)).sid = (st h).sid) := by
  have hiff : RightPassword dr (st h) ctx.kdf d.serial pw true ↔ pw = dr.psid := by
    unfold RightPassword revertCredential
    simp only [if_true]
    exact ⟨fun x => x.2, fun x => ⟨by rw [x]; exact hne, x⟩⟩
  have := revert_conforming hc ctx d hk hd hf pw true adm (fun _ => hl) h
  rw [hrun, hiff] at this
  simp only at this
  rcases this with ⟨a1, a2, _, a4⟩ | ⟨_, a2, _⟩ | ⟨a1, _, a3, a4, a5⟩ | ⟨a1, _⟩
  · exact ⟨fun _ => ⟨a1, a4⟩, fun x => absurd a2 x⟩
  · omega
  · exact ⟨fun x => absurd x a3, fun _ => ⟨a1, a5, a4⟩⟩
  · exact absurd a1 (not_slow hp)

/-- C128: a SID revert on a conforming drive succeeds exactly when the drive's SID credential is the 34-byte
value `D0 20` + derived key of the password's first 32 bytes and the password is not empty; otherwise it returns the TCG error 1 and changes
neither credential nor factory state. -/
theorem sid_revert_conforming {dr : Drive} {W : Nat} {env : Prog.Env SecReq SecRep}
    {st : Prog.Trace SecReq SecRep → DriveState} (hc : Conforming dr W env st) (hp : Prompt env)
    (ctx : Ctx) (hf : W < ctx.fuel) (d : Device) (hk : d.kind = .opal1 ∨ d.kind = .opal2)
    (hd : d.baseComId = dr.comId) (pw : Bytes) (adm : Bool)
    (h : Prog.Trace SecReq SecRep) (hroom : (st h).sessions.length < dr.maxSessions)
    (o : Out (Option GoErr)) (t : Prog.Trace SecReq SecRep)
    (hrun : OutT.run env h (d.revertTPer ctx pw false adm) = (o, t)) :
    (pw ≠ [] ∧ (st h).sid = [0xd0, 0x20] ++ ctx.kdf.key (pw.take 32) d.serial →
      o = .ret none ∧ st (h ++ t) = ⟨dr.msid, [], none, 0, (st h).reverts + 1⟩) ∧
    (pw = [] ∨ (st h).sid ≠ [0xd0, 0x20] ++ ctx.kdf.key (pw.take 32) d.serial →
      o = .ret (some (.tcg 1)) ∧ (st (h ++ t)).reverts = (st h).reverts ∧ (st (h ++ t)).sid = (st h).sid) := by
  have hiff : RightPassword dr (st h) ctx.kdf d.serial pw false ↔
      (pw ≠ [] ∧ (st h).sid = [0xd0, 0x20] ++ ctx.kdf.key (pw.take 32) d.serial) := by
    unfold RightPassword revertCredential
    simp only [Bool.false_eq_true, if_false]
    exact ⟨fun x => ⟨x.1, x.2.symm⟩, fun x => ⟨x.1, x.2.symm⟩⟩
  have hnot : ¬ (pw ≠ [] ∧ (st h).sid = [0xd0, 0x20] ++ ctx.kdf.key (pw.take 32) d.serial) ↔
      (pw = [] ∨ (st h).sid ≠ [0xd0, 0x20] ++ ctx.kdf.key (pw.take 32) d.serial) := by
    rw [Classical.not_and_iff_not_or_not, Classical.not_not]
  rw [← hnot]
  have := revert_conforming hc ctx d hk hd hf pw false adm (fun x => by cases x) h
  rw [hrun, hiff] at this
  simp only at this
  rcases this with ⟨a1, a2, _, a4⟩ | ⟨_, a2, _⟩ | ⟨a1, _, a3, a4, a5⟩ | ⟨a1, _⟩
  · exact ⟨fun _ => ⟨a1, a4⟩, fun x => absurd a2 x⟩
  · omega
  · exact ⟨fun x => absurd x a3, fun _ => ⟨a1, a5, a4⟩⟩
  · exact absurd a1 (not_slow hp)

/-- C128, consequences. A drive whose SID credential is the derived key itself (what the hash of the password
is meant to be), or any credential that has not exactly 34 bytes (so every factory MSID of another
length), rejects every SID revert of this library, even with the right password. -/
theorem sid_revert_never {dr : Drive} {W : Nat} {env : Prog.Env SecReq SecRep}
    {st : Prog.Trace SecReq SecRep → DriveState} (hc : Conforming dr W env st) (hp : Prompt env)
    (ctx : Ctx) (hf : W < ctx.fuel) (d : Device) (hk : d.kind = .opal1 ∨ d.kind = .opal2)
    (hd : d.baseComId = dr.comId) (pw : Bytes) (adm : Bool)
    (h : Prog.Trace SecReq SecRep) (hroom : (st h).sessions.length < dr.maxSessions)
    (hsid : (st h).sid = ctx.kdf.key (pw.take 32) d.serial ∨ (st h).sid.length ≠ 34) :
    (OutT.run env h (d.revertTPer ctx pw false adm)).1 = .ret (some (.tcg 1)) := by
  rcases hr : OutT.run env h (d.revertTPer ctx pw false adm) with ⟨o, t⟩
  refine ((sid_revert_conforming hc hp ctx hf d hk hd pw adm h hroom o t hr).2 (.inr ?_)).1
  intro he
  have hlen : (st h).sid.length = 34 := by rw [he]; simp [ctx.kdf.len]
  rcases hsid with h1 | h1
  · rw [h1, ctx.kdf.len] at hlen; omega
  · exact h1 hlen

/-- C127, C128 for every clock (commands may time out): a revert that reports success has taken
place, with the right password; and with a wrong one the drive is never reverted, whatever is reported. -/
theorem revert_conforming_safe {dr : Drive} {W : Nat} {env : Prog.Env SecReq SecRep}
    {st : Prog.Trace SecReq SecRep → DriveState} (hc : Conforming dr W env st)
    (ctx : Ctx) (hf : W < ctx.fuel) (d : Device) (hk : d.kind = .opal1 ∨ d.kind = .opal2)
    (hd : d.baseComId = dr.comId) (pw : Bytes) (psid adm : Bool) (hl : psid = true → pw.length ≤ 400)
    (h : Prog.Trace SecReq SecRep) (o : Out (Option GoErr)) (t : Prog.Trace SecReq SecRep)
    (hrun : OutT.run env h (d.revertTPer ctx pw psid adm) = (o, t)) :
    (o = .ret none → st (h ++ t) = ⟨dr.msid, [], none, 0, (st h).reverts + 1⟩ ∧ pw ≠ [] ∧
      (if psid then pw = dr.psid else (st h).sid = [0xd0, 0x20] ++ ctx.kdf.key (pw.take 32) d.serial)) ∧
    ((if psid then pw ≠ dr.psid else (st h).sid ≠ [0xd0, 0x20] ++ ctx.kdf.key (pw.take 32) d.serial) →
      (st (h ++ t)).reverts = (st h).reverts ∧ (st (h ++ t)).sid = (st h).sid) := by
  have := revert_conforming hc ctx d hk hd hf pw psid adm hl h
  rw [hrun] at this
  simp only at this
  have hright : RightPassword dr (st h) ctx.kdf d.serial pw psid → pw ≠ [] ∧
      (if psid then pw = dr.psid else (st h).sid = [0xd0, 0x20] ++ ctx.kdf.key (pw.take 32) d.serial) := by
    rintro ⟨h1, h2⟩
    refine ⟨h1, ?_⟩
    unfold revertCredential at h2
    cases psid
    · exact h2.symm
    · exact h2
  have hwrong : (if psid then pw ≠ dr.psid else (st h).sid ≠ [0xd0, 0x20] ++ ctx.kdf.key (pw.take 32) d.serial) →
      ¬ RightPassword dr (st h) ctx.kdf d.serial pw psid := by
    intro hw hr
    have := (hright hr).2
    cases psid
    · exact hw this
    · exact hw this
  rcases this with ⟨a1, a2, _, a4⟩ | ⟨a1, _, a3⟩ | ⟨a1, _, a3, a4, a5⟩ | ⟨_, a1, a2⟩
  · exact ⟨fun _ => ⟨a4, hright a2⟩, fun x => absurd a2 (hwrong x)⟩
  · refine ⟨(fun x => by rw [a1] at x; cases x), fun _ => ?_⟩
    rw [a3]; exact ⟨rfl, rfl⟩
  · exact ⟨(fun x => by rw [a1] at x; cases x), fun _ => ⟨a5, a4⟩⟩
  · refine ⟨(fun x => by rw [a1] at x; cases x), fun x => ?_⟩
    rcases a2 with a2 | ⟨a3, a4⟩
    · exact absurd a2 (hwrong x)
    · exact ⟨a4, a3⟩

/-! ## GetDefaultPassword, and how sessions run out -/

theorem fetched_column {n : Nat} {v : Bytes} {r : Resp} (hf : Fetched (.column n v) r) :
    ∃ b, r.getToken 4 = .ret (some b) ∧ Tok.getString b = .ok v := by
  obtain ⟨_, _, ts, ⟨c, b, stt, rfl, _, hb, _⟩, hw, hT⟩ := hf
  refine ⟨b.encode, ?_, getString_encode b (hw b (by simp)) hb⟩
  have := (getToken_exact r 0).2.2 4 (by rw [hT]; simp)
  rw [show (4 : Int) = ((4 : Nat) : Int) from rfl, this]
  simp [hT]

/-- Everything about `GetDefaultPassword` on a conforming drive. -/
theorem default_password_run {dr : Drive} {W : Nat} {env : Prog.Env SecReq SecRep}
    {st : Prog.Trace SecReq SecRep → DriveState} (hc : Conforming dr W env st) (hp : Prompt env)
    (ctx : Ctx) (hf : W < ctx.fuel) (d : Device) (hk : d.kind = .opal1 ∨ d.kind = .opal2)
    (hd : d.baseComId = dr.comId) (h : Prog.Trace SecReq SecRep) :
    ((st h).sessions.length < dr.maxSessions ∧
      (OutT.run env h (d.getDefaultPassword ctx)).1 = .ret (dr.msid, none) ∧
      ∃ tper, st (h ++ (OutT.run env h (d.getDefaultPassword ctx)).2)
        = { st h with sessions := ⟨105, tper, true, none⟩ :: (st h).sessions, answer := none, wait := 0 }) ∨
    (dr.maxSessions ≤ (st h).sessions.length ∧
      (OutT.run env h (d.getDefaultPassword ctx)).1 = .ret ([], some (.tcg 7)) ∧
      st (h ++ (OutT.run env h (d.getDefaultPassword ctx)).2) = { st h with answer := none, wait := 0 }) := by
  have hs := opal_ssc hk
  obtain ⟨cred, hcred⟩ : ∃ x, x = presented ctx.kdf newTcgSession.noHash d.serial [] UID_HEXFF := ⟨_, rfl⟩
  have hcred0 : cred = none := by rw [hcred]; rfl
  obtain ⟨tper, ht, hcase⟩ := start_conforming hc ctx d hd hs hf newTcgSession [] UID_HEXFF (by simp)
    (by decide) h (seenArgs cred) (by rw [hcred])
  rw [hcred0] at hcase
  have hadm : dr.admits (st h) (seenArgs none) = true := rfl
  have hdef : d.getDefaultPassword ctx = (newTcgSession.start ctx d ADMINSP_UID [] (.uid UID_HEXFF) >>=
      fun (s, e) => match e with
        | some e => OutT.ret ([], some e)
        | none => d.opalGetTable ctx s Device.msidTable 3 3 >>= fun (resp, err) =>
          match err, resp with
          | some e, _ => OutT.ret ([], some e)
          | none, none => OutT.panic
          | none, some r => (OutT.lift (r.getToken 4) : TcgM _) >>= fun x => match x with
            | none => OutT.ret ([], some .illegalResponse)
            | some t => match Tok.getString t with
              | .panic => OutT.panic
              | .err e => OutT.ret ([], some e)
              | .ok v => OutT.ret (v, none)) := by
    unfold Device.getDefaultPassword
    rcases hk with e | e <;> rw [e] <;> rfl
  rw [hdef, OutT.run_bind]
  rcases hstart : OutT.run env h (newTcgSession.start ctx d ADMINSP_UID [] (.uid UID_HEXFF)) with ⟨o, t⟩
  rw [hstart] at hcase
  simp only at hcase
  obtain ⟨fr1, fr2⟩ := startSession_frame dr tper (st h) (seenArgs none)
  rcases hcase with ⟨hslow, _⟩ | ⟨hst, ⟨k, hk1, hk2, hk3, rfl⟩ | ⟨s', hroom, _, rfl, hh, htt⟩⟩
  · exact absurd hslow (not_slow hp)
  · right
    have hk7 : k = 7 := by
      rcases hk1 with e | e
      · exact e
      · have := hk3 e
        rw [hadm] at this; cases this
    subst hk7
    have hfull := hk2.1 rfl
    simp only [OutT.run_ret, List.append_nil]
    refine ⟨hfull, trivial, ?_⟩
    rw [hst, startSession_refused dr tper (st h) none (.inl hfull), fr1, fr2]
  · left
    rw [startSession_open dr tper (st h) none hroom hadm] at hst
    obtain ⟨cmd, hcmd, hpk⟩ := session_packet ctx.base (.buf Device.msidTable) (.method M_GET)
      (Device.getTableOps 3 3) s' d (by simp) getMsidTokens (getMsid_enc.trans getMsidCall_tokens) (by decide)
      (by decide) 105 tper (by decide) ht hh htt
    obtain ⟨tper2, _, hrest⟩ := sendCommand_conforming hc ctx d hd hs hf s' cmd (h ++ t) _ hpk (by rw [hd])
      (make_readable_length _ _ _ _ (by simp) s' d hcmd hpk)
    rw [perform_getMsid dr tper2 tper (st (h ++ t)) _ ⟨105, tper, true, none⟩ (st h).sessions
      (by rw [hst]; rfl) rfl rfl] at hrest
    rcases hrest (.column 3 dr.msid) rfl (by intro k hk'; cases hk') with ⟨r, k1, k2, k3⟩ | ⟨k1, _⟩
    · obtain ⟨b, g4, gs⟩ := fetched_column k1
      rcases hsc : OutT.run env (h ++ t) (s'.sendCommand ctx d cmd) with ⟨o2, t2⟩
      rw [hsc] at k2 k3
      simp only at k2 k3
      subst k2
      have hget : OutT.run env (h ++ t) (d.opalGetTable ctx s' Device.msidTable 3 3) = (.ret (some r, none), t2) := by
        unfold Device.opalGetTable
        rw [hcmd, OutT.run_bind, OutT.run_lift_ret]
        simp only [List.append_nil, List.nil_append]
        exact hsc
      have htail : ∀ hh : Prog.Trace SecReq SecRep, OutT.run env hh ((OutT.lift (r.getToken 4) : TcgM _) >>= fun x => match x with
            | none => OutT.ret ([], some .illegalResponse)
            | some t => match Tok.getString t with
              | .panic => OutT.panic
              | .err e => OutT.ret ([], some e)
              | .ok v => OutT.ret (v, none)) = (.ret (dr.msid, none), []) := by
        intro hh
        rw [g4, OutT.run_bind, OutT.run_lift_ret]
        simp only [gs, OutT.run_ret, List.append_nil]
      simp only
      rw [OutT.run_bind, hget]
      simp only
      rw [htail]
      refine ⟨by omega, rfl, tper, ?_⟩
      simp only [List.append_nil]
      rw [← List.append_assoc, k3, hst]
      rfl
    · exact absurd k1 (not_slow hp)

/-- C129: on a conforming drive with a session to spare, `GetDefaultPassword` returns the MSID, byte for byte,
and the drive has one more open session afterwards; with none to spare it returns the TCG error 7. -/
theorem default_password_conforming {dr : Drive} {W : Nat} {env : Prog.Env SecReq SecRep}
    {st : Prog.Trace SecReq SecRep → DriveState} (hc : Conforming dr W env st) (hp : Prompt env)
    (ctx : Ctx) (hf : W < ctx.fuel) (d : Device) (hk : d.kind = .opal1 ∨ d.kind = .opal2)
    (hd : d.baseComId = dr.comId) (h : Prog.Trace SecReq SecRep)
    (o : Out (Bytes × Option GoErr)) (t : Prog.Trace SecReq SecRep)
    (hrun : OutT.run env h (d.getDefaultPassword ctx) = (o, t)) :
    (st (h ++ t)).sid = (st h).sid ∧ (st (h ++ t)).reverts = (st h).reverts ∧
    ((st h).sessions.length < dr.maxSessions → o = .ret (dr.msid, none) ∧
      (st (h ++ t)).sessions.length = (st h).sessions.length + 1) ∧
    (dr.maxSessions ≤ (st h).sessions.length → o = .ret ([], some (.tcg 7)) ∧
      (st (h ++ t)).sessions = (st h).sessions) := by
  have := default_password_run hc hp ctx hf d hk hd h
  rw [hrun] at this
  simp only at this
  rcases this with ⟨a1, a2, tper, a3⟩ | ⟨a1, a2, a3⟩
  · rw [a3]
    exact ⟨rfl, rfl, fun _ => ⟨a2, rfl⟩, fun x => by omega⟩
  · rw [a3]
    exact ⟨rfl, rfl, fun x => by omega, fun _ => ⟨a2, rfl⟩⟩

/-- Asking for the default password `n` times in a row. -/
def askDefaultPassword (ctx : Ctx) (d : Device) : Nat → TcgM (List (Bytes × Option GoErr))
  | 0 => OutT.ret []
  | n + 1 => do
    let x ← d.getDefaultPassword ctx
    let xs ← askDefaultPassword ctx d n
    OutT.ret (x :: xs)

/-- C129: sessions run out. Of `n` calls in a row the first `maxSessions - open` return the MSID, all others
fail with the TCG error 7; nothing the library does ever frees a session. -/
theorem default_password_repeated {dr : Drive} {W : Nat} {env : Prog.Env SecReq SecRep}
    {st : Prog.Trace SecReq SecRep → DriveState} (hc : Conforming dr W env st) (hp : Prompt env)
    (ctx : Ctx) (hf : W < ctx.fuel) (d : Device) (hk : d.kind = .opal1 ∨ d.kind = .opal2)
    (hd : d.baseComId = dr.comId) (n : Nat) (h : Prog.Trace SecReq SecRep)
    (o : Out (List (Bytes × Option GoErr))) (t : Prog.Trace SecReq SecRep)
    (hrun : OutT.run env h (askDefaultPassword ctx d n) = (o, t)) :
    o = .ret (List.replicate (min n (dr.maxSessions - (st h).sessions.length)) (dr.msid, none) ++
      List.replicate (n - (dr.maxSessions - (st h).sessions.length)) ([], some (.tcg 7))) ∧
    (st (h ++ t)).sessions.length = (st h).sessions.length + min n (dr.maxSessions - (st h).sessions.length) := by
  induction n generalizing h o t with
  | zero =>
    simp only [askDefaultPassword, OutT.run_ret, Prod.mk.injEq] at hrun
    obtain ⟨rfl, rfl⟩ := hrun
    simp
  | succ n ih =>
    rcases hx : OutT.run env h (d.getDefaultPassword ctx) with ⟨o1, t1⟩
    obtain ⟨_, _, h3, h4⟩ := default_password_conforming hc hp ctx hf d hk hd h o1 t1 hx
    rcases hy : OutT.run env (h ++ t1) (askDefaultPassword ctx d n) with ⟨o2, t2⟩
    obtain ⟨i1, i2⟩ := ih (h ++ t1) o2 t2 hy
    rw [askDefaultPassword, OutT.run_bind, hx] at hrun
    by_cases hr : (st h).sessions.length < dr.maxSessions
    · obtain ⟨e1, e2⟩ := h3 hr
      subst e1
      simp only [OutT.run_bind, hy] at hrun
      subst i1
      simp only [OutT.run_ret, List.append_nil, Prod.mk.injEq] at hrun
      obtain ⟨rfl, rfl⟩ := hrun
      rw [e2] at i2 ⊢
      have m1 : min (n + 1) (dr.maxSessions - (st h).sessions.length)
          = min n (dr.maxSessions - ((st h).sessions.length + 1)) + 1 := by omega
      have m2 : n + 1 - (dr.maxSessions - (st h).sessions.length)
          = n - (dr.maxSessions - ((st h).sessions.length + 1)) := by omega
      constructor
      · rw [m1, m2, List.replicate_succ]; rfl
      · rw [← List.append_assoc, i2, m1]; omega
    · obtain ⟨e1, e2⟩ := h4 (by omega)
      subst e1
      simp only [OutT.run_bind, hy] at hrun
      subst i1
      simp only [OutT.run_ret, List.append_nil, Prod.mk.injEq] at hrun
      obtain ⟨rfl, rfl⟩ := hrun
      rw [e2] at i2 ⊢
      have m0 : dr.maxSessions - (st h).sessions.length = 0 := by omega
      rw [m0] at i2 ⊢
      constructor
      · simp [List.replicate_succ]
      · rw [← List.append_assoc, i2]; omega

/-- C129: and a revert with the right PSID fails too, with error 7, once the default password was read as
often as the drive has sessions. -/
theorem revert_after_default_password {dr : Drive} {W : Nat} {env : Prog.Env SecReq SecRep}
    {st : Prog.Trace SecReq SecRep → DriveState} (hc : Conforming dr W env st) (hp : Prompt env)
    (ctx : Ctx) (hf : W < ctx.fuel) (d : Device) (hk : d.kind = .opal1 ∨ d.kind = .opal2)
    (hd : d.baseComId = dr.comId) (n : Nat) (h : Prog.Trace SecReq SecRep)
    (hn : dr.maxSessions ≤ (st h).sessions.length + n) (pw : Bytes) (psid adm : Bool) (hl : psid = true → pw.length ≤ 400) :
    (OutT.run env h (askDefaultPassword ctx d n >>= fun _ => d.revertTPer ctx pw psid adm)).1
      = .ret (some (.tcg 7)) := by
  rcases hx : OutT.run env h (askDefaultPassword ctx d n) with ⟨o1, t1⟩
  obtain ⟨e1, e2⟩ := default_password_repeated hc hp ctx hf d hk hd n h o1 t1 hx
  rw [OutT.run_bind, hx]
  subst e1
  simp only
  rcases revert_conforming hc ctx d hk hd hf pw psid adm hl (h ++ t1) with
    ⟨_, _, a3, _⟩ | ⟨a1, _⟩ | ⟨_, a2, _⟩ | ⟨a1, _⟩
  · omega
  · exact a1
  · omega
  · exact absurd a1 (not_slow hp)

/-! ## Examples: a drive with ComID 07FE that answers at once -/

/-- An Opal 2 device whose descriptor names the ComID 07FE. -/
def shippedDevice : Device := newTcgDevice
  { opalV200 := true,
    raw := fun c => if c = FcOpalSscV200 then some ⟨[0x02, 0x03, 0x10, 0x10, 0x07, 0xfe, 0, 1] ++ zeros 12, fun _ => 0⟩
      else none } [0x53, 0x31]

/-- PSID "P1", MSID "M1", one session at a time. -/
def shippedDrive : Drive := ⟨0x07fe, [0x50, 0x31], [0x4d, 0x31], 1⟩
/-- Taken ownership of with the hash this library uses (the key derivation of the examples gives zeros). -/
def ownedState : DriveState := ⟨[0xd0, 0x20] ++ List.replicate 32 0, [], none, 0, 0⟩
/-- Never owned: the SID credential is the MSID. -/
def factoryState : DriveState := ⟨[0x4d, 0x31], [], none, 0, 0⟩

theorem shipped_conforming (s0 : DriveState) (ha : s0.answer = none) (hw : s0.wait = 0) :
    Conforming shippedDrive 0 (idealEnv shippedDrive s0) (idealState shippedDrive s0) :=
  ideal_conforming _ (by decide) _ ha hw

/-- The PSID reverts the drive, a wrong one does not. -/
example : (OutT.run (idealEnv shippedDrive ownedState) [] (shippedDevice.revertTPer sampleCtx [0x50, 0x31] true true)).1
    = .ret none :=
  ((psid_revert_conforming (shipped_conforming ownedState rfl rfl) (ideal_prompt _ _) sampleCtx (by decide) shippedDevice
    (.inr rfl) rfl [0x50, 0x31] true (by decide) (by decide) [] (by decide) _ _ (Prod.eta _).symm).1 rfl).1
example : (OutT.run (idealEnv shippedDrive ownedState) [] (shippedDevice.revertTPer sampleCtx [0x50, 0x32] true true)).1
    = .ret (some (.tcg 1)) :=
  ((psid_revert_conforming (shipped_conforming ownedState rfl rfl) (ideal_prompt _ _) sampleCtx (by decide) shippedDevice
    (.inr rfl) rfl [0x50, 0x32] true (by decide) (by decide) [] (by decide) _ _ (Prod.eta _).symm).2 (by decide)).1

/-- The SID revert works on the owned drive and not on the drive in factory state, even with its MSID. -/
example : (OutT.run (idealEnv shippedDrive ownedState) [] (shippedDevice.revertTPer sampleCtx [0x70, 0x77] false true)).1
    = .ret none :=
  ((sid_revert_conforming (shipped_conforming ownedState rfl rfl) (ideal_prompt _ _) sampleCtx (by decide) shippedDevice
    (.inr rfl) rfl [0x70, 0x77] true [] (by decide) _ _ (Prod.eta _).symm).1 ⟨by decide, rfl⟩).1
example : (OutT.run (idealEnv shippedDrive factoryState) [] (shippedDevice.revertTPer sampleCtx [0x4d, 0x31] false true)).1
    = .ret (some (.tcg 1)) :=
  sid_revert_never (shipped_conforming factoryState rfl rfl) (ideal_prompt _ _) sampleCtx (by decide) shippedDevice
    (.inr rfl) rfl [0x4d, 0x31] true [] (by decide) (.inr (by decide))

/-- Both parts of `revert_conforming_safe` apply. -/
example : idealState shippedDrive ownedState (OutT.run (idealEnv shippedDrive ownedState) []
    (shippedDevice.revertTPer sampleCtx [0x50, 0x31] true true)).2 = ⟨[0x4d, 0x31], [], none, 0, 1⟩ := by
  have hc := shipped_conforming ownedState rfl rfl
  exact ((revert_conforming_safe hc sampleCtx (by decide) shippedDevice (.inr rfl) rfl [0x50, 0x31] true true (by decide)
    [] _ _ (Prod.eta _).symm).1 ((psid_revert_conforming hc (ideal_prompt _ _) sampleCtx (by decide) shippedDevice
    (.inr rfl) rfl [0x50, 0x31] true (by decide) (by decide) [] (by decide) _ _ (Prod.eta _).symm).1 rfl).1).1
example : (idealState shippedDrive ownedState (OutT.run (idealEnv shippedDrive ownedState) []
    (shippedDevice.revertTPer sampleCtx [0x50, 0x32] true true)).2).reverts = 0 :=
  ((revert_conforming_safe (shipped_conforming ownedState rfl rfl) sampleCtx (by decide) shippedDevice (.inr rfl) rfl
    [0x50, 0x32] true true (by decide) [] _ _ (Prod.eta _).symm).2 (by decide)).1

/-- The default password is read once; the drive then has no session left, and even the right PSID is refused. -/
example : (OutT.run (idealEnv shippedDrive factoryState) [] (askDefaultPassword sampleCtx shippedDevice 3)).1
    = .ret [([0x4d, 0x31], none), ([], some (.tcg 7)), ([], some (.tcg 7))] :=
  (default_password_repeated (shipped_conforming factoryState rfl rfl) (ideal_prompt _ _) sampleCtx (by decide) shippedDevice
    (.inr rfl) rfl 3 [] _ _ (Prod.eta _).symm).1
example : (OutT.run (idealEnv shippedDrive factoryState) [] (shippedDevice.getDefaultPassword sampleCtx)).1
    = .ret ([0x4d, 0x31], none) :=
  ((default_password_conforming (shipped_conforming factoryState rfl rfl) (ideal_prompt _ _) sampleCtx (by decide) shippedDevice
    (.inr rfl) rfl [] _ _ (Prod.eta _).symm).2.2.1 (by decide)).1
example : (OutT.run (idealEnv shippedDrive factoryState) [] (askDefaultPassword sampleCtx shippedDevice 1 >>=
    fun _ => shippedDevice.revertTPer sampleCtx [0x50, 0x31] true true)).1 = .ret (some (.tcg 7)) :=
  revert_after_default_password (shipped_conforming factoryState rfl rfl) (ideal_prompt _ _) sampleCtx (by decide) shippedDevice
    (.inr rfl) rfl 1 [] (by decide) _ _ _ (by decide)

/-- Independent of the theorems: the run itself. -/
example : (match (OutT.run (idealEnv shippedDrive ownedState) []
    (shippedDevice.revertTPer sampleCtx [0x50, 0x31] true true)).1 with | .ret none => true | _ => false) = true := by
  decide +kernel

end Dparm
