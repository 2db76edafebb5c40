import Verif.Props.SessionOps
/-!
# RevertTPer and GetDefaultPassword on Opal devices (C26 to C29)
-/
namespace Dparm
open Spec

theorem opal_ssc {d : Device} (hd : d.kind = .opal1 ∨ d.kind = .opal2) : d.isAnySSC = true := by
  unfold Device.isAnySSC
  rcases hd with e | e <;> rw [e]

theorem revertTPer_opal {ctx : Ctx} {d : Device} (hd : d.kind = .opal1 ∨ d.kind = .opal2)
    (pw : Bytes) (psid adm : Bool) : d.revertTPer ctx pw psid adm = d.revertOpal ctx pw psid := by
  unfold Device.revertTPer
  rcases hd with e | e <;> rw [e]

/-- The session `RevertTPer` starts from: hashing off exactly for PSID. -/
def revertSession (psid : Bool) : Session := if psid then { newTcgSession with noHash := true } else newTcgSession

theorem revertSession_num (psid : Bool) : (revertSession psid).noHash = psid ∧
    leBytes 4 ((revertSession psid).hsn.toNat % 2 ^ 32) = [0, 0, 0, 0] ∧
    leBytes 4 ((revertSession psid).tsn.toNat % 2 ^ 32) = [0, 0, 0, 0] := by
  cases psid <;> decide

/-- The StartSession command of a revert: a fresh session on the Admin SP; PSID: authority PSID and the
password itself; otherwise authority SID and `D0 20` with the derived key. -/
def revertStart (kdf : Kdf) (d : Device) (pw : Bytes) (psid : Bool) : SecReq :=
  sendOf d.baseComId (wireImage d.baseComId.toNat [0, 0, 0, 0] [0, 0, 0, 0]
    (startSessionCall adminSP
      (if pw = [] then none
       else some (stringArg (if psid then pw else [0xd0, 0x20] ++ kdf.key (pw.take 32) d.serial),
        0xa8 :: (if psid then psidAuthority else sidAuthority)))))

theorem revertStart_eq (ctx : Ctx) (d : Device) (pw : Bytes) (psid : Bool) :
    sendOf d.baseComId (startWire ctx d (revertSession psid) ADMINSP_UID pw
      (AuthArg.uid (if psid then PSID_UID else SID_UID)).bytes) = revertStart ctx.kdf d pw psid := by
  obtain ⟨h1, h2, h3⟩ := revertSession_num psid
  have hsp : ADMINSP_UID.bytes = adminSP := rfl
  unfold startWire revertStart startCredential challengeValue
  rw [h1, h2, h3, hsp]
  cases psid <;> rfl

/-- The Revert command with given session numbers. -/
def revertSend (d : Device) (host tper : Nat) : SecReq :=
  sendOf d.baseComId (wireImage d.baseComId.toNat (beBytes 4 tper) (beBytes 4 host) revertCall)

theorem revertOps_enc : encInit (.uid ADMINSP_UID) (.method M_REVERT) ++ encAdds [tSTARTLIST, tENDLIST]
    = revertCall := by decide

/-- The whole of `RevertTPer` on an Opal device. -/
theorem revert_summary (ctx : Ctx) (d : Device) (pw : Bytes) (psid adm : Bool)
    (hd : d.kind = .opal1 ∨ d.kind = .opal2) (hf : 0 < ctx.fuel)
    (env : Prog.Env SecReq SecRep) (h : Prog.Trace SecReq SecRep) :
    ∃ t1 t2, (OutT.run env h (d.revertTPer ctx pw psid adm)).2 = t1 ++ t2 ∧
      t1 = (OutT.run env h ((revertSession psid).start ctx d ADMINSP_UID pw
        (.uid (if psid then PSID_UID else SID_UID)))).2 ∧
      (∃ sent, sends t1 = [(revertStart ctx.kdf d pw psid, sent)]) ∧
      ((t2 = [] ∧
        ((∃ s e, (OutT.run env h ((revertSession psid).start ctx d ADMINSP_UID pw
            (.uid (if psid then PSID_UID else SID_UID)))).1 = .ret (s, some e) ∧
          (OutT.run env h (d.revertTPer ctx pw psid adm)).1 = .ret (some e)) ∨
         (∃ r, Answered t1 r ∧ TooShort r ∧ (OutT.run env h (d.revertTPer ctx pw psid adm)).1 = .panic) ∨
         (OutT.run env h (d.revertTPer ctx pw psid adm)).1 = .running)) ∨
       (∃ r host tper, Answered t1 r ∧ Accepted r ∧ SessionNumbers r host tper ∧
        (∃ sent, sends t2 = [(revertSend d host tper, sent)]) ∧
        ((∃ e, (OutT.run env h (d.revertTPer ctx pw psid adm)).1 = .ret (some e)) ∨
         (∃ r2, Answered t2 r2 ∧ TooShort r2 ∧ (OutT.run env h (d.revertTPer ctx pw psid adm)).1 = .panic) ∨
         (∃ r2, Answered t2 r2 ∧ Accepted r2 ∧ (OutT.run env h (d.revertTPer ctx pw psid adm)).1 = .ret none) ∨
         (OutT.run env h (d.revertTPer ctx pw psid adm)).1 = .running))) := by
  have hs := opal_ssc hd
  rw [revertTPer_opal hd]
  have hauth : (AuthArg.uid (if psid then PSID_UID else SID_UID)).bytes.length ≤ 50000 := by
    cases psid <;> decide
  obtain ⟨c, _, _, hsend, hcase⟩ := start_summary ctx d (revertSession psid) ADMINSP_UID pw
    (.uid (if psid then PSID_UID else SID_UID)) env h hs hf hauth
  rw [revertStart_eq] at hsend
  have hdef : d.revertOpal ctx pw psid = ((revertSession psid).start ctx d ADMINSP_UID pw
      (.uid (if psid then PSID_UID else SID_UID)) >>= fun (s, e) => match e with
        | some e => OutT.ret (some e)
        | none => do
          let cmd ← OutT.lift (Cmd.make ctx.base (.uid ADMINSP_UID) (.method M_REVERT) [tSTARTLIST, tENDLIST])
          let (_, e) ← s.sendCommand ctx d cmd
          OutT.ret e) := rfl
  rw [hdef, OutT.run_bind]
  rcases hstart : OutT.run env h ((revertSession psid).start ctx d ADMINSP_UID pw
    (.uid (if psid then PSID_UID else SID_UID))) with ⟨o, t⟩
  rw [hstart] at hsend hcase
  simp only at hsend hcase
  rcases hcase with ⟨s', e, rfl, _⟩ | ⟨r, h1, h2, _, rfl⟩ | ⟨r, host, tper, h1, h2, _, h3, s', rfl, h5, h6, _⟩ |
    ⟨_, rfl⟩
  · exact ⟨t, [], by simp, rfl, hsend, .inl ⟨rfl, .inl ⟨s', e, rfl, rfl⟩⟩⟩
  · exact ⟨t, [], by simp, rfl, hsend, .inl ⟨rfl, .inr (.inl ⟨r, h1, h2, rfl⟩)⟩⟩
  · have hfit : 56 + (encInit (.uid ADMINSP_UID) (.method M_REVERT)).length
        + (encAdds [tSTARTLIST, tENDLIST]).length + 6 ≤ 61440 := by decide
    obtain ⟨cmd, hcmd, _, _, hwire⟩ := make_wire ctx.base (.uid ADMINSP_UID) (.method M_REVERT)
      [tSTARTLIST, tENDLIST] s' d (by simp) hfit
    rw [revertOps_enc, h5, h6] at hwire
    obtain ⟨hs2, hc2⟩ := sendCommand_summary ctx d s' cmd env (h ++ t) hs hf
    rw [hwire] at hs2
    simp only
    rw [hcmd, OutT.run_bind, OutT.run_lift_ret]
    simp only [List.append_nil, List.nil_append]
    rw [OutT.run_bind]
    rcases hsc : OutT.run env (h ++ t) (s'.sendCommand ctx d cmd) with ⟨o2, t2⟩
    rw [hsc] at hs2 hc2
    simp only at hs2 hc2
    rcases hc2 with ⟨x, e, rfl⟩ | ⟨r2, k1, _, k2, rfl⟩ | ⟨r2, k1, _, k2, rfl⟩ | rfl
    · exact ⟨t, t2, by simp, rfl, hsend, .inr ⟨r, host, tper, h1, h2, h3, hs2, .inl ⟨e, rfl⟩⟩⟩
    · exact ⟨t, t2, by simp, rfl, hsend, .inr ⟨r, host, tper, h1, h2, h3, hs2, .inr (.inl ⟨r2, k1, k2, rfl⟩)⟩⟩
    · exact ⟨t, t2, by simp, rfl, hsend, .inr ⟨r, host, tper, h1, h2, h3, hs2,
        .inr (.inr (.inl ⟨r2, k1, k2, rfl⟩))⟩⟩
    · exact ⟨t, t2, by simp, rfl, hsend, .inr ⟨r, host, tper, h1, h2, h3, hs2, .inr (.inr (.inr rfl))⟩⟩
  · exact ⟨t, [], by simp, rfl, hsend, .inl ⟨rfl, .inr (.inr rfl)⟩⟩

/-- C26: for every drive behaviour, `RevertTPer` on an Opal device sends first the StartSession command
and then either nothing at all, or, only after the first exchange was answered by an accepted response
with both session numbers, exactly the Revert call carrying these numbers. -/
theorem revert_order (ctx : Ctx) (d : Device) (pw : Bytes) (psid adm : Bool)
    (hd : d.kind = .opal1 ∨ d.kind = .opal2) (hf : 0 < ctx.fuel)
    (env : Prog.Env SecReq SecRep) (h : Prog.Trace SecReq SecRep) :
    ∃ t1 t2, (OutT.run env h (d.revertTPer ctx pw psid adm)).2 = t1 ++ t2 ∧
      (∃ sent, sends t1 = [(revertStart ctx.kdf d pw psid, sent)]) ∧
      (t2 = [] ∨ ∃ r host tper, Answered t1 r ∧ Accepted r ∧ SessionNumbers r host tper ∧
        ∃ sent, sends t2 = [(revertSend d host tper, sent)]) := by
  obtain ⟨t1, t2, e, _, hs, hc⟩ := revert_summary ctx d pw psid adm hd hf env h
  refine ⟨t1, t2, e, hs, ?_⟩
  rcases hc with ⟨h1, _⟩ | ⟨r, host, tper, h1, h2, h3, h4, _⟩
  · exact .inl h1
  · exact .inr ⟨r, host, tper, h1, h2, h3, h4⟩

/-- C26: if the session does not start, the revert returns the very same error and the conversation is
the one of the failed start. -/
theorem revert_start_error (ctx : Ctx) (d : Device) (pw : Bytes) (psid adm : Bool)
    (hd : d.kind = .opal1 ∨ d.kind = .opal2) (hf : 0 < ctx.fuel)
    (env : Prog.Env SecReq SecRep) (h : Prog.Trace SecReq SecRep) (s' : Session) (e : GoErr)
    (he : (OutT.run env h ((revertSession psid).start ctx d ADMINSP_UID pw
        (.uid (if psid then PSID_UID else SID_UID)))).1 = .ret (s', some e)) :
    (OutT.run env h (d.revertTPer ctx pw psid adm)).1 = .ret (some e) ∧
    ∃ sent, sends (OutT.run env h (d.revertTPer ctx pw psid adm)).2
      = [(revertStart ctx.kdf d pw psid, sent)] := by
  have hdef : d.revertTPer ctx pw psid adm = ((revertSession psid).start ctx d ADMINSP_UID pw
      (.uid (if psid then PSID_UID else SID_UID)) >>= fun (s, e) => match e with
        | some e => OutT.ret (some e)
        | none => do
          let cmd ← OutT.lift (Cmd.make ctx.base (.uid ADMINSP_UID) (.method M_REVERT) [tSTARTLIST, tENDLIST])
          let (_, e) ← s.sendCommand ctx d cmd
          OutT.ret e) := by rw [revertTPer_opal hd]; rfl
  have hauth : (AuthArg.uid (if psid then PSID_UID else SID_UID)).bytes.length ≤ 50000 := by
    cases psid <;> decide
  obtain ⟨c, _, _, hsend, _⟩ := start_summary ctx d (revertSession psid) ADMINSP_UID pw
    (.uid (if psid then PSID_UID else SID_UID)) env h (opal_ssc hd) hf hauth
  rw [revertStart_eq] at hsend
  rw [hdef, OutT.run_bind]
  rcases hstart : OutT.run env h ((revertSession psid).start ctx d ADMINSP_UID pw
    (.uid (if psid then PSID_UID else SID_UID))) with ⟨o, t⟩
  rw [hstart] at hsend he
  simp only at hsend he
  subst he
  simpa using hsend

/-- C27: `RevertTPer` reports success only if the drive answered both commands with accepted responses. -/
theorem revert_success (ctx : Ctx) (d : Device) (pw : Bytes) (psid adm : Bool)
    (hd : d.kind = .opal1 ∨ d.kind = .opal2) (hf : 0 < ctx.fuel)
    (env : Prog.Env SecReq SecRep) (h : Prog.Trace SecReq SecRep)
    (hok : (OutT.run env h (d.revertTPer ctx pw psid adm)).1 = .ret none) :
    ∃ t1 t2 r1 r2 host tper, (OutT.run env h (d.revertTPer ctx pw psid adm)).2 = t1 ++ t2 ∧
      (∃ sent, sends t1 = [(revertStart ctx.kdf d pw psid, sent)]) ∧ Answered t1 r1 ∧ Accepted r1 ∧
      SessionNumbers r1 host tper ∧
      (∃ sent, sends t2 = [(revertSend d host tper, sent)]) ∧ Answered t2 r2 ∧ Accepted r2 := by
  obtain ⟨t1, t2, e, _, hs, hc⟩ := revert_summary ctx d pw psid adm hd hf env h
  rw [hok] at hc
  rcases hc with ⟨_, ⟨_, _, _, h1⟩ | ⟨_, _, _, h1⟩ | h1⟩ | ⟨r, host, tper, h1, h2, h3, h4, h5⟩
  · cases h1
  · cases h1
  · cases h1
  · rcases h5 with ⟨_, h5⟩ | ⟨_, _, _, h5⟩ | ⟨r2, k1, k2, _⟩ | h5
    · cases h5
    · cases h5
    · exact ⟨t1, t2, r, r2, host, tper, e, hs, h1, h2, h3, h4, k1, k2⟩
    · cases h5

/-- C28: which secret leaves the host. With PSID the password itself under the authority PSID; otherwise
under the authority SID a value that only depends on the derived key; and the Admin-SP flag changes
nothing that an Opal device can see. -/
theorem revert_secret (ctx : Ctx) (d : Device) (pw : Bytes) (psid adm : Bool)
    (hd : d.kind = .opal1 ∨ d.kind = .opal2) (hne : pw ≠ [])
    (env : Prog.Env SecReq SecRep) (h : Prog.Trace SecReq SecRep) :
    OutT.run env h (d.revertTPer ctx pw psid adm) = OutT.run env h (d.revertTPer ctx pw psid (!adm)) ∧
    revertStart ctx.kdf d pw true = sendOf d.baseComId (wireImage d.baseComId.toNat [0, 0, 0, 0] [0, 0, 0, 0]
      (startSessionCall adminSP (some (stringArg pw, 0xa8 :: psidAuthority)))) ∧
    revertStart ctx.kdf d pw false = sendOf d.baseComId (wireImage d.baseComId.toNat [0, 0, 0, 0] [0, 0, 0, 0]
      (startSessionCall adminSP
        (some (stringArg ([0xd0, 0x20] ++ ctx.kdf.key (pw.take 32) d.serial), 0xa8 :: sidAuthority)))) ∧
    (∀ pw', pw' ≠ [] → ctx.kdf.key (pw'.take 32) d.serial = ctx.kdf.key (pw.take 32) d.serial →
      revertStart ctx.kdf d pw' false = revertStart ctx.kdf d pw false) := by
  refine ⟨by rw [revertTPer_opal hd, revertTPer_opal hd], ?_, ?_, ?_⟩
  · simp [revertStart, hne]
  · simp [revertStart, hne]
  · intro pw' hne' hk
    simp [revertStart, hne, hne', hk]

/-! ## C29 -/

theorem getMsid_enc : encInit (.buf Device.msidTable) (.method M_GET) ++ encAdds (Device.getTableOps 3 3)
    = getMsidCall := by decide

/-- The Get command with given session numbers. -/
def getMsidSend (d : Device) (host tper : Nat) : SecReq :=
  sendOf d.baseComId (wireImage d.baseComId.toNat (beBytes 4 tper) (beBytes 4 host) getMsidCall)

/-- The anonymous StartSession command. -/
def anonymousStart (d : Device) : SecReq :=
  sendOf d.baseComId (wireImage d.baseComId.toNat [0, 0, 0, 0] [0, 0, 0, 0] (startSessionCall adminSP none))

/-- The result part of `GetDefaultPassword`. -/
def msidResult (r : Resp) : Bytes × Option GoErr :=
  match r.tokens[4]? with
  | none => ([], some .illegalResponse)
  | some t => match payloadOf t with
    | .ok v => (v, none)
    | .err e => ([], some e)
    | .panic => ([], none)

/-- C29: `GetDefaultPassword` on an Opal device sends an anonymous StartSession on the Admin SP, then
either nothing, or after an accepted answer with both session numbers one Get of the PIN column of
C_PIN_MSID; it succeeds exactly with the payload of the fifth token of an accepted answer to it. -/
theorem defaultPassword_spec (ctx : Ctx) (d : Device)
    (hd : d.kind = .opal1 ∨ d.kind = .opal2) (hf : 0 < ctx.fuel)
    (env : Prog.Env SecReq SecRep) (h : Prog.Trace SecReq SecRep) :
    ∃ t1 t2, (OutT.run env h (d.getDefaultPassword ctx)).2 = t1 ++ t2 ∧
      (∃ sent, sends t1 = [(anonymousStart d, sent)]) ∧
      ((t2 = [] ∧ ∀ v, (OutT.run env h (d.getDefaultPassword ctx)).1 ≠ .ret (v, none)) ∨
       (∃ r host tper, Answered t1 r ∧ Accepted r ∧ SessionNumbers r host tper ∧
        (∃ sent, sends t2 = [(getMsidSend d host tper, sent)]) ∧
        ((∃ r2, Answered t2 r2 ∧ Accepted r2 ∧
            (OutT.run env h (d.getDefaultPassword ctx)).1 = .ret (msidResult r2)) ∨
         ∀ v, (OutT.run env h (d.getDefaultPassword ctx)).1 ≠ .ret (v, none)))) := by
  have hs := opal_ssc hd
  have hsend0 : (sendOf d.baseComId (startWire ctx d newTcgSession ADMINSP_UID [] (AuthArg.uid UID_HEXFF).bytes))
      = anonymousStart d := rfl
  obtain ⟨c, _, _, hsend, hcase⟩ := start_summary ctx d newTcgSession ADMINSP_UID []
    (.uid UID_HEXFF) env h hs hf (by decide)
  rw [hsend0] at hsend
  have hdef : d.getDefaultPassword ctx = (newTcgSession.start ctx d ADMINSP_UID [] (.uid UID_HEXFF) >>=
      fun (s, e) => match e with
        | some e => OutT.ret ([], some e)
        | none => d.opalGetTable ctx s Device.msidTable 3 3 >>= fun (resp, err) =>
          match err, resp with
          | some e, _ => OutT.ret ([], some e)
          | none, none => OutT.panic
          | none, some r => (OutT.lift (r.getToken 4) : TcgM _) >>= fun x => match x with
            | none => OutT.ret ([], some .illegalResponse)
            | some t => match Tok.getString t with
              | .panic => OutT.panic
              | .err e => OutT.ret ([], some e)
              | .ok v => OutT.ret (v, none)) := by
    unfold Device.getDefaultPassword
    rcases hd with e | e <;> rw [e] <;> rfl
  rw [hdef, OutT.run_bind]
  rcases hstart : OutT.run env h (newTcgSession.start ctx d ADMINSP_UID [] (.uid UID_HEXFF)) with ⟨o, t⟩
  rw [hstart] at hsend hcase
  simp only at hsend hcase
  rcases hcase with ⟨s', e, rfl, _⟩ | ⟨r, h1, h2, _, rfl⟩ | ⟨r, host, tper, h1, h2, _, h3, s', rfl, h5, h6, _⟩ |
    ⟨_, rfl⟩
  · exact ⟨t, [], by simp, hsend, .inl ⟨rfl, by simp⟩⟩
  · exact ⟨t, [], by simp, hsend, .inl ⟨rfl, by simp⟩⟩
  · have hfit : 56 + (encInit (.buf Device.msidTable) (.method M_GET)).length
        + (encAdds (Device.getTableOps 3 3)).length + 6 ≤ 61440 := by decide
    obtain ⟨cmd, hcmd, _, _, hwire⟩ := make_wire ctx.base (.buf Device.msidTable) (.method M_GET)
      (Device.getTableOps 3 3) s' d (by simp) hfit
    rw [getMsid_enc, h5, h6] at hwire
    obtain ⟨hs2, hc2⟩ := sendCommand_summary ctx d s' cmd env (h ++ t) hs hf
    rw [hwire] at hs2
    have hget : d.opalGetTable ctx s' Device.msidTable 3 3 = s'.sendCommand ctx d cmd := by
      unfold Device.opalGetTable
      rw [hcmd]; rfl
    simp only
    rw [hget, OutT.run_bind]
    rcases hsc : OutT.run env (h ++ t) (s'.sendCommand ctx d cmd) with ⟨o2, t2⟩
    rw [hsc] at hs2 hc2
    simp only at hs2 hc2
    rcases hc2 with ⟨x, e, rfl⟩ | ⟨r2, k1, _, k2, rfl⟩ | ⟨r2, k1, hp2, k2, rfl⟩ | rfl
    · exact ⟨t, t2, by simp, hsend, .inr ⟨r, host, tper, h1, h2, h3, hs2, .inr (by simp)⟩⟩
    · exact ⟨t, t2, by simp, hsend, .inr ⟨r, host, tper, h1, h2, h3, hs2, .inr (by simp)⟩⟩
    · have g := getToken_exact r2
      simp only [OutT.run_bind]
      by_cases h4 : 4 < r2.tokens.length
      · obtain ⟨tok, htok⟩ : ∃ tok, r2.tokens[4]? = some tok := ⟨r2.tokens[4], by simp [h4]⟩
        have hg : r2.getToken 4 = .ret (some tok) := by
          rw [show (4 : Int) = ((4 : Nat) : Int) from rfl, (g 0).2.2 4 (by omega)]
          rw [List.getElem?_eq_getElem h4] at htok
          simp only [Option.some.injEq] at htok
          rw [htok]
        have hmem : tok ∈ r2.tokens := List.mem_of_getElem? htok
        obtain ⟨_, _, _, q1, q2⟩ := (parsed_tokens hp2).2 tok hmem
        rw [hg]
        simp only [OutT.run_lift_ret, List.append_nil, List.nil_append, q1]
        cases hpay : payloadOf tok with
        | panic => exact absurd hpay q2
        | err e =>
          refine ⟨t, t2, by simp, hsend, .inr ⟨r, host, tper, h1, h2, h3, hs2, .inl ⟨r2, k1, k2, ?_⟩⟩⟩
          simp [msidResult, htok, hpay]
        | ok v =>
          refine ⟨t, t2, by simp, hsend, .inr ⟨r, host, tper, h1, h2, h3, hs2, .inl ⟨r2, k1, k2, ?_⟩⟩⟩
          simp [msidResult, htok, hpay]
      · have hg : r2.getToken 4 = .ret none := ((g 4).2.1).2 (by unfold Resp.getTokenCount; omega)
        rw [hg]
        refine ⟨t, t2, by simp, hsend, .inr ⟨r, host, tper, h1, h2, h3, hs2, .inl ⟨r2, k1, k2, ?_⟩⟩⟩
        have : r2.tokens[4]? = none := by simp; omega
        simp [msidResult, this]
    · exact ⟨t, t2, by simp, hsend, .inr ⟨r, host, tper, h1, h2, h3, hs2, .inr (by simp)⟩⟩
  · exact ⟨t, [], by simp, hsend, .inl ⟨rfl, by simp⟩⟩

/-- A drive that accepts StartSession and answers Get with a PIN: the password arrives; and a revert on
it succeeds after two sends. -/
def friendlyDrive : Prog.Env SecReq SecRep :=
  replyEnv [0xf8, 0xa1, 0, 0xa1, 0, 0xf0, 0x81, 105, 0x82, 0x10, 7, 0xf1, 0xf9, 0xf0, 0, 0, 0, 0xf1]

/-- An accepted Get answer, for every receive after the second send. -/
def msidDrive : Prog.Env SecReq SecRep := fun h q =>
  if (sends h).length < 2 then friendlyDrive h q
  else replyEnv [0xf0, 0xf0, 0xf2, 0x03, 0xa4, 0x6d, 0x73, 0x69, 0x64, 0xf3, 0xf1, 0xf1, 0xf9, 0xf0, 0, 0, 0, 0xf1] h q

example : (match (OutT.run friendlyDrive [] (opalDevice.revertTPer sampleCtx [0x70] false true)) with
    | (.ret none, t) => (sends t).length == 2 | _ => false) = true := by decide +kernel
example : (match (OutT.run msidDrive [] (opalDevice.getDefaultPassword sampleCtx)).1 with
    | .ret (v, none) => v == [0x6d, 0x73, 0x69, 0x64] | _ => false) = true := by decide +kernel
/-- With status NOT AUTHORIZED the revert fails after one send. -/
example : (match (OutT.run (replyEnv [0xf0, 0xf1, 0xf9, 0xf0, 1, 0, 0, 0xf1]) []
    (opalDevice.revertTPer sampleCtx [0x70] false true)) with
    | (.ret (some (.tcg 1)), t) => (sends t).length == 1 | _ => false) = true := by decide +kernel

end Dparm
