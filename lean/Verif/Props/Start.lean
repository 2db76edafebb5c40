import Verif.Lemmas.Start
/-!
# Properties of Start, Close and the generic devices (C21 to C23, C25, C30) and Authenticate (C77)
-/
namespace Dparm
open Spec

/-- The bytes `Start` transmits. -/
def startWire (ctx : Ctx) (d : Device) (s : Session) (sp : UID) (challenge authority : Bytes) : Bytes :=
  wireImage d.baseComId.toNat (leBytes 4 (s.tsn.toNat % 2 ^ 32)) (leBytes 4 (s.hsn.toNat % 2 ^ 32))
    (startSessionCall sp.bytes (startCredential ctx.kdf s.noHash d.serial challenge authority))

theorem five_six (r : Resp) :
    (∃ a b c d x y rest, r.tokens = a :: b :: c :: d :: x :: y :: rest ∧
      r.getToken 4 = .ret (some x) ∧ r.getToken 5 = .ret (some y)) ∨
    (r.tokens.length < 6 ∧ ∃ o, r.getToken 4 = .ret o ∧ r.getToken 5 = .ret none) := by
  have g := getToken_exact r
  by_cases h6 : 6 ≤ r.tokens.length
  · left
    match hm : r.tokens, h6 with
    | a :: b :: c :: d :: x :: y :: rest, _ =>
      have h4 := (g 0).2.2 4 (by simp [hm])
      have h5 := (g 0).2.2 5 (by simp [hm])
      refine ⟨a, b, c, d, x, y, rest, rfl, ?_, ?_⟩
      · rw [show (4 : Int) = ((4 : Nat) : Int) from rfl, h4]; simp [hm]
      · rw [show (5 : Int) = ((5 : Nat) : Int) from rfl, h5]; simp [hm]
  · right
    refine ⟨by omega, ?_⟩
    have h5 : r.getToken 5 = .ret none := ((g 5).2.1).2 (by unfold Resp.getTokenCount; omega)
    by_cases h4 : 5 ≤ r.tokens.length
    · exact ⟨_, by rw [show (4 : Int) = ((4 : Nat) : Int) from rfl, (g 0).2.2 4 (by omega)], h5⟩
    · exact ⟨none, ((g 4).2.1).2 (by unfold Resp.getTokenCount; omega), h5⟩

/-- Everything about `Start` on an SSC device. -/
theorem start_summary (ctx : Ctx) (d : Device) (s : Session) (sp : UID) (challenge : Bytes)
    (auth : AuthArg) (env : Prog.Env SecReq SecRep) (h : Prog.Trace SecReq SecRep)
    (hd : d.isAnySSC = true) (hf : 0 < ctx.fuel) (ha : auth.bytes.length ≤ 50000) :
    ∃ c, Cmd.make ctx.base (.uid SMUID_UID) (.method M_STARTSESSION)
        (s.startOps ctx d sp challenge auth) = .ret c ∧
    (OutT.run env h (s.start ctx d sp challenge auth)).2
      = (OutT.run env h (s.sendCommand ctx d c)).2 ∧
    (∃ sent, sends (OutT.run env h (s.start ctx d sp challenge auth)).2
        = [(sendOf d.baseComId (startWire ctx d s sp challenge auth.bytes), sent)]) ∧
    ((∃ s' e, (OutT.run env h (s.start ctx d sp challenge auth)).1 = .ret (s', some e) ∧
        s'.opened = s.opened ∧
        (∀ r host tper, (OutT.run env h (s.sendCommand ctx d c)).1 = .ret (some r, none) →
          ¬ SessionNumbers r host tper)) ∨
     (∃ r, Answered (OutT.run env h (s.start ctx d sp challenge auth)).2 r ∧ TooShort r ∧
        (OutT.run env h (s.sendCommand ctx d c)).1 = .panic ∧
        (OutT.run env h (s.start ctx d sp challenge auth)).1 = .panic) ∨
     (∃ r host tper, Answered (OutT.run env h (s.start ctx d sp challenge auth)).2 r ∧ Accepted r ∧
        (OutT.run env h (s.sendCommand ctx d c)).1 = .ret (some r, none) ∧
        SessionNumbers r host tper ∧
        ∃ s', (OutT.run env h (s.start ctx d sp challenge auth)).1 = .ret (s', none) ∧
          leBytes 4 (s'.hsn.toNat % 2 ^ 32) = beBytes 4 host ∧
          leBytes 4 (s'.tsn.toNat % 2 ^ 32) = beBytes 4 tper ∧
          s' = { s with hsn := s'.hsn, tsn := s'.tsn }) ∨
     ((OutT.run env h (s.sendCommand ctx d c)).1 = .running ∧
       (OutT.run env h (s.start ctx d sp challenge auth)).1 = .running)) := by
  have he : d.isEnterprise = false := by
    unfold Device.isAnySSC at hd
    unfold Device.isEnterprise
    cases hk : d.kind <;> simp [hk] at hd ⊢
  have henc := startOps_enc ctx d s sp challenge auth hd
  have hlen := startCall_length sp ctx.kdf s.noHash d.serial challenge auth.bytes ha
  rw [← henc, List.length_append] at hlen
  obtain ⟨c, hc, g, hw, hwire⟩ := make_wire ctx.base (.uid SMUID_UID) (.method M_STARTSESSION)
    (s.startOps ctx d sp challenge auth) s d (by simp) (by omega)
  rw [henc] at hwire
  obtain ⟨⟨sent, hsend⟩, hout⟩ := sendCommand_summary ctx d s c env h hd hf
  refine ⟨c, hc, ?_⟩
  unfold Session.start
  rw [hc, OutT.run_bind, OutT.run_lift_ret]
  simp only [List.append_nil, List.nil_append]
  rw [OutT.run_bind]
  rcases hs : OutT.run env h (s.sendCommand ctx d c) with ⟨o, t⟩
  rw [hs] at hsend hout
  simp only at hsend hout
  rw [hwire] at hsend
  rcases hout with ⟨x, e, rfl⟩ | ⟨r, h1, h2, h3, rfl⟩ | ⟨r, h1, h2, h3, rfl⟩ | rfl
  · refine ⟨by simp, ⟨sent, by simp only [OutT.run_ret, List.append_nil]; exact hsend⟩, .inl ⟨s, e, by simp, rfl, by simp⟩⟩
  · exact ⟨rfl, ⟨sent, hsend⟩, .inr (.inl ⟨r, h1, h3, rfl, rfl⟩)⟩
  · have htail : (OutT.run env (h ++ t) (s.startTail ctx d challenge auth r)).2 = [] ∧
        ((∃ s' e, (OutT.run env (h ++ t) (s.startTail ctx d challenge auth r)).1 = .ret (s', some e) ∧
          s'.opened = s.opened ∧ ∀ host tper, ¬ SessionNumbers r host tper) ∨
         (∃ host tper, SessionNumbers r host tper ∧
          ∃ s', (OutT.run env (h ++ t) (s.startTail ctx d challenge auth r)).1 = .ret (s', none) ∧
          leBytes 4 (s'.hsn.toNat % 2 ^ 32) = beBytes 4 host ∧
          leBytes 4 (s'.tsn.toNat % 2 ^ 32) = beBytes 4 tper ∧
          s' = { s with hsn := s'.hsn, tsn := s'.tsn })) := by
      unfold Session.startTail Session.startNumbers
      rcases five_six r with ⟨a, b, cc, dd, x, y, rest, hT, g4, g5⟩ | ⟨hl, o, g4, g5⟩
      · have hx := ((parsed_tokens h2).2 x (by simp [hT])).1
        have hy := ((parsed_tokens h2).2 y (by simp [hT])).1
        obtain ⟨ux1, ux2⟩ := getUint32_value x hx
        obtain ⟨uy1, uy2⟩ := getUint32_value y hy
        have hnum : ∀ host tper, SessionNumbers r host tper ↔
            unsignedValue x = some host ∧ unsignedValue y = some tper := by
          intro host tper
          constructor
          · rintro ⟨_, _, _, _, _, _, _, hT', h4, h5⟩
            rw [hT] at hT'
            simp only [List.cons.injEq] at hT'
            obtain ⟨_, _, _, _, rfl, rfl, _⟩ := hT'
            exact ⟨h4, h5⟩
          · exact fun ⟨h4, h5⟩ => ⟨a, b, cc, dd, x, y, rest, hT, h4, h5⟩
        rw [g4, g5]
        simp only [OutT.run_bind, OutT.run_lift_ret, List.append_nil, he, Bool.false_eq_true, and_false,
          if_false]
        cases vx : unsignedValue x with
        | none =>
          simp only [ux2 vx, OutT.run_ret]
          refine ⟨rfl, .inl ⟨s, _, rfl, rfl, ?_⟩⟩
          intro host tper hn
          have := (hnum host tper).1 hn
          rw [vx] at this; cases this.1
        | some host =>
          cases vy : unsignedValue y with
          | none =>
            simp only [ux1 host vx, uy2 vy, OutT.run_ret]
            refine ⟨rfl, .inl ⟨_, _, rfl, rfl, ?_⟩⟩
            intro host tper hn
            have := (hnum host tper).1 hn
            rw [vy] at this; cases this.2
          | some tper =>
            simp only [ux1 host vx, uy1 tper vy, OutT.run_ret]
            exact ⟨rfl, .inr ⟨host, tper, (hnum host tper).2 ⟨vx, vy⟩, _, rfl, bswap_bytes host,
              bswap_bytes tper, rfl⟩⟩
      · rw [g4, g5]
        simp only [OutT.run_bind, OutT.run_lift_ret, List.append_nil]
        have hn : ∀ host tper, ¬ SessionNumbers r host tper := by
          rintro host tper ⟨_, _, _, _, _, _, _, hT', _⟩
          rw [hT'] at hl; simp at hl; omega
        cases o <;> exact ⟨rfl, .inl ⟨s, _, rfl, rfl, hn⟩⟩
    obtain ⟨hsil, hcase⟩ := htail
    simp only [hsil, List.append_nil]
    refine ⟨trivial, ⟨sent, hsend⟩, ?_⟩
    rcases hcase with ⟨s', e, k1, k2, k3⟩ | ⟨host, tper, k1, k2⟩
    · left
      refine ⟨s', e, k1, k2, ?_⟩
      intro r' host tper hr
      simp only [Out.ret.injEq, Prod.mk.injEq, Option.some.injEq, and_true] at hr
      subst hr
      exact k3 host tper
    · right; right; left
      exact ⟨r, host, tper, h1, h3, rfl, k1, k2⟩
  · exact ⟨rfl, ⟨sent, hsend⟩, .inr (.inr (.inr ⟨rfl, rfl⟩))⟩

/-! ## C22, C23: what Start sends -/

/-- C22: on an SSC device `Start` sends exactly one command, whatever the drive answers: the first 512
bytes of a StartSession call on the session manager (`startSessionCall`) stamped with the session's
current numbers, with the credential part only if a challenge was given. (The authority may be any UID,
or raw bytes up to 50000.) -/
theorem start_sends (ctx : Ctx) (d : Device) (s : Session) (sp : UID) (challenge : Bytes)
    (auth : AuthArg) (env : Prog.Env SecReq SecRep) (h : Prog.Trace SecReq SecRep)
    (hd : d.isAnySSC = true) (hf : 0 < ctx.fuel) (ha : auth.bytes.length ≤ 50000) :
    ∃ sent, sends (OutT.run env h (s.start ctx d sp challenge auth)).2 =
      [(sendOf d.baseComId
        (wireImage d.baseComId.toNat (leBytes 4 (s.tsn.toNat % 2 ^ 32)) (leBytes 4 (s.hsn.toNat % 2 ^ 32))
          (startSessionCall sp.bytes
            (if challenge = [] then none
             else some (stringArg (challengeValue ctx.kdf s.noHash d.serial challenge), auth.bytes)))),
        sent)] := by
  obtain ⟨_, _, _, h1, _⟩ := start_summary ctx d s sp challenge auth env h hd hf ha
  exact h1

/-- C22: a fresh session's command carries zero session numbers. -/
theorem start_sends_fresh (ctx : Ctx) (d : Device) (sp : UID) (challenge : Bytes)
    (auth : AuthArg) (env : Prog.Env SecReq SecRep) (h : Prog.Trace SecReq SecRep)
    (hd : d.isAnySSC = true) (hf : 0 < ctx.fuel) (ha : auth.bytes.length ≤ 50000) :
    ∃ sent, sends (OutT.run env h (newTcgSession.start ctx d sp challenge auth)).2 =
      [(sendOf d.baseComId
        (wireImage d.baseComId.toNat [0, 0, 0, 0] [0, 0, 0, 0]
          (startSessionCall sp.bytes
            (if challenge = [] then none
             else some (stringArg (challengeValue ctx.kdf false d.serial challenge), auth.bytes)))),
        sent)] :=
  start_sends ctx d newTcgSession sp challenge auth env h hd hf ha

/-- C23: which credential leaves the host. (1) Hashing disabled: the challenge's own bytes. (2) Hashing
enabled: a 36-byte atom around the 34 bytes `D0 20` + derived key, so the drive sees a 34-byte value;
(3) commands for challenges with the same derived key are identical; (4) an empty challenge: neither
challenge nor authority. -/
theorem start_credential (ctx : Ctx) (d : Device) (s : Session) (sp : UID) (auth : AuthArg)
    (challenge : Bytes) (hne : challenge ≠ []) :
    (s.noHash = true → startWire ctx d s sp challenge auth.bytes =
      wireImage d.baseComId.toNat (leBytes 4 (s.tsn.toNat % 2 ^ 32)) (leBytes 4 (s.hsn.toNat % 2 ^ 32))
        (startSessionCall sp.bytes (some (stringArg challenge, auth.bytes)))) ∧
    (s.noHash = false → startWire ctx d s sp challenge auth.bytes =
      wireImage d.baseComId.toNat (leBytes 4 (s.tsn.toNat % 2 ^ 32)) (leBytes 4 (s.hsn.toNat % 2 ^ 32))
        (startSessionCall sp.bytes
          (some ([0xd0, 0x22] ++ [0xd0, 0x20] ++ ctx.kdf.key (challenge.take 32) d.serial, auth.bytes)))) ∧
    (s.noHash = false → ∀ other, other ≠ [] →
      ctx.kdf.key (challenge.take 32) d.serial = ctx.kdf.key (other.take 32) d.serial →
      startWire ctx d s sp challenge auth.bytes = startWire ctx d s sp other auth.bytes) ∧
    startWire ctx d s sp [] auth.bytes =
      wireImage d.baseComId.toNat (leBytes 4 (s.tsn.toNat % 2 ^ 32)) (leBytes 4 (s.hsn.toNat % 2 ^ 32))
        (startSessionCall sp.bytes none) := by
  unfold startWire startCredential
  simp only [hne, if_false, if_true]
  refine ⟨?_, ?_, ?_, trivial⟩
  · intro hn; simp [hn, challengeValue]
  · intro hn
    have hk := ctx.kdf.len (challenge.take 32) d.serial
    have : stringArg (challengeValue ctx.kdf s.noHash d.serial challenge)
        = [0xd0, 0x22] ++ [0xd0, 0x20] ++ ctx.kdf.key (challenge.take 32) d.serial := by
      have hlen : (0xd0 :: 0x20 :: ctx.kdf.key (challenge.take 32) d.serial : Bytes).length = 34 := by
        simp [hk]
      have hv : challengeValue ctx.kdf s.noHash d.serial challenge
          = 0xd0 :: 0x20 :: ctx.kdf.key (challenge.take 32) d.serial := by simp [hn, challengeValue]
      rw [hv]
      unfold stringArg Token.bytes
      rw [hlen, if_neg (by decide), if_pos (by decide), if_neg (by decide)]
      simp only [Token.encode, hlen]
      simp [Token.flag]
    rw [this]
  · intro hn other ho hk
    simp only [ho, if_false, hn, challengeValue, Bool.false_eq_true, hk]

/-- A session on an Opal device that meets the hypotheses; its call has 51 bytes. -/
example : opalDevice.isAnySSC = true ∧ 0 < sampleCtx.fuel ∧ (AuthArg.uid SID_UID).bytes.length ≤ 50000 ∧
    (startSessionCall adminSP (some (stringArg [0x61, 0x62], 0xa8 :: sidAuthority))).length = 51 := by
  decide +kernel

/-! ## C21: echo -/

/-- C21: if `Start` on an SSC device returned without error, then the drive's reply was accepted, its
fifth and sixth token carried a host and a TPer session number, and from then on every command of the
session carries exactly these (modulo 2^32) big-endian in bytes 24..27 and 20..23. -/
theorem session_numbers_echoed (ctx : Ctx) (d : Device) (s s' : Session) (sp : UID) (challenge : Bytes)
    (auth : AuthArg) (env : Prog.Env SecReq SecRep) (h : Prog.Trace SecReq SecRep)
    (hd : d.isAnySSC = true) (hf : 0 < ctx.fuel) (ha : auth.bytes.length ≤ 50000)
    (hok : (OutT.run env h (s.start ctx d sp challenge auth)).1 = .ret (s', none)) :
    ∃ r host tper, Answered (OutT.run env h (s.start ctx d sp challenge auth)).2 r ∧ Accepted r ∧
      SessionNumbers r host tper ∧
      ∀ (cmd : ABuf) (env' : Prog.Env SecReq SecRep) (h' : Prog.Trace SecReq SecRep), Geo cmd →
        0 < cmd.wpos → ∀ data rep,
        (sendOf d.baseComId data, rep) ∈ (OutT.run env' h' (s'.sendCommand ctx d cmd)).2 →
        slice data 24 4 = beBytes 4 host ∧ slice data 20 4 = beBytes 4 tper := by
  obtain ⟨c, _, _, _, hcase⟩ := start_summary ctx d s sp challenge auth env h hd hf ha
  rw [hok] at hcase
  rcases hcase with ⟨x, e, h1, _⟩ | ⟨r, _, _, _, h1⟩ | ⟨r, host, tper, h1, h2, _, h3, s2, h4, h5, h6, _⟩ | ⟨_, h1⟩
  · cases h1
  · cases h1
  · simp only [Out.ret.injEq, Prod.mk.injEq, and_true] at h4
    subst h4
    refine ⟨r, host, tper, h1, h2, h3, ?_⟩
    intro cmd env' h' g hw data rep hm
    rcases sendCommand_stamped ctx d s' cmd env' h' g hw hf _ rep hm rfl with e | ⟨data', e, e1, e2, _⟩
    · unfold sendOf at e; cases e
    · unfold sendOf at e
      simp only [SecReq.sec.injEq, true_and, and_true] at e
      rw [e, e1, e2, h5, h6]
      exact ⟨rfl, rfl⟩
  · cases h1

/-- C21, converse: an accepted reply with readable session numbers makes `Start` succeed. -/
theorem start_succeeds_on_numbers (ctx : Ctx) (d : Device) (s : Session) (sp : UID) (challenge : Bytes)
    (auth : AuthArg) (env : Prog.Env SecReq SecRep) (h : Prog.Trace SecReq SecRep)
    (hd : d.isAnySSC = true) (hf : 0 < ctx.fuel) (ha : auth.bytes.length ≤ 50000) :
    ∃ c, Cmd.make ctx.base (.uid SMUID_UID) (.method M_STARTSESSION)
        (s.startOps ctx d sp challenge auth) = .ret c ∧
      ((∃ s', (OutT.run env h (s.start ctx d sp challenge auth)).1 = .ret (s', none)) ↔
        ∃ r host tper, (OutT.run env h (s.sendCommand ctx d c)).1 = .ret (some r, none) ∧
          SessionNumbers r host tper) := by
  obtain ⟨c, hc, _, _, hcase⟩ := start_summary ctx d s sp challenge auth env h hd hf ha
  refine ⟨c, hc, ?_⟩
  rcases hcase with ⟨x, e, h1, _, h2⟩ | ⟨r, _, _, h0, h1⟩ | ⟨r, host, tper, h1, h2, h3, h4, s2, h5, _⟩ |
    ⟨h0, h1⟩
  · rw [h1]
    constructor
    · rintro ⟨_, hh⟩; cases hh
    · rintro ⟨r, host, tper, hr, hn⟩; exact absurd hn (h2 r host tper hr)
  · rw [h1, h0]
    constructor
    · rintro ⟨_, hh⟩; cases hh
    · rintro ⟨_, _, _, hh, _⟩; cases hh
  · rw [h5]
    exact ⟨fun _ => ⟨r, host, tper, h3, h4⟩, fun _ => ⟨s2, rfl⟩⟩
  · rw [h1, h0]
    constructor
    · rintro ⟨_, hh⟩; cases hh
    · rintro ⟨_, _, _, hh, _⟩; cases hh

end Dparm
