import Verif.Lemmas.Wire
/-!
# Properties of sessions (C18 to C25, C30)
-/
namespace Dparm
open Spec

variable {env : Prog.Env SecReq SecRep} {h : Prog.Trace SecReq SecRep}

/-! ## C18, C19: verdicts of SendCommand -/

theorem run_sendCommand (ctx : Ctx) (d : Device) (s : Session) (cmd : ABuf)
    (env : Prog.Env SecReq SecRep) (h : Prog.Trace SecReq SecRep) :
    (OutT.run env h (s.sendCommand ctx d cmd)).2
      = (OutT.run env h (d.exec ctx.fuel (s.stamp d cmd) 1)).2 ∧
    ((∃ x e, (OutT.run env h (d.exec ctx.fuel (s.stamp d cmd) 1)).1 = .ret (x, some e) ∧
        (OutT.run env h (s.sendCommand ctx d cmd)).1 = .ret (none, some e)) ∨
     (∃ r, (OutT.run env h (d.exec ctx.fuel (s.stamp d cmd) 1)).1 = .ret (some r, none) ∧ Parsed r ∧
        ((Session.checkResponse r = .panic ∧ (OutT.run env h (s.sendCommand ctx d cmd)).1 = .panic) ∨
         ∃ e, Session.checkResponse r = .ret e ∧
          (OutT.run env h (s.sendCommand ctx d cmd)).1 = .ret (some r, e))) ∨
     ((OutT.run env h (d.exec ctx.fuel (s.stamp d cmd) 1)).1 = .running ∧
        (OutT.run env h (s.sendCommand ctx d cmd)).1 = .running)) := by
  have hs := exec_shape d (s.stamp d cmd) 1 ctx.fuel env h
  unfold Session.sendCommand
  rw [OutT.run_bind]
  rcases hrun : OutT.run env h (d.exec ctx.fuel (s.stamp d cmd) 1) with ⟨o, t⟩
  rw [hrun] at hs
  simp only at hs
  rcases hs with ⟨x, e, rfl⟩ | ⟨r, rfl, hp⟩ | rfl
  · simp
  · simp only [OutT.run_bind]
    cases hc : Session.checkResponse r with
    | panic => simpa [hc] using hp
    | ret e => simpa [hc] using hp
  · simp

/-- C18: `SendCommand` returns a response with a nil error exactly when the exchange succeeded with that
response and the response is `Accepted`: non-zero length fields, at least one token, and END OF SESSION
first or a status list at the end whose number has low byte 0. -/
theorem sendCommand_success_iff (ctx : Ctx) (d : Device) (s : Session) (cmd : ABuf)
    (env : Prog.Env SecReq SecRep) (h : Prog.Trace SecReq SecRep) (x : Option Resp) :
    (OutT.run env h (s.sendCommand ctx d cmd)).1 = .ret (x, none) ↔
      ∃ r, x = some r ∧ (OutT.run env h (d.exec ctx.fuel (s.stamp d cmd) 1)).1 = .ret (some r, none) ∧
        Accepted r := by
  obtain ⟨_, hc⟩ := run_sendCommand ctx d s cmd env h
  rcases hc with ⟨y, e, h1, h2⟩ | ⟨r, h1, hp, h2⟩ | ⟨h1, h2⟩
  · rw [h1, h2]; simp
  · have hv := checkResponse_verdict hp
    have acc : Session.checkResponse r = .ret none ↔ Accepted r := by
      constructor
      · intro he
        rw [he] at hv
        cases hv with
        | endOfSession h0 h1 =>
          refine ⟨h0, ?_, .inl h1⟩
          obtain ⟨t, ht, _⟩ := h1
          intro hn; rw [hn] at ht; cases ht
        | success h0 h1 v hv hz =>
          refine ⟨h0, ?_, .inr ⟨v, hv, hz⟩⟩
          obtain ⟨st, ⟨pre, a, b, c, e, hl, _⟩, _⟩ := hv
          rw [hl]; simp
      · rintro ⟨a1, a2, a3⟩
        have key : ∀ v, Verdict r v → v = .ret none := by
          intro v hv
          cases hv with
          | noLengths h => exact absurd a1 h
          | noTokens _ h => exact absurd h a2
          | endOfSession => rfl
          | short hs =>
            obtain ⟨_, _, h4, h5⟩ := hs
            rcases a3 with a3 | ⟨v, ⟨st, ⟨pre, a, b, c, e, hl, _⟩, _⟩, _⟩
            · exact absurd a3 h5
            · rw [hl] at h4; simp at h4
          | noList _ h0 _ hl =>
            rcases a3 with a3 | ⟨v, ⟨st, hst, _⟩, _⟩
            · exact absurd a3 h0
            · exact absurd hst (hl st)
          | notNumber _ h0 st hl hu =>
            rcases a3 with a3 | ⟨v, ⟨st', hst, hu'⟩, _⟩
            · exact absurd a3 h0
            · have := statusList_unique hl hst
              subst this
              rw [hu] at hu'; cases hu'
          | failed _ h0 v hv hz =>
            rcases a3 with a3 | ⟨v', ⟨st', hst, hu'⟩, hz'⟩
            · exact absurd a3 h0
            · obtain ⟨st, hl, hu⟩ := hv
              have := statusList_unique hl hst
              subst this
              rw [hu] at hu'; cases hu'
              exact absurd hz' hz
          | success => rfl
        exact key _ hv
    rw [h1]
    rcases h2 with ⟨h2, h3⟩ | ⟨e, h2, h3⟩
    · rw [h3]
      constructor
      · intro hh; cases hh
      · rintro ⟨r', rfl, hr, ha⟩
        simp only [Out.ret.injEq, Prod.mk.injEq, Option.some.injEq, and_true] at hr
        subst hr
        rw [h2] at acc
        simp at acc
        exact absurd ha acc
    · rw [h3]
      simp only [Out.ret.injEq, Prod.mk.injEq, Option.some.injEq, and_true]
      rw [h2] at acc
      constructor
      · rintro ⟨rfl, rfl⟩
        exact ⟨r, rfl, rfl, acc.1 rfl⟩
      · rintro ⟨r', rfl, rfl, ha⟩
        have := acc.2 ha
        simp only [P.ret.injEq] at this
        exact ⟨rfl, this⟩
  · rw [h1, h2]; simp
where
  statusList_unique {r : Resp} {a b : Bytes} (ha : StatusList r a) (hb : StatusList r b) : a = b := by
    obtain ⟨p, _, _, _, _, h1, _⟩ := ha
    obtain ⟨q, _, _, _, _, h2, _⟩ := hb
    rw [h1] at h2
    have := List.append_inj' h2 rfl
    simp only [List.cons.injEq, and_true] at this
    exact this.2.2.1

/-- C18: a status list with a non-zero low byte yields the TCG error carrying exactly that byte. -/
theorem sendCommand_status (ctx : Ctx) (d : Device) (s : Session) (cmd : ABuf)
    (env : Prog.Env SecReq SecRep) (h : Prog.Trace SecReq SecRep) (r : Resp) (v : Nat)
    (hx : (OutT.run env h (d.exec ctx.fuel (s.stamp d cmd) 1)).1 = .ret (some r, none))
    (hl : LengthsPresent r) (he : ¬ EndOfSession r) (hv : StatusValue r v) (hne : v % 256 ≠ 0) :
    (OutT.run env h (s.sendCommand ctx d cmd)).1 = .ret (some r, some (.tcg (v % 256))) := by
  obtain ⟨_, hc⟩ := run_sendCommand ctx d s cmd env h
  rw [hx] at hc
  rcases hc with ⟨y, e, h1, h2⟩ | ⟨r', h1, hp, h2⟩ | ⟨h1, h2⟩
  · cases h1
  · simp only [Out.ret.injEq, Prod.mk.injEq, Option.some.injEq, and_true] at h1
    subst h1
    have hver := checkResponse_verdict hp
    have key : ∀ w, Verdict r w → w = .ret (some (.tcg (v % 256))) := by
      obtain ⟨st, hst, hu⟩ := hv
      have hlen : 5 ≤ r.tokens.length := by
        obtain ⟨p, _, _, _, _, h1, _⟩ := hst
        rw [h1]; simp
      intro w hw
      cases hw with
      | noLengths h => exact absurd hl h
      | noTokens _ h => rw [h] at hlen; simp at hlen
      | endOfSession _ h => exact absurd h he
      | short hs => obtain ⟨_, _, h4, _⟩ := hs; omega
      | noList _ _ _ hn => exact absurd hst (hn st)
      | notNumber _ _ st' hl' hu' =>
        have := sendCommand_success_iff.statusList_unique hl' hst
        subst this
        rw [hu] at hu'; cases hu'
      | failed _ _ v' hv' hz =>
        obtain ⟨st', hl', hu'⟩ := hv'
        have := sendCommand_success_iff.statusList_unique hl' hst
        subst this
        rw [hu] at hu'; cases hu'; rfl
      | success _ _ v' hv' hz =>
        obtain ⟨st', hl', hu'⟩ := hv'
        have := sendCommand_success_iff.statusList_unique hl' hst
        subst this
        rw [hu] at hu'; cases hu'
        exact absurd hz hne
    have := key _ hver
    rcases h2 with ⟨h2, h3⟩ | ⟨e, h2, h3⟩
    · rw [h2] at this; cases this
    · rw [h2] at this
      simp only [P.ret.injEq] at this
      rw [h3, this]
  · cases h1

/-- C19: `SendCommand` panics exactly when the exchange succeeded and the response has non-zero length
fields and one to four tokens of which the first is not END OF SESSION. -/
theorem sendCommand_panics_iff (ctx : Ctx) (d : Device) (s : Session) (cmd : ABuf)
    (env : Prog.Env SecReq SecRep) (h : Prog.Trace SecReq SecRep) :
    (OutT.run env h (s.sendCommand ctx d cmd)).1 = .panic ↔
      ∃ r, (OutT.run env h (d.exec ctx.fuel (s.stamp d cmd) 1)).1 = .ret (some r, none) ∧ TooShort r := by
  obtain ⟨_, hc⟩ := run_sendCommand ctx d s cmd env h
  rcases hc with ⟨y, e, h1, h2⟩ | ⟨r, h1, hp, h2⟩ | ⟨h1, h2⟩
  · rw [h1, h2]; simp
  · have hv := checkResponse_verdict hp
    have acc : Session.checkResponse r = .panic ↔ TooShort r := by
      constructor
      · intro he
        rw [he] at hv
        cases hv with
        | short hs => exact hs
      · intro hs
        have key : ∀ v, Verdict r v → v = .panic := by
          obtain ⟨s1, s2, s3, s4⟩ := hs
          have nolist : ∀ st, ¬ StatusList r st := by
            rintro st ⟨p, _, _, _, _, h1, _⟩
            rw [h1] at s3; simp at s3
          intro v hv
          cases hv with
          | noLengths h => exact absurd s1 h
          | noTokens _ h => rw [h] at s2; simp at s2
          | endOfSession _ h => exact absurd h s4
          | short => rfl
          | noList _ _ h5 => omega
          | notNumber _ _ st hl => exact absurd hl (nolist st)
          | failed _ _ v hv => obtain ⟨st, hl, _⟩ := hv; exact absurd hl (nolist st)
          | success _ _ v hv => obtain ⟨st, hl, _⟩ := hv; exact absurd hl (nolist st)
        exact key _ hv
    rw [h1]
    rcases h2 with ⟨h2, h3⟩ | ⟨e, h2, h3⟩
    · rw [h3]
      simp only [true_iff]
      exact ⟨r, rfl, acc.1 h2⟩
    · rw [h3]
      constructor
      · intro hh; cases hh
      · rintro ⟨r', hr, ha⟩
        simp only [Out.ret.injEq, Prod.mk.injEq, Option.some.injEq, and_true] at hr
        subst hr
        rw [acc.2 ha] at h2; cases h2
  · rw [h1, h2]; simp

/-! ### Concrete responses for C18 and C19 -/

/-- A response with the given payload: the three lengths set, zeros elsewhere. -/
def responseOf (payload : Bytes) : Bytes :=
  let n := BitVec.ofNat 8 payload.length
  zeros 19 ++ [1] ++ zeros 23 ++ [1] ++ zeros 11 ++ [n] ++ payload ++ zeros (2048 - 56 - payload.length)

/-- A drive answering every receive with the same payload. -/
def replyEnv (payload : Bytes) : Prog.Env SecReq SecRep := fun _ q => match q with
  | .sec false .. => { data := responseOf payload }
  | _ => {}

/-- A key derivation, for examples. -/
def zeroKdf : Kdf := ⟨fun _ _ => List.replicate 32 0, fun _ _ => by simp⟩
/-- A context, for examples. -/
def sampleCtx : Ctx := ⟨500, zeroKdf, 0⟩

/-- Status 0: accepted. -/
example : ∃ r, (OutT.run (replyEnv [0xf0, 0xf1, 0xf9, 0xf0, 0, 0, 0, 0xf1]) []
    (newTcgSession.sendCommand sampleCtx opalDevice (newTcgCommand 0))).1 = .ret (some r, none) := by
  have hd : ∀ o : Out (Option Resp × Option GoErr),
      (match o with | .ret (some _, none) => true | _ => false) = true → ∃ r, o = .ret (some r, none) := by
    intro o ho
    split at ho
    · exact ⟨_, rfl⟩
    · cases ho
  exact hd _ (by decide +kernel)

/-- Status 1 (NOT AUTHORIZED): the TCG error 1. -/
example : (match (OutT.run (replyEnv [0xf0, 0xf1, 0xf9, 0xf0, 1, 0, 0, 0xf1]) []
    (newTcgSession.sendCommand sampleCtx opalDevice (newTcgCommand 0))).1 with
    | .ret (some _, some (.tcg 1)) => true | _ => false) = true := by
  decide +kernel

/-- One token that is not END OF SESSION: panic. -/
example : (match (OutT.run (replyEnv [0xf0]) []
    (newTcgSession.sendCommand sampleCtx opalDevice (newTcgCommand 0))).1 with
    | .panic => true | _ => false) = true := by
  decide +kernel

/-! ## C20: stamping -/

/-- C20: whatever the session state, the device and the command (something having been written to it),
every request `SendCommand` makes of the drive uses protocol 1 and the device's base ComID, and the bytes
sent carry the low 32 bits of the session's numbers in native order at 24..27 (host) and 20..23 (TPer)
and the ComID big-endian at 4..5 followed by two zeros; from offset 28 on they are the command's own. -/
theorem sendCommand_stamped (ctx : Ctx) (d : Device) (s : Session) (cmd : ABuf)
    (env : Prog.Env SecReq SecRep) (h : Prog.Trace SecReq SecRep) (g : Geo cmd) (hw : 0 < cmd.wpos)
    (hf : 0 < ctx.fuel) (q : SecReq) (r : SecRep) (hq : (q, r) ∈ (OutT.run env h (s.sendCommand ctx d cmd)).2)
    (hio : isDriveIO (q, r)) :
    q = .sec false false 1 d.baseComId (zeros 2048) 5 ∨
    ∃ data, q = .sec true false 1 d.baseComId data 5 ∧
      slice data 24 4 = leBytes 4 (s.hsn.toNat % 2 ^ 32) ∧
      slice data 20 4 = leBytes 4 (s.tsn.toNat % 2 ^ 32) ∧
      slice data 4 4 = beBytes 2 d.baseComId.toNat ++ [0, 0] ∧
      data.drop 28 = (Cmd.wire cmd).drop 28 := by
  rw [(run_sendCommand ctx d s cmd env h).1] at hq
  obtain ⟨w1, w2, w3, w4⟩ := wire_stamp g hw s d
  have hsend : ∀ q r, (q, r) ∈ (OutT.run env h (d.exec ctx.fuel (s.stamp d cmd) 1)).2 →
      isDriveIO (q, r) → q = .sec true false 1 d.baseComId (Cmd.wire (s.stamp d cmd)) 5 ∨
        q = .sec false false 1 d.baseComId (zeros 2048) 5 := by
    intro q r hq hio
    by_cases hd : d.isAnySSC = true
    · exact (exec_counts d (s.stamp d cmd) 1 ctx.fuel env h hd hf).2 q r hq hio
    · rw [Device.exec, OutT.run_ask_bind, if_pos (by simpa using hd)] at hq
      simp only [OutT.run_ret, List.mem_cons, List.not_mem_nil, or_false, Prod.mk.injEq] at hq
      rw [hq.1] at hio
      simp [isDriveIO] at hio
  rcases hsend q r hq hio with e | e
  · exact .inr ⟨_, e, w3, w2, w1, w4⟩
  · exact .inl e

example : Geo (newTcgCommand 77) ∧ ∃ c, Cmd.make 77 (.uid ADMINSP_UID) (.method M_REVERT)
    [tSTARTLIST, tENDLIST] = .ret c ∧ Geo c ∧ 0 < c.wpos := by
  refine ⟨(newTcgCommand_win 77).geo, ?_⟩
  obtain ⟨c, h1, h2, h3, _⟩ := make_win 77 (.uid ADMINSP_UID) (.method M_REVERT) [tSTARTLIST, tENDLIST]
    (by simp) (by decide)
  exact ⟨c, h1, h2, by omega⟩

/-! ## C24: hashing -/

/-- C24: the credential depends only on the serial and the first 32 bytes of the password; hashed it is
`D0 20` and the 32-byte derived key; unhashed it is `D0`, the truncated length and at most 32 password
bytes. -/
theorem hash_prefix (kdf : Kdf) (serial p q : Bytes) (noHash : Bool) :
    (p.take 32 = q.take 32 →
      tcgHashPassword kdf serial noHash p = tcgHashPassword kdf serial noHash q) ∧
    tcgHashPassword kdf serial false p = 0xd0 :: 0x20 :: kdf.key (p.take 32) serial ∧
    (tcgHashPassword kdf serial false p).length = 34 ∧
    tcgHashPassword kdf serial true p
      = 0xd0 :: BitVec.ofNat 8 (min 32 p.length) :: p.take 32 := by
  have tk : ∀ p : Bytes, (if p.length > 32 then p.take 32 else p) = p.take 32 := by
    intro p
    split
    · rfl
    · rw [List.take_of_length_le (by omega)]
  simp only [tcgHashPassword, tk, kdf.len]
  refine ⟨fun e => by rw [e], ?_, ?_, ?_⟩
  · simp
  · simp [kdf.len]
  · simp [List.length_take]

/-- Two different passwords with the same credential. -/
example (kdf : Kdf) (serial : Bytes) :
    tcgHashPassword kdf serial false (List.replicate 32 0x61)
      = tcgHashPassword kdf serial false (List.replicate 32 0x61 ++ [0x62]) :=
  (hash_prefix kdf serial _ _ false).1 (by decide)

end Dparm
