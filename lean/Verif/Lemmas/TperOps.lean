import Verif.Lemmas.TperRun
import Verif.Lemmas.WireLength
/-!
# Lemmas: StartSession, Revert and Get on a conforming drive
-/
namespace Dparm
open Spec

theorem asBytes_bytes (d : Bytes) : (Token.bytes d).asBytes = some d := by
  unfold Token.bytes; split <;> rfl

theorem bytes_WF {d : Bytes} (h : d.length < 2048) : (Token.bytes d).WF := by
  unfold Token.bytes; split
  · assumption
  · exact h

/-- A call is read as it was written. -/
theorem readCall_call (i m : Bytes) (args : List Token) :
    readCall ([.call, .bytes i, .bytes m, .startList] ++ args ++ callEnd) = some ⟨i, m, args⟩ := by
  have hl : (args ++ callEnd).length - 7 = args.length := by
    rw [List.length_append]; show args.length + 7 - 7 = _; omega
  have h7 : 7 ≤ (args ++ callEnd).length := by
    rw [List.length_append]; show 7 ≤ args.length + 7; omega
  simp only [List.cons_append, List.nil_append, readCall, asBytes_bytes]
  rw [hl, List.drop_left, List.take_left, if_pos ⟨trivial, trivial, h7, rfl⟩]

/-- The StartSession call in tokens. -/
def startTokens (sp : Bytes) (cred : Option (Bytes × Bytes)) : List Token :=
  [.call, .bytes smUid, .bytes mStartSession, .startList] ++
  ([.uint 105, .bytes sp, .uint 1] ++
   (match cred with
    | none => []
    | some (c, u) => [.startName, .uint 0, .bytes c, .endName, .startName, .uint 3, .bytes u, .endName])) ++
  [.endList]

theorem startCall_tokens (sp : UID) (c : Bytes) (u : UID) (h0 : c ≠ []) (hc : c.length < 2048) :
    startSessionCall sp.bytes (some (stringArg c, 0xa8 :: u.bytes))
      = encodeAll (startTokens sp.bytes (some (c, u.bytes))) := by
  have hcl : c.length ≠ 0 := by simpa using h0
  have hs : stringArg c = (Token.bytes c).encode := by
    unfold stringArg; rw [if_neg hcl, if_pos hc]
  unfold startSessionCall callHead startTokens
  rw [hs, ← bytes8 u]
  simp [encodeAll, smUid, mStartSession]

theorem startCall_tokens_none (sp : UID) :
    startSessionCall sp.bytes none = encodeAll (startTokens sp.bytes none) := by
  unfold startSessionCall callHead startTokens
  simp [encodeAll, smUid, mStartSession]

theorem startTokens_read (sp : Bytes) (cred : Option (Bytes × Bytes)) :
    readCall (startTokens sp cred ++ trailerTokens) = some ⟨smUid, mStartSession,
      [.uint 105, .bytes sp, .uint 1] ++ (match cred with
      | none => []
      | some (c, u) => [.startName, .uint 0, .bytes c, .endName, .startName, .uint 3, .bytes u, .endName])⟩ := by
  have : startTokens sp cred ++ trailerTokens = [.call, .bytes smUid, .bytes mStartSession, .startList] ++
      ([.uint 105, .bytes sp, .uint 1] ++ (match cred with
      | none => []
      | some (c, u) => [.startName, .uint 0, .bytes c, .endName, .startName, .uint 3, .bytes u, .endName])) ++
      callEnd := by
    unfold startTokens
    simp only [List.append_assoc]
    rfl
  rw [this, readCall_call]

theorem startTokens_start (sp : Bytes) (cred : Option (Bytes × Bytes)) :
    readStart ([.uint 105, .bytes sp, .uint 1] ++ (match cred with
      | none => []
      | some (c, u) => [.startName, .uint 0, .bytes c, .endName, .startName, .uint 3, .bytes u, .endName]))
    = some ⟨105, sp, true, cred.map (·.1), cred.map (·.2)⟩ := by
  have e105 : (Token.uint 105).asNat = some 105 := by decide
  have e1 : (Token.uint 1).asNat = some 1 := by decide
  have e0 : (Token.uint 0).asNat = some 0 := by decide
  have e3 : (Token.uint 3).asNat = some 3 := by decide
  cases cred with
  | none => simp [readStart, e105, e1, asBytes_bytes, readNamed]
  | some x =>
    obtain ⟨c, u⟩ := x
    simp [readStart, e105, e1, e0, e3, asBytes_bytes, readNamed, List.lookup]

theorem startTokens_WF (sp : UID) (cred : Option (Bytes × Bytes))
    (hc : ∀ c u, cred = some (c, u) → c.length < 2048 ∧ u.length < 2048) :
    ∀ t ∈ startTokens sp.bytes cred, t.WF := by
  have hsp : sp.bytes.length < 2048 := by rw [sp.len]; omega
  have k1 : (Token.uint 105).WF := by decide
  have k2 : (Token.uint 1).WF := by decide
  have k3 : (Token.uint 0).WF := by decide
  have k4 : (Token.uint 3).WF := by decide
  have k5 : (Token.bytes smUid).WF := by decide
  have k6 : (Token.bytes mStartSession).WF := by decide
  have k7 : Token.call.WF ∧ Token.startList.WF ∧ Token.endList.WF ∧ Token.startName.WF ∧ Token.endName.WF := by decide
  intro t ht
  cases cred with
  | none =>
    simp only [startTokens, List.append_nil, List.cons_append, List.nil_append, List.mem_cons, List.not_mem_nil, or_false] at ht
    rcases ht with rfl | rfl | rfl | rfl | rfl | rfl | rfl | rfl
    · exact k7.1
    · exact k5
    · exact k6
    · exact k7.2.1
    · exact k1
    · exact bytes_WF hsp
    · exact k2
    · exact k7.2.2.1
  | some x =>
    obtain ⟨c, u⟩ := x
    obtain ⟨c1, c2⟩ := hc c u rfl
    simp only [startTokens, List.cons_append, List.nil_append, List.mem_cons, List.not_mem_nil, or_false] at ht
    rcases ht with rfl | rfl | rfl | rfl | rfl | rfl | rfl | rfl | rfl | rfl | rfl | rfl | rfl | rfl | rfl | rfl
    · exact k7.1
    · exact k5
    · exact k6
    · exact k7.2.1
    · exact k1
    · exact bytes_WF hsp
    · exact k2
    · exact k7.2.2.2.1
    · exact k3
    · exact bytes_WF c1
    · exact k7.2.2.2.2
    · exact k7.2.2.2.1
    · exact k4
    · exact bytes_WF c2
    · exact k7.2.2.2.2
    · exact k7.2.2.1

theorem bytes_encode_length (d : Bytes) : (Token.bytes d).encode.length ≤ d.length + 2 := by
  unfold Token.bytes
  split <;> simp [Token.encode]

theorem startTokens_length (sp : UID) (c : Bytes) (u : UID) :
    (encodeAll (startTokens sp.bytes (some (c, u.bytes)))).length ≤ 50 + c.length ∧
    (encodeAll (startTokens sp.bytes none)).length ≤ 40 := by
  have h1 : (Token.bytes sp.bytes).encode.length = 9 := by rw [bytes8]; simp [sp.len]
  have h2 : (Token.bytes u.bytes).encode.length = 9 := by rw [bytes8]; simp [u.len]
  have h3 : (Token.bytes smUid).encode.length = 9 := by decide
  have h4 : (Token.bytes mStartSession).encode.length = 9 := by decide
  have h5 : (Token.uint 105).encode.length = 2 := by decide
  have h6 : (Token.uint 1).encode.length = 1 := by decide
  have h7 : (Token.uint 0).encode.length = 1 := by decide
  have h8 : (Token.uint 3).encode.length = 1 := by decide
  have h9 : Token.call.encode.length = 1 ∧ Token.startList.encode.length = 1 ∧ Token.endList.encode.length = 1 ∧
    Token.startName.encode.length = 1 ∧ Token.endName.encode.length = 1 := by decide
  obtain ⟨i1, i2, i3, i4, i5⟩ := h9
  have h10 := bytes_encode_length c
  constructor
  · simp only [startTokens, encodeAll, List.cons_append, List.nil_append, List.flatMap_cons, List.flatMap_nil,
      List.length_append, h1, h2, h3, h4, h5, h6, h7, h8, i1, i2, i3, i4, i5, List.length_nil]
    omega
  · simp only [startTokens, encodeAll, List.cons_append, List.nil_append, List.flatMap_cons, List.flatMap_nil,
      List.length_append, h1, h3, h4, h5, h6, i1, i2, i3, List.length_nil, List.append_nil]
    omega


/-- The credential `Start` presents: none for an empty challenge. -/
def presented (kdf : Kdf) (noHash : Bool) (serial challenge : Bytes) (u : UID) : Option (Bytes × Bytes) :=
  if challenge = [] then none else some (challengeValue kdf noHash serial challenge, u.bytes)

/-- The arguments the drive sees. -/
def seenArgs (cred : Option (Bytes × Bytes)) : StartArgs :=
  ⟨105, adminSP, true, cred.map (·.1), cred.map (·.2)⟩

theorem challengeValue_ne {kdf : Kdf} {noHash : Bool} {serial challenge : Bytes} (h : challenge ≠ []) :
    challengeValue kdf noHash serial challenge ≠ [] := by
  unfold challengeValue
  split
  · exact h
  · simp

theorem challengeValue_length {kdf : Kdf} {noHash : Bool} {serial challenge : Bytes}
    (h : noHash = true → challenge.length ≤ 400) : (challengeValue kdf noHash serial challenge).length ≤ 400 := by
  unfold challengeValue
  split
  · exact h ‹_›
  · simp [kdf.len]

/-- The packet of a StartSession command, as the drive reads it. -/
theorem start_packet_any (ctx : Ctx) (d : Device) (s : Session) (challenge : Bytes) (u : UID)
    (hs : d.isAnySSC = true) (hl : s.noHash = true → challenge.length ≤ 400) :
    ∃ c, Cmd.make ctx.base (.uid SMUID_UID) (.method M_STARTSESSION)
        (s.startOps ctx d ADMINSP_UID challenge (.uid u)) = .ret c ∧
      readPacket (Cmd.wire (s.stamp d c)) = some ⟨d.baseComId.toNat, beVal (leBytes 4 (s.tsn.toNat % 2 ^ 32)),
        beVal (leBytes 4 (s.hsn.toNat % 2 ^ 32)),
        startTokens adminSP (presented ctx.kdf s.noHash d.serial challenge u) ++ trailerTokens⟩ := by
  have henc := startOps_enc ctx d s ADMINSP_UID challenge (.uid u) hs
  have hau : (AuthArg.uid u).bytes.length ≤ 50000 := by
    show (0xa8 :: u.bytes).length ≤ _
    simp [u.len]
  have hlen := startCall_length ADMINSP_UID ctx.kdf s.noHash d.serial challenge (AuthArg.uid u).bytes hau
  rw [← henc, List.length_append] at hlen
  obtain ⟨c, hc, _, _, hwire⟩ := make_wire ctx.base (.uid SMUID_UID) (.method M_STARTSESSION)
    (s.startOps ctx d ADMINSP_UID challenge (.uid u)) s d (by simp) (by omega)
  refine ⟨c, hc, ?_⟩
  have htok : startSessionCall ADMINSP_UID.bytes
      (startCredential ctx.kdf s.noHash d.serial challenge (AuthArg.uid u).bytes)
      = encodeAll (startTokens ADMINSP_UID.bytes (presented ctx.kdf s.noHash d.serial challenge u)) := by
    unfold startCredential presented
    by_cases h0 : challenge = []
    · rw [if_pos h0, if_pos h0]; exact startCall_tokens_none _
    · rw [if_neg h0, if_neg h0]
      have := challengeValue_length (kdf := ctx.kdf) (noHash := s.noHash) (serial := d.serial) hl
      exact startCall_tokens _ _ u (challengeValue_ne h0) (by omega)
  rw [hwire, henc, htok]
  have hfit : (encodeAll (startTokens ADMINSP_UID.bytes (presented ctx.kdf s.noHash d.serial challenge u))).length
      ≤ 450 := by
    unfold presented
    by_cases h0 : challenge = []
    · rw [if_pos h0]
      have := (startTokens_length ADMINSP_UID [] u).2
      omega
    · rw [if_neg h0]
      have h1 := (startTokens_length ADMINSP_UID (challengeValue ctx.kdf s.noHash d.serial challenge) u).1
      have := challengeValue_length (kdf := ctx.kdf) (noHash := s.noHash) (serial := d.serial) hl
      omega
  rw [readPacket_wireImage _ d.baseComId.isLt _ _ (leBytes_length _ _) (leBytes_length _ _)]
  · rfl
  · apply startTokens_WF
    intro c' u' hcu
    unfold presented at hcu
    by_cases h0 : challenge = []
    · rw [if_pos h0] at hcu; cases hcu
    · rw [if_neg h0] at hcu
      have := challengeValue_length (kdf := ctx.kdf) (noHash := s.noHash) (serial := d.serial) hl
      simp only [Option.some.injEq, Prod.mk.injEq] at hcu
      rw [← hcu.1, ← hcu.2, u.len]
      omega
  · omega

theorem start_packet (ctx : Ctx) (d : Device) (s : Session) (challenge : Bytes) (u : UID)
    (hs : d.isAnySSC = true) (hl : s.noHash = true → challenge.length ≤ 400)
    (hn : leBytes 4 (s.hsn.toNat % 2 ^ 32) = [0, 0, 0, 0] ∧ leBytes 4 (s.tsn.toNat % 2 ^ 32) = [0, 0, 0, 0]) :
    ∃ c, Cmd.make ctx.base (.uid SMUID_UID) (.method M_STARTSESSION)
        (s.startOps ctx d ADMINSP_UID challenge (.uid u)) = .ret c ∧
      readPacket (Cmd.wire (s.stamp d c)) = some ⟨d.baseComId.toNat, 0, 0,
        startTokens adminSP (presented ctx.kdf s.noHash d.serial challenge u) ++ trailerTokens⟩ := by
  have h := start_packet_any ctx d s challenge u hs hl
  rw [hn.1, hn.2] at h
  exact h

theorem perform_start (dr : Drive) (tper : Nat) (s : DriveState) (comId : Nat) (cred : Option (Bytes × Bytes)) :
    dr.perform tper s ⟨comId, 0, 0, startTokens adminSP cred ++ trailerTokens⟩
      = dr.startSession tper s (seenArgs cred) := by
  unfold Drive.perform
  rw [startTokens_read]
  simp only [and_self, if_true]
  rw [startTokens_start]
  rfl

/-- The answer to StartSession. -/
def startAnswer (dr : Drive) (tper : Nat) (s : DriveState) (a : StartArgs) : Answer :=
  if dr.maxSessions ≤ s.sessions.length then .refused 7
  else if dr.admits s a then .sync a.host tper else .refused 1

theorem startSession_answer (dr : Drive) (tper : Nat) (s : DriveState) (cred : Option (Bytes × Bytes)) :
    (dr.startSession tper s (seenArgs cred)).answer = some (startAnswer dr tper s (seenArgs cred)) := by
  unfold Drive.startSession startAnswer
  rw [if_neg (by simp [seenArgs])]
  split
  · rfl
  · split <;> rfl

/-- The session numbers in a fetched SyncSession. -/
theorem fetched_sync {host tper : Nat} {r : Resp} (hf : Fetched (.sync host tper) r) :
    SessionNumbers r (host % 2 ^ 64) (tper % 2 ^ 64) := by
  obtain ⟨_, _, ts, ⟨sm, m, h, t, more, stt, rfl, _, _, hh, ht, _⟩, hw, hT⟩ := hf
  refine ⟨_, _, _, _, h.encode, t.encode, _, by rw [hT]; rfl, ?_, ?_⟩
  · exact unsignedValue_encode h (hw h (by simp)) hh
  · exact unsignedValue_encode t (hw t (by simp)) ht

theorem sessionNumbers_unique {r : Resp} {a b c d : Nat} (h1 : SessionNumbers r a b) (h2 : SessionNumbers r c d) :
    a = c ∧ b = d := by
  obtain ⟨_, _, _, _, x, y, _, e1, e2, e3⟩ := h1
  obtain ⟨_, _, _, _, x', y', _, k1, k2, k3⟩ := h2
  rw [e1] at k1
  simp only [List.cons.injEq] at k1
  obtain ⟨_, _, _, _, rfl, rfl, _⟩ := k1
  rw [e2] at k2
  rw [e3] at k3
  exact ⟨Option.some.inj k2, Option.some.inj k3⟩

/-- `Start` on the Admin SP of a conforming drive. -/
theorem start_conforming {dr : Drive} {W : Nat} {env : Prog.Env SecReq SecRep}
    {st : Prog.Trace SecReq SecRep → DriveState} (hc : Conforming dr W env st) (ctx : Ctx) (d : Device)
    (hd : d.baseComId = dr.comId) (hs : d.isAnySSC = true) (hf : W < ctx.fuel) (s : Session)
    (challenge : Bytes) (u : UID) (hl : s.noHash = true → challenge.length ≤ 400)
    (hn : leBytes 4 (s.hsn.toNat % 2 ^ 32) = [0, 0, 0, 0] ∧ leBytes 4 (s.tsn.toNat % 2 ^ 32) = [0, 0, 0, 0])
    (h : Prog.Trace SecReq SecRep) (a : StartArgs)
    (ha : a = seenArgs (presented ctx.kdf s.noHash d.serial challenge u)) :
    ∃ tper, tper < 2 ^ 32 ∧
    ((Slow env ∧ (OutT.run env h (s.start ctx d ADMINSP_UID challenge (.uid u))).1
          = .ret (s, some (.msg "timeout")) ∧
        ∃ x w, st (h ++ (OutT.run env h (s.start ctx d ADMINSP_UID challenge (.uid u))).2)
          = { dr.startSession tper (st h) a with answer := x, wait := w }) ∨
     (st (h ++ (OutT.run env h (s.start ctx d ADMINSP_UID challenge (.uid u))).2)
          = { dr.startSession tper (st h) a with answer := none, wait := 0 } ∧
      ((∃ k, (k = 7 ∨ k = 1) ∧ (k = 7 ↔ dr.maxSessions ≤ (st h).sessions.length) ∧
          (k = 1 → dr.admits (st h) a = false) ∧
          (OutT.run env h (s.start ctx d ADMINSP_UID challenge (.uid u))).1 = .ret (s, some (.tcg k))) ∨
       (∃ s', ¬ dr.maxSessions ≤ (st h).sessions.length ∧ dr.admits (st h) a = true ∧
          (OutT.run env h (s.start ctx d ADMINSP_UID challenge (.uid u))).1 = .ret (s', none) ∧
          leBytes 4 (s'.hsn.toNat % 2 ^ 32) = beBytes 4 105 ∧
          leBytes 4 (s'.tsn.toNat % 2 ^ 32) = beBytes 4 tper)))) := by
  obtain ⟨c, hmake, hp⟩ := start_packet ctx d s challenge u hs hl hn
  obtain ⟨tper, ht, hrest⟩ := sendCommand_conforming hc ctx d hd hs hf s c h _ hp (by rw [hd])
    (make_readable_length _ _ _ _ (by simp) s d hmake hp)
  refine ⟨tper, ht, ?_⟩
  rw [perform_start, ← ha] at hrest
  have hans := startSession_answer dr tper (st h) (presented ctx.kdf s.noHash d.serial challenge u)
  rw [← ha] at hans
  have hauth : (AuthArg.uid u).bytes.length ≤ 50000 := by
    show (0xa8 :: u.bytes).length ≤ _
    simp [u.len]
  obtain ⟨c', hmake', htr, _, hsum⟩ := start_summary ctx d s ADMINSP_UID challenge (.uid u) env h hs (by omega) hauth
  rw [hmake] at hmake'
  simp only [P.ret.injEq] at hmake'
  subst hmake'
  have hstart : ∀ x e, (OutT.run env h (s.sendCommand ctx d c)).1 = .ret (x, some e) →
      (OutT.run env h (s.start ctx d ADMINSP_UID challenge (.uid u))).1 = .ret (s, some e) := by
    intro x e hx
    unfold Session.start
    rw [hmake, OutT.run_bind, OutT.run_lift_ret]
    simp only [List.append_nil]
    rw [OutT.run_bind]
    rcases hq : OutT.run env h (s.sendCommand ctx d c) with ⟨o, t⟩
    rw [hq] at hx
    simp only at hx
    subst hx
    rfl
  have hka : ∀ k, startAnswer dr tper (st h) a = .refused k → 0 < k ∧ k < 256 := by
    intro k hk
    unfold startAnswer at hk
    split at hk
    · simp only [Answer.refused.injEq] at hk; omega
    · split at hk
      · cases hk
      · simp only [Answer.refused.injEq] at hk; omega
  rw [htr]
  rcases hrest _ hans hka with ⟨r, k1, k2, k3⟩ | ⟨k1, k2, k3⟩
  · right
    refine ⟨k3, ?_⟩
    unfold startAnswer at k1 k2
    by_cases hfull : dr.maxSessions ≤ (st h).sessions.length
    · rw [if_pos hfull] at k2
      left
      exact ⟨7, .inl rfl, ⟨fun _ => hfull, fun _ => rfl⟩, (fun x => by omega), hstart _ _ k2⟩
    · rw [if_neg hfull] at k1 k2
      by_cases hadm : dr.admits (st h) a = true
      · right
        rw [if_pos hadm] at k1 k2
        have hsn := fetched_sync k1
        have hah : a.host = 105 := by rw [ha]; rfl
        rw [hah] at hsn
        rcases hsum with ⟨s', e, _, _, h3⟩ | ⟨_, _, _, h3, _⟩ | ⟨r', host', tper', _, _, h3, h4, s', h5, h6, h7, _⟩ |
          ⟨h3, _⟩
        · exact absurd hsn (h3 r _ _ k2)
        · rw [k2] at h3; cases h3
        · rw [k2] at h3
          simp only [answerError, Out.ret.injEq, Prod.mk.injEq, Option.some.injEq, and_true] at h3
          subst h3
          obtain ⟨x1, x2⟩ := sessionNumbers_unique hsn h4
          refine ⟨s', hfull, hadm, h5, ?_, ?_⟩
          · rw [h6, ← x1]
          · rw [h7, ← x2, Nat.mod_eq_of_lt (by omega)]
        · rw [k2] at h3; cases h3
      · left
        rw [if_neg hadm] at k2
        exact ⟨1, .inr rfl, ⟨(fun x => by omega), fun x => absurd x hfull⟩, (fun _ => by simpa using hadm),
          hstart _ _ k2⟩
  · left
    exact ⟨k1, hstart _ _ k2, k3⟩

/-! ## Revert and Get in an open session -/

def revertTokens : List Token := [.call, .bytes adminSP, .bytes mRevert, .startList, .endList]
def getMsidTokens : List Token := [.call, .bytes cPinMsid, .bytes mGet, .startList] ++ pinColumn ++ [.endList]

theorem revertCall_tokens : revertCall = encodeAll revertTokens := by decide
theorem getMsidCall_tokens : getMsidCall = encodeAll getMsidTokens := by decide

/-- The packet of a command in an open session. -/
theorem session_packet (base : Nat) (inv : InvokingArg) (m : MethodArg) (ops : List AddOp) (s : Session)
    (d : Device) (hinv : ∀ x, inv ≠ .method x) (ts : List Token)
    (henc : encInit inv m ++ encAdds ops = encodeAll ts) (hw : ∀ t ∈ ts, t.WF)
    (hlen : (encodeAll ts).length ≤ 450) (host tper : Nat) (hh : host < 2 ^ 32) (ht : tper < 2 ^ 32)
    (h1 : leBytes 4 (s.hsn.toNat % 2 ^ 32) = beBytes 4 host)
    (h2 : leBytes 4 (s.tsn.toNat % 2 ^ 32) = beBytes 4 tper) :
    ∃ c, Cmd.make base inv m ops = .ret c ∧
      readPacket (Cmd.wire (s.stamp d c)) = some ⟨d.baseComId.toNat, tper, host, ts ++ trailerTokens⟩ := by
  have hl : (encInit inv m).length + (encAdds ops).length ≤ 450 := by
    rw [← List.length_append, henc]; exact hlen
  obtain ⟨c, hc, _, _, hwire⟩ := make_wire base inv m ops s d hinv (by omega)
  refine ⟨c, hc, ?_⟩
  rw [hwire, henc, h1, h2, readPacket_wireImage _ d.baseComId.isLt _ _ (beBytes_length _ _) (beBytes_length _ _)
    ts hw (by omega)]
  rw [beVal_beBytes, beVal_beBytes, Nat.mod_eq_of_lt (by omega), Nat.mod_eq_of_lt (by omega)]

theorem revertTokens_read : readCall (revertTokens ++ trailerTokens) = some ⟨adminSP, mRevert, []⟩ :=
  readCall_call adminSP mRevert []

theorem getMsidTokens_read : readCall (getMsidTokens ++ trailerTokens) = some ⟨cPinMsid, mGet, pinColumn⟩ :=
  readCall_call cPinMsid mGet pinColumn

end Dparm
