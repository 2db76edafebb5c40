import Verif.Props.Session
/-!
# Lemmas on Start
-/
namespace Dparm
open Spec

theorem bswap_bytes (v : Nat) :
    leBytes 4 (((Session.bswap32 (BitVec.ofNat 32 v)).setWidth 64).toNat % 2 ^ 32) = beBytes 4 v := by
  have hl : (leBytes 4 (v % 2 ^ 32)).length = 4 := leBytes_length _ _
  have hlt := beVal_lt (leBytes 4 (v % 2 ^ 32))
  rw [hl] at hlt
  have e1 : ((Session.bswap32 (BitVec.ofNat 32 v)).setWidth 64).toNat % 2 ^ 32
      = beVal (leBytes 4 (v % 2 ^ 32)) := by
    unfold Session.bswap32
    simp only [BitVec.toNat_setWidth, BitVec.toNat_ofNat]
    have : (256 : Nat) ^ 4 = 2 ^ 32 := by decide
    omega
  rw [e1, ← leVal_reverse]
  have := leBytes_leVal (leBytes 4 (v % 2 ^ 32)).reverse
  rw [List.length_reverse, hl] at this
  rw [this, leBytes_reverse]
  exact beBytes_mod 4 v 4 (Nat.le_refl 4)

/-- Building a command never panics. -/
theorem make_total (base : Nat) (inv : InvokingArg) (m : MethodArg) (ops : List AddOp) :
    ∃ c, Cmd.make base inv m ops = .ret c ∧ Geo c := by
  have gall : ∀ (ops : List AddOp) (c : ABuf), Geo c →
      ∃ c' es, Cmd.addAll c ops = .ret (c', es) ∧ Geo c' := by
    intro ops
    induction ops with
    | nil => exact fun c g => ⟨c, [], rfl, g⟩
    | cons o os ih =>
      intro c g
      obtain ⟨c1, e1, h1, g1, _⟩ := geo_add g o
      obtain ⟨c2, es, h2, g2⟩ := ih c1 g1
      exact ⟨c2, e1 :: es, by simp only [Cmd.addAll, h1, h2], g2⟩
  obtain ⟨c1, e1, h1, g1, _⟩ := geo_init (newTcgCommand_win base).geo inv m
  obtain ⟨c2, es, h2, g2⟩ := gall ops c1 g1
  obtain ⟨c3, e3, h3, g3, _⟩ := geo_complete g2 true
  refine ⟨c3, ?_, g3⟩
  unfold Cmd.make
  rw [h1, P.ret_bind]
  simp only [h2, P.ret_bind, h3]
  rfl

theorem sends_flatMap (p : Byte) (c : BitVec 16) (rs : List Round) :
    sends (rs.flatMap (Round.exchanges p c)) = [] := by
  induction rs with
  | nil => rfl
  | cons r rs ih =>
    unfold sends at ih ⊢
    simp only [List.flatMap_cons, List.filter_append, ih]
    rfl

theorem sends_append (a b : Prog.Trace SecReq SecRep) : sends (a ++ b) = sends a ++ sends b := by
  simp [sends]

/-- One command on an SSC device: exactly one send; how the outcome comes about. -/
theorem sendCommand_summary (ctx : Ctx) (d : Device) (s : Session) (cmd : ABuf)
    (env : Prog.Env SecReq SecRep) (h : Prog.Trace SecReq SecRep) (hd : d.isAnySSC = true)
    (hf : 0 < ctx.fuel) :
    (∃ sent, sends (OutT.run env h (s.sendCommand ctx d cmd)).2
        = [(sendOf d.baseComId (Cmd.wire (s.stamp d cmd)), sent)]) ∧
    ((∃ x e, (OutT.run env h (s.sendCommand ctx d cmd)).1 = .ret (x, some e)) ∨
     (∃ r, Answered (OutT.run env h (s.sendCommand ctx d cmd)).2 r ∧ Parsed r ∧ TooShort r ∧
        (OutT.run env h (s.sendCommand ctx d cmd)).1 = .panic) ∨
     (∃ r, Answered (OutT.run env h (s.sendCommand ctx d cmd)).2 r ∧ Parsed r ∧ Accepted r ∧
        (OutT.run env h (s.sendCommand ctx d cmd)).1 = .ret (some r, none)) ∨
     (OutT.run env h (s.sendCommand ctx d cmd)).1 = .running) := by
  obtain ⟨htr, hc⟩ := run_sendCommand ctx d s cmd env h
  have hiff := sendCommand_success_iff ctx d s cmd env h
  have hpan := sendCommand_panics_iff ctx d s cmd env h
  obtain ⟨t0, sent, rounds, e1, e2, e3⟩ := exec_exchanges d (s.stamp d cmd) 1 ctx.fuel env h hd hf
  rw [htr]
  constructor
  · refine ⟨sent, ?_⟩
    rw [e1]
    have := sends_flatMap 1 d.baseComId rounds
    unfold sends at this ⊢
    simp only [List.filter_cons, this]
    rfl
  · have hans : ∀ r, (OutT.run env h (d.exec ctx.fuel (s.stamp d cmd) 1)).1 = .ret (some r, none) →
        Answered (OutT.run env h (d.exec ctx.fuel (s.stamp d cmd) 1)).2 r := by
      intro r hr
      cases hs : sent.err with
      | some e => rw [(e2 e hs).2] at hr; cases hr
      | none =>
        obtain ⟨front, last, f1, f2, l1, l2, l3, l4⟩ := e3 hs
        rw [hr] at l1 l2 l3 l4
        cases hl : last.got.err with
        | some e => cases l1 e hl
        | none =>
          by_cases c1 : last.expired t0.time
          · cases l2 hl c1
          · by_cases c2 : last.pending
            · cases (l4 ⟨hl, c1, c2⟩).1
            · have hp := l3 hl c1 c2
              simp only [Out.ret.injEq, Prod.mk.injEq, Option.some.injEq] at hp
              refine ⟨(.now, t0) :: (.sec true false 1 d.baseComId (Cmd.wire (s.stamp d cmd)) 5, sent) ::
                front.flatMap (Round.exchanges 1 d.baseComId), 1, d.baseComId, last, ?_, hl, ?_⟩
              · rw [e1, f1, List.flatMap_append]; simp
              · exact Prod.ext hp.1.symm hp.2.symm
    rcases hc with ⟨x, e, h1, h2⟩ | ⟨r, h1, hp, h2⟩ | ⟨_, h2⟩
    · exact .inl ⟨none, e, h2⟩
    · rcases h2 with ⟨_, h3⟩ | ⟨e, _, h3⟩
      · obtain ⟨r', hr', hs⟩ := hpan.1 h3
        rw [h1] at hr'
        simp only [Out.ret.injEq, Prod.mk.injEq, Option.some.injEq, and_true] at hr'
        subst hr'
        exact .inr (.inl ⟨r, hans r h1, hp, hs, h3⟩)
      · cases e with
        | some e => exact .inl ⟨_, _, h3⟩
        | none =>
          obtain ⟨r', hr', _, hs⟩ := (hiff _).1 h3
          simp only [Option.some.injEq] at hr'
          subst hr'
          exact .inr (.inr (.inl ⟨r, hans r h1, hp, hs, h3⟩))
    · exact .inr (.inr (.inr h2))

/-- The credential part of a StartSession call. -/
def startCredential (kdf : Kdf) (noHash : Bool) (serial challenge authority : Bytes) :
    Option (Bytes × Bytes) :=
  if challenge = [] then none
  else some (stringArg (challengeValue kdf noHash serial challenge), authority)

theorem encAdd_str_none (t : Bytes) : encAdd (.str t none) = stringArg t := by
  unfold encAdd encAdd.encStr stringArg Token.bytes
  by_cases h0 : t.length = 0
  · simp [h0]
  · simp only [h0, if_false]
    by_cases h1 : t.length < 16
    · have h2 : t.length < 2048 := by omega
      simp only [h1, h2, if_true, Token.encode, Token.flag]
      congr 2
    · simp only [h1, if_false]
      by_cases h2 : t.length < 2048
      · simp only [h2, if_true, Token.encode, Token.flag]
        congr 2
      · simp [h2]

theorem credential_eq (ctx : Ctx) (d : Device) (s : Session) (challenge : Bytes) :
    Session.credential ctx d s challenge = challengeValue ctx.kdf s.noHash d.serial challenge := by
  unfold Session.credential challengeValue
  cases s.noHash
  · simp only [Bool.not_false, if_true, Bool.false_eq_true, if_false]
    exact (hash_prefix ctx.kdf d.serial challenge [] false).2.1
  · simp

theorem bytes8 (u : UID) : (Token.bytes u.bytes).encode = 0xa8 :: u.bytes := by
  unfold Token.bytes
  rw [if_pos (by rw [u.len]; omega)]
  simp [Token.encode, Token.flag, u.len]

theorem startOps_enc (ctx : Ctx) (d : Device) (s : Session) (sp : UID) (challenge : Bytes)
    (auth : AuthArg) (hd : d.isAnySSC = true) :
    encInit (.uid SMUID_UID) (.method M_STARTSESSION) ++ encAdds (s.startOps ctx d sp challenge auth)
      = startSessionCall sp.bytes (startCredential ctx.kdf s.noHash d.serial challenge auth.bytes) := by
  have he : d.isEnterprise = false := by
    unfold Device.isAnySSC at hd
    unfold Device.isEnterprise
    cases hk : d.kind <;> simp [hk] at hd ⊢
  have hhead : encInit (.uid SMUID_UID) (.method M_STARTSESSION)
      = callHead [0, 0, 0, 0, 0, 0, 0, 0xff] [0, 0, 0, 0, 0, 0, 0xff, 2] := by decide
  unfold startSessionCall
  rw [hhead, List.append_assoc, List.append_assoc]
  congr 1
  unfold Session.startOps
  simp only [he, Bool.not_false, and_true, Bool.false_eq_true, if_false, List.append_nil]
  have hfront : ∀ rest, encAdds ([tSTARTLIST, AddOp.num 105, .tok (.uid sp), tUINT 1] ++ rest)
      = encodeAll [.startList, .uint 105, .bytes sp.bytes, .uint 1] ++ encAdds rest := by
    intro rest
    have e1 : encAdd tSTARTLIST = Token.encode .startList := by decide
    have e2 : encAdd (.num 105) = Token.encode (.uint 105) := by decide
    have e3 : encAdd (.tok (.uid sp)) = Token.encode (.bytes sp.bytes) := by rw [encAdd_uid, bytes8]
    have e4 : encAdd (tUINT 1) = Token.encode (.uint 1) := by decide
    simp only [encAdds, encodeAll, List.flatMap_append, List.flatMap_cons, List.flatMap_nil, e1, e2, e3, e4]
  rw [List.append_assoc, hfront]
  congr 1
  have hend : encAdds [tENDLIST] = encodeAll [.endList] := by decide
  unfold startCredential
  by_cases hc : challenge = []
  · simp only [hc, ne_eq, not_true_eq_false, if_false, if_true, List.nil_append]
    exact hend
  · simp only [ne_eq, hc, not_false_eq_true, if_true, if_false]
    have e1 : encAdd tSTARTNAME = Token.encode .startName := by decide
    have e2 : encAdd tENDNAME = Token.encode .endName := by decide
    have e3 : encAdd (tUINT 0) = Token.encode (.uint 0) := by decide
    have e4 : encAdd (tUINT 3) = Token.encode (.uint 3) := by decide
    have e5 : encAdd tENDLIST = Token.encode .endList := by decide
    have e6 : encAdd (.raw auth.bytes) = auth.bytes := rfl
    simp only [encAdds, encodeAll, List.flatMap_append, List.flatMap_cons, List.flatMap_nil, e1, e2, e3, e4,
      e5, e6, encAdd_str_none, credential_eq, List.append_nil, List.append_assoc]

theorem stringArg_length (t : Bytes) : (stringArg t).length ≤ 2050 := by
  unfold stringArg
  split
  · simp
  · split
    · unfold Token.bytes
      split <;> simp [Token.encode] <;> omega
    · simp

theorem startCall_length (sp : UID) (kdf : Kdf) (nh : Bool)
    (serial challenge authority : Bytes) (ha : authority.length ≤ 50000) :
    (startSessionCall sp.bytes (startCredential kdf nh serial challenge authority)).length ≤ 53000 := by
  have h1 := stringArg_length (challengeValue kdf nh serial challenge)
  have h2 : (Token.bytes sp.bytes).encode.length = 9 := by rw [bytes8]; simp [sp.len]
  have h3 : (callHead [0, 0, 0, 0, 0, 0, 0, 0xff] [0, 0, 0, 0, 0, 0, 0xff, 2]).length = 19 := by decide
  have h4 : (Token.uint 105).encode.length = 2 := by decide
  have h5 : (Token.uint 1).encode.length = 1 := by decide
  have h6 : (Token.uint 0).encode.length = 1 := by decide
  have h7 : (Token.uint 3).encode.length = 1 := by decide
  have h8 : Token.startList.encode.length = 1 := by decide
  have h9 : Token.endList.encode.length = 1 := by decide
  have h10 : Token.startName.encode.length = 1 := by decide
  have h11 : Token.endName.encode.length = 1 := by decide
  unfold startSessionCall startCredential
  split
  · rename_i heq
    simp only [List.length_append, encodeAll, List.flatMap_cons, List.flatMap_nil, List.length_nil,
      h2, h3, h4, h5, h8, h9]
    omega
  · rename_i ch au heq
    split at heq
    · cases heq
    · simp only [Option.some.injEq, Prod.mk.injEq] at heq
      rw [← heq.1, ← heq.2]
      simp only [List.length_append, encodeAll, List.flatMap_cons, List.flatMap_nil, List.length_nil,
        h2, h3, h4, h5, h6, h7, h8, h9, h10, h11]
      omega

end Dparm
