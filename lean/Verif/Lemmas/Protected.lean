import Verif.Spec.Protected
import Verif.Lemmas.SharedDrive
import Verif.Props.Looking
import Verif.Props.Concurrent
/-!
# Lemmas: what the packets of the library can do to a drive
-/
namespace Dparm
open Spec

/-! ## Packets that did not fit -/

theorem readPacket_cut (comId : Nat) (tsn hsn payload : Bytes) (ht : tsn.length = 4) (hh : hsn.length = 4)
    (hl : 450 < payload.length) (hu : payload.length < 100000) : readPacket (wireImage comId tsn hsn payload) = none := by
  unfold wireImage
  dsimp only
  obtain ⟨body, hb⟩ : ∃ b, b = payload ++ [0xf9, 0xf0, 0x00, 0x00, 0x00, 0xf1] := ⟨_, rfl⟩
  rw [← hb]
  have hbl : body.length = payload.length + 6 := by rw [hb]; simp
  obtain ⟨n, hn⟩ : ∃ n, n = body.length := ⟨_, rfl⟩
  rw [← hn]
  have b2 : (beBytes 2 comId).length = 2 := beBytes_length _ _
  have b4a : (beBytes 4 (up4 n + 36)).length = 4 := beBytes_length _ _
  have b4b : (beBytes 4 (up4 n + 12)).length = 4 := beBytes_length _ _
  have b4c : (beBytes 4 n).length = 4 := beBytes_length _ _
  obtain ⟨pre, hp⟩ : ∃ p, p = (zeros 4 ++ beBytes 2 comId ++ zeros 2) ++ zeros 8 ++ beBytes 4 (up4 n + 36)
    ++ tsn ++ hsn ++ zeros 12 ++ beBytes 4 (up4 n + 12) ++ zeros 8 := ⟨_, rfl⟩
  have hpl : pre.length = 52 := by
    rw [hp]; simp only [List.length_append, zeros_length, b2, b4a, b4b, ht, hh]
  rw [← hp]
  have s52 : slice ((pre ++ beBytes 4 n ++ body ++ zeros 512).take 512) 52 4 = beBytes 4 n := by
    unfold slice
    rw [← hpl, List.append_assoc, List.append_assoc, List.drop_take, List.take_take, List.drop_left, hpl,
      Nat.min_eq_left (by omega)]
    exact List.take_left' b4c
  have hlen : ((pre ++ beBytes 4 n ++ body ++ zeros 512).take 512).length = 512 := by
    rw [List.length_take]; simp; omega
  have hv : beVal (beBytes 4 n) = n := by
    rw [beVal_beBytes]
    exact Nat.mod_eq_of_lt (by omega)
  unfold readPacket
  dsimp only
  rw [s52, hv, hlen, if_neg]
  rintro ⟨h, -⟩
  unfold up4 at h
  omega

/-! ## What a packet can do -/

variable {dr : Drive} {C : Option (Bytes × Bytes) → Prop}

/-- The credentials of a StartSession. -/
def offered (a : StartArgs) : Option (Bytes × Bytes) :=
  match a.challenge, a.authority with
  | some v, some u => some (v, u)
  | _, _ => none

theorem offered_seen (cred : Option (Bytes × Bytes)) : offered (seenArgs cred) = cred := by
  cases cred <;> rfl

/-- Whatever the state of the drive: it only answers, or it opens a session if the credentials (of `C`) admit, or it reverts in a
session of SID or PSID. -/
def Tame (dr : Drive) (C : Option (Bytes × Bytes) → Prop) (p : Packet) : Prop := ∀ tper s,
  (∃ x, dr.perform tper s p = { s with answer := x }) ∨
  (∃ a, C (offered a) ∧ dr.perform tper s p = dr.startSession tper s a) ∨
  ((∃ o ∈ s.sessions, o.Privileged) ∧ dr.perform tper s p = ⟨dr.msid, [], some .done, s.wait, s.reverts + 1⟩)

theorem tame_lib {k : Packet} (hL : LibPacket C k) : Tame dr C k := by
  intro tper s
  rcases hL with ⟨cred, hC, h1, h2, h3⟩ | hL | hL
  · right; left
    refine ⟨seenArgs cred, by rw [offered_seen]; exact hC, ?_⟩
    obtain ⟨a, b, c, d⟩ := k
    simp only at h1 h2 h3
    subst h1 h2 h3
    rw [perform_start]
  · unfold Drive.perform
    rw [hL, revertTokens_read]
    dsimp only
    split
    · rw [if_neg (by rintro ⟨h1, _⟩; exact absurd h1 (by decide))]
      exact .inl ⟨_, rfl⟩
    · split
      · exact .inl ⟨_, rfl⟩
      · rename_i o ho
        unfold Drive.method
        rw [if_pos ⟨rfl, rfl, rfl⟩]
        split
        · rename_i hp
          exact .inr (.inr ⟨⟨o, List.mem_of_find?_eq_some ho, hp⟩, rfl⟩)
        · exact .inl ⟨_, rfl⟩
  · left
    unfold Drive.perform
    rw [hL, getMsidTokens_read]
    dsimp only
    split
    · rw [if_neg (by rintro ⟨h1, _⟩; exact absurd h1 (by decide))]
      exact ⟨_, rfl⟩
    · split
      · exact ⟨_, rfl⟩
      · unfold Drive.method
        rw [if_neg (by rintro ⟨h1, _⟩; exact absurd h1 (by decide)), if_pos ⟨rfl, rfl, rfl⟩]
        exact ⟨_, rfl⟩

/-- A packet is tame if the credentials of its StartSession are allowed. -/
theorem tame_any {k : Packet} (h : ∀ c a, readCall k.tokens = some c → c.invoking = smUid → c.method = mStartSession →
    readStart c.args = some a → C (offered a)) : Tame dr C k := by
  intro tper s
  unfold Drive.perform
  split
  · exact .inl ⟨_, rfl⟩
  · rename_i c hc
    split
    · split
      · rename_i hm
        split
        · exact .inl ⟨_, rfl⟩
        · rename_i a ha
          exact .inr (.inl ⟨a, h c a hc hm.1 hm.2 ha, rfl⟩)
      · exact .inl ⟨_, rfl⟩
    · split
      · exact .inl ⟨_, rfl⟩
      · rename_i o ho
        unfold Drive.method
        split
        · split
          · rename_i hp
            exact .inr (.inr ⟨⟨o, List.mem_of_find?_eq_some ho, hp⟩, rfl⟩)
          · exact .inl ⟨_, rfl⟩
        · split
          · exact .inl ⟨_, rfl⟩
          · exact .inl ⟨_, rfl⟩

/-- StartSession as the library writes it with a password of 2048 bytes or more: the name of the challenge without a value. -/
def gapTokens (sp u : Bytes) : List Token :=
  [.call, .bytes smUid, .bytes mStartSession, .startList] ++
  ([.uint 105, .bytes sp, .uint 1] ++ [.startName, .uint 0, .endName, .startName, .uint 3, .bytes u, .endName]) ++ [.endList]

theorem gapTokens_read (sp u : Bytes) : readCall (gapTokens sp u ++ trailerTokens) = some ⟨smUid, mStartSession,
    [.uint 105, .bytes sp, .uint 1] ++ [.startName, .uint 0, .endName, .startName, .uint 3, .bytes u, .endName]⟩ := by
  have : gapTokens sp u ++ trailerTokens = [.call, .bytes smUid, .bytes mStartSession, .startList] ++
      ([.uint 105, .bytes sp, .uint 1] ++ [.startName, .uint 0, .endName, .startName, .uint 3, .bytes u, .endName]) ++ callEnd := by
    unfold gapTokens
    simp only [List.append_assoc]
    rfl
  rw [this, readCall_call]

theorem gapTokens_start (sp u : Bytes) : readStart ([.uint 105, .bytes sp, .uint 1] ++
    [.startName, .uint 0, .endName, .startName, .uint 3, .bytes u, .endName]) = none := by
  have e105 : (Token.uint 105).asNat = some 105 := by decide
  have e1 : (Token.uint 1).asNat = some 1 := by decide
  have e0 : (Token.uint 0).asNat = some 0 := by decide
  simp [readStart, e105, e1, e0, asBytes_bytes, readNamed]

theorem tame_gap {k : Packet} (sp u : Bytes) (h1 : k.tsn = 0) (h2 : k.hsn = 0) (h3 : k.tokens = gapTokens sp u ++ trailerTokens) :
    Tame dr C k := by
  intro tper s
  left
  unfold Drive.perform
  rw [h3, gapTokens_read]
  dsimp only
  rw [if_pos ⟨h1, h2⟩, if_pos ⟨rfl, rfl⟩, gapTokens_start]
  exact ⟨_, rfl⟩

theorem startCall_gap (sp : UID) (c : Bytes) (u : UID) (hc : 2048 ≤ c.length) :
    startSessionCall sp.bytes (some (stringArg c, 0xa8 :: u.bytes)) = encodeAll (gapTokens sp.bytes u.bytes) := by
  have hs : stringArg c = [] := by
    unfold stringArg; rw [if_neg (by omega), if_neg (by omega)]
  unfold startSessionCall callHead gapTokens
  rw [hs, ← bytes8 u]
  simp [encodeAll, smUid, mStartSession]

theorem gapTokens_WF (sp u : UID) : ∀ t ∈ gapTokens sp.bytes u.bytes, t.WF := by
  have k1 : (Token.uint 105).WF := by decide
  have k2 : (Token.uint 1).WF := by decide
  have k3 : (Token.uint 0).WF := by decide
  have k4 : (Token.uint 3).WF := by decide
  have k5 : (Token.bytes smUid).WF := by decide
  have k6 : (Token.bytes mStartSession).WF := by decide
  have k8 : (Token.bytes sp.bytes).WF := bytes_WF (by rw [sp.len]; omega)
  have k9 : (Token.bytes u.bytes).WF := bytes_WF (by rw [u.len]; omega)
  have k7 : Token.call.WF ∧ Token.startList.WF ∧ Token.endList.WF ∧ Token.startName.WF ∧ Token.endName.WF := by decide
  intro t ht
  simp only [gapTokens, List.cons_append, List.nil_append, List.mem_cons, List.not_mem_nil, or_false] at ht
  obtain ⟨j1, j2, j3, j4, j5⟩ := k7
  rcases ht with rfl | rfl | rfl | rfl | rfl | rfl | rfl | rfl | rfl | rfl | rfl | rfl | rfl | rfl | rfl <;> assumption

theorem gapTokens_length (sp u : UID) : (encodeAll (gapTokens sp.bytes u.bytes)).length ≤ 450 := by
  have h2 : (Token.bytes u.bytes).encode.length = 9 := by rw [bytes8]; simp [u.len]
  have h1 : (Token.bytes sp.bytes).encode.length = 9 := by rw [bytes8]; simp [sp.len]
  have h3 : (Token.bytes smUid).encode.length = 9 := by decide
  have h4 : (Token.bytes mStartSession).encode.length = 9 := by decide
  have h5 : (Token.uint 105).encode.length = 2 := by decide
  have h6 : (Token.uint 1).encode.length = 1 := by decide
  have h7 : (Token.uint 0).encode.length = 1 := by decide
  have h8 : (Token.uint 3).encode.length = 1 := by decide
  have h9 : Token.call.encode.length = 1 ∧ Token.startList.encode.length = 1 ∧ Token.endList.encode.length = 1 ∧
    Token.startName.encode.length = 1 ∧ Token.endName.encode.length = 1 := by decide
  obtain ⟨i1, i2, i3, i4, i5⟩ := h9
  simp only [gapTokens, encodeAll, List.cons_append, List.nil_append, List.flatMap_cons, List.flatMap_nil,
      List.length_append, h1, h2, h3, h4, h5, h6, h7, h8, i1, i2, i3, i4, i5, List.length_nil]
  omega

/-- StartSession with any password: the drive reads nothing, or a packet that is tame. -/
theorem start_wire_tame (ctx : Ctx) (d : Device) (s : Session) (challenge : Bytes) (u : UID) (hs : d.isAnySSC = true)
    (hn : leBytes 4 (s.hsn.toNat % 2 ^ 32) = [0, 0, 0, 0] ∧ leBytes 4 (s.tsn.toNat % 2 ^ 32) = [0, 0, 0, 0])
    (hC : C (presented ctx.kdf s.noHash d.serial challenge u)) {c : ABuf}
    (hm : Cmd.make ctx.base (.uid SMUID_UID) (.method M_STARTSESSION) (s.startOps ctx d ADMINSP_UID challenge (.uid u)) = .ret c)
    (p : Packet) (hp : readPacket (Cmd.wire (s.stamp d c)) = some p) : Tame dr C p := by
  have henc := startOps_enc ctx d s ADMINSP_UID challenge (.uid u) hs
  have hau : (AuthArg.uid u).bytes.length ≤ 50000 := by
    show (0xa8 :: u.bytes).length ≤ _
    simp [u.len]
  have hlen := startCall_length ADMINSP_UID ctx.kdf s.noHash d.serial challenge (AuthArg.uid u).bytes hau
  rw [← henc, List.length_append] at hlen
  obtain ⟨c', hc, _, _, hwire⟩ := make_wire ctx.base (.uid SMUID_UID) (.method M_STARTSESSION)
    (s.startOps ctx d ADMINSP_UID challenge (.uid u)) s d (by simp) (by omega)
  rw [hm] at hc
  cases hc
  rw [hwire, hn.1, hn.2] at hp
  rw [← List.length_append] at hlen
  rw [henc] at hp hlen
  unfold startCredential at hp hlen
  by_cases h0 : challenge = []
  · obtain ⟨c'', hm', hp'⟩ := start_packet ctx d s challenge u hs (by rw [h0]; simp) hn
    rw [hm] at hm'
    cases hm'
    rw [hwire, hn.1, hn.2, henc] at hp'
    unfold startCredential at hp'
    rw [hp'] at hp
    cases hp
    exact tame_lib (.inl ⟨_, hC, rfl, rfl, rfl⟩)
  · rw [if_neg h0] at hp hlen
    unfold presented at hC
    rw [if_neg h0] at hC
    generalize hv : challengeValue ctx.kdf s.noHash d.serial challenge = v at hp hlen hC
    have hv0 : v ≠ [] := hv ▸ challengeValue_ne h0
    by_cases hl : v.length < 2048
    · rw [show (AuthArg.uid u).bytes = 0xa8 :: u.bytes from rfl, startCall_tokens _ _ u hv0 hl] at hp hlen
      by_cases hf : (encodeAll (startTokens ADMINSP_UID.bytes (some (v, u.bytes)))).length ≤ 450
      · rw [readPacket_wireImage _ d.baseComId.isLt _ _ rfl rfl _
          (startTokens_WF _ _ (by rintro c' u' h; cases h; exact ⟨hl, by rw [u.len]; omega⟩)) (by omega)] at hp
        cases hp
        exact tame_lib (.inl ⟨_, hC, rfl, rfl, rfl⟩)
      · rw [readPacket_cut _ _ _ _ rfl rfl (by omega) (by omega)] at hp
        cases hp
    · rw [show (AuthArg.uid u).bytes = 0xa8 :: u.bytes from rfl, startCall_gap _ _ u (by omega)] at hp
      have := gapTokens_length ADMINSP_UID u
      rw [readPacket_wireImage _ d.baseComId.isLt _ _ rfl rfl _ (gapTokens_WF ADMINSP_UID u) (by omega)] at hp
      cases hp
      exact tame_gap ADMINSP_UID.bytes u.bytes rfl rfl rfl

/-! ## Requests to the drive -/

/-- The bytes are no packet for the drive, or a tame one. -/
def TameBytes (dr : Drive) (C : Option (Bytes × Bytes) → Prop) (data : Bytes) : Prop :=
  ∀ p, readPacket data = some p → p.comId = dr.comId.toNat → Tame dr C p

theorem tame_zeros (n : Nat) : TameBytes dr C (zeros n) := by
  intro p hp
  exfalso
  have hz : ∀ a b, beVal (slice (zeros n) a b) = 0 := by
    intro a b
    have : slice (zeros n) a b = zeros (slice (zeros n) a b).length := by
      unfold slice zeros
      simp
    rw [this]
    exact beVal_replicate_zero _
  unfold readPacket at hp
  dsimp only at hp
  rw [hz, hz, hz, hz, if_neg] at hp
  · cases hp
  · rintro ⟨-, -, h, -⟩
    exact absurd h (by decide)

/-- A request of the TCG layer that cannot do more than `C` allows. -/
def TameSec (dr : Drive) (C : Option (Bytes × Bytes) → Prop) : SecReq → Prop
  | .sec true _ p c data _ => p = 1 → c = dr.comId → TameBytes dr C data
  | _ => True

theorem tame_cmd {d : Device} {wire : Bytes} (h : d.isAnySSC = true → d.baseComId = dr.comId → TameBytes dr C wire) :
    CmdAsks (TameSec dr C) d wire :=
  ⟨trivial, fun hs => ⟨trivial, trivial, fun _ hc => h hs hc⟩⟩

theorem start_tame (ctx : Ctx) (d : Device) (s : Session) (challenge : Bytes) (u : UID)
    (hn : leBytes 4 (s.hsn.toNat % 2 ^ 32) = [0, 0, 0, 0] ∧ leBytes 4 (s.tsn.toNat % 2 ^ 32) = [0, 0, 0, 0])
    (hC : d.isAnySSC = true → d.baseComId = dr.comId → C (presented ctx.kdf s.noHash d.serial challenge u)) (c : ABuf)
    (hm : Cmd.make ctx.base (.uid SMUID_UID) (.method M_STARTSESSION) (s.startOps ctx d ADMINSP_UID challenge (.uid u)) = .ret c) :
    CmdAsks (TameSec dr C) d (Cmd.wire (s.stamp d c)) :=
  tame_cmd (fun hs hd p hp _ => start_wire_tame ctx d s challenge u hs hn (hC hs hd) hm p hp)

theorem getDefaultPassword_tame (ctx : Ctx) (d : Device) (hC : C none) : OutT.Asks (TameSec dr C) (d.getDefaultPassword ctx) := by
  refine getDefaultPassword_asks_of ctx d trivial ?_ ?_
  · exact start_tame ctx d newTcgSession [] UID_HEXFF (by decide) (fun _ _ => hC)
  · intro s c hs hm
    obtain ⟨host, tper, hp⟩ := any_session_packet ctx.base (.buf Device.msidTable) (.method M_GET) (Device.getTableOps 3 3) s d (by simp)
      getMsidTokens (getMsid_enc.trans getMsidCall_tokens) (by decide) (by decide) hm
    refine tame_cmd (fun _ _ p h _ => ?_)
    rw [hp] at h
    cases h
    exact tame_lib (.inr (.inr rfl))

section
attribute [local irreducible] OutT.Asks Session.start

theorem revertTPer_tame (ctx : Ctx) (d : Device) (pw : Bytes) (psid adm : Bool)
    (hC : d.isAnySSC = true → d.baseComId = dr.comId →
      C (presented ctx.kdf (revertSession psid).noHash d.serial pw (if psid then PSID_UID else SID_UID))) :
    OutT.Asks (TameSec dr C) (d.revertTPer ctx pw psid adm) := by
  by_cases hs : d.isAnySSC = true
  · rw [revertTPer_opal (ssc_opal hs)]
    have hdef : d.revertOpal ctx pw psid = ((revertSession psid).start ctx d ADMINSP_UID pw
        (.uid (if psid then PSID_UID else SID_UID)) >>= fun (s, e) => match e with
          | some e => OutT.ret (some e)
          | none => do
            let cmd ← OutT.lift (Cmd.make ctx.base (.uid ADMINSP_UID) (.method M_REVERT) [tSTARTLIST, tENDLIST])
            let (_, e) ← s.sendCommand ctx d cmd
            OutT.ret e) := rfl
    rw [hdef]
    refine OutT.asks_bind (start_asks_of ctx d _ _ _ _ trivial
      (start_tame ctx d (revertSession psid) pw _ (revertSession_num psid).2 hC)) (fun x => ?_)
    obtain ⟨s, e⟩ := x
    cases e with
    | some e => exact OutT.asks_ret _
    | none =>
      dsimp only
      refine OutT.asks_lift_bind (fun cmd hm => ?_)
      refine OutT.asks_bind (sendCommand_asks_of ctx d s cmd (tame_cmd (fun _ _ p h _ => ?_))) (fun _ => OutT.asks_ret _)
      obtain ⟨host, tper, hp⟩ := any_session_packet ctx.base (.uid ADMINSP_UID) (.method M_REVERT) [tSTARTLIST, tENDLIST] s d (by simp)
        revertTokens (revertOps_enc.trans revertCall_tokens) (by decide) (by decide) hm
      rw [hp] at h
      cases h
      exact tame_lib (.inr (.inl rfl))
  · exact revertTPer_now ctx d trivial hs pw psid adm

end

/-! ## System calls -/

/-- A system call that can do no more to the drive than `C` allows. -/
def TameCall (dr : Drive) (C : Option (Bytes × Bytes) → Prop) (q : LReq) : Prop :=
  ∀ data, Hands dr.comId data (.sys q) → TameBytes dr C data

theorem satDecode_85_a1 {cdb : Bytes} {s : Sat} (h : satDecode cdb = some s) : cdb[0]? = some 0x85 ∨ cdb[0]? = some 0xa1 := by
  unfold satDecode at h
  split at h
  · split at h
    · rename_i e; left; rw [e]; rfl
    · cases h
  · split at h
    · rename_i e; right; rw [e]; rfl
    · cases h
  · cases h

theorem looks_tame {q : LReq} (h : LooksOnly q) : TameCall dr C q := by
  intro data hh
  exfalso
  rcases h with h | ⟨fd, rec, buf, rfl, h⟩
  · cases q with
    | os _ => exact hh
    | place => exact hh
    | nvmeIo _ _ _ => exact hh
    | nvme fd op rec buf =>
      have h1 := hh.1
      rcases h.2 with h2 | ⟨h2, -⟩ <;> (rw [h1] at h2; exact absurd h2 (by decide))
    | sgIo fd q => exact hh.1 h.1
  · have h1 := hh.1
    rw [h1] at h
    exact absurd h (by decide)

/-- A request to a driver that can do no more to the drive than `C` allows. -/
def TameDrv (dr : Drive) (C : Option (Bytes × Bytes) → Prop) : DrvReq → Prop
  | .sec true _ p c data _ => p = 1 → c = dr.comId → TameBytes dr C data
  | _ => True

theorem secCdb_sends {rw : Bool} {p : Byte} {c : BitVec 16} {n : Nat} {comId : BitVec 16} (h : CdbSends comId (sgSecCdb rw p c n)) :
    rw = true ∧ p = 1 ∧ c = comId := by
  have h0 : (sgSecCdb rw p c n)[0]? = some (if rw then 0xb5#8 else 0xa2#8) := rfl
  rcases h with ⟨h1, h2, h3⟩ | ⟨s, h1, -⟩
  · rw [h0] at h1
    cases rw with
    | false => exact absurd h1 (by decide)
    | true =>
      refine ⟨rfl, ?_, ?_⟩
      · have : (sgSecCdb true p c n)[1]? = some p := rfl
        rw [this] at h2
        exact Option.some.inj h2
      · have : slice (sgSecCdb true p c n) 2 2 = beBytes 2 c.toNat := rfl
        rw [this, beVal_beBytes] at h3
        have := c.isLt
        exact BitVec.eq_of_toNat_eq (by rw [← h3]; exact (Nat.mod_eq_of_lt (by omega)).symm)
  · rcases satDecode_85_a1 h1 with h | h <;> (rw [h0] at h; cases rw <;> exact absurd h (by decide))

section
attribute [local irreducible] OutT.Asks

/-- SG_IO requests of the driver. -/
def TameSg (dr : Drive) (C : Option (Bytes × Bytes) → Prop) : KReq → Prop
  | .sgIo q => ∀ data, q.dir ≠ -3 → CdbSends dr.comId q.cdb → HasMemory q data → TameBytes dr C data
  | .close => True

theorem sgTaskFile_tame (rw dma : Bool) (tf : Tf) (data : Option Bytes) (addr base to : Nat) :
    OutT.Asks (TameSg dr C) (sgTaskFile rw dma tf data addr base to) := by
  have hraw : ∀ d, TameSg dr C (.sgIo (sgTaskReq rw dma tf d to (.raw sgHdrSize))) := by
    rintro d m - - ⟨a, h⟩
    cases h
  unfold sgTaskFile
  dsimp only
  refine OutT.asks_lift_bind (fun x hx => ?_)
  obtain ⟨x, ab⟩ := x
  refine OutT.asks_bind (OutT.asks_ask ?_) (fun r => OutT.asks_bind (OutT.asks_lift _) (fun d => ?_))
  · rintro m hdir - ⟨a, hm⟩
    have hm : x = .mem a m := hm
    subst hm
    cases data with
    | none =>
      cases rw <;> cases hx
    | some d =>
      cases rw with
      | false => exact absurd rfl hdir
      | true =>
        have hx' : sgFirstMem true (zeros d.length) addr base = .ret (.mem a m, ab) := hx
        by_cases hd : zeros d.length = []
        · unfold sgFirstMem at hx'
          rw [if_pos hd] at hx'
          cases hx'
        · obtain ⟨a', c', ab', h1, -, -, h2, -⟩ := sgFirstMem_spec true _ addr base hd
          rw [hx'] at h1
          cases h1
          rw [h2 rfl]
          exact tame_zeros _
  · split
    · exact OutT.asks_ret _
    · refine OutT.asks_bind (OutT.asks_ask (hraw d)) (fun r2 => ?_)
      split
      · exact OutT.asks_ret _
      · exact OutT.asks_ret _

theorem sgSecurity_tame (rw : Bool) (p : Byte) (c : BitVec 16) (data : Bytes) (addr base to : Nat)
    (h : rw = true → p = 1 → c = dr.comId → TameBytes dr C data) :
    OutT.Asks (TameSg dr C) (sgSecurity rw p c data addr base to) := by
  have hraw : ∀ d, TameSg dr C (.sgIo (sgSecReq rw p c d to (.raw sgHdrSize))) := by
    rintro d m - - ⟨a, h⟩
    cases h
  unfold sgSecurity
  dsimp only
  refine OutT.asks_lift_bind (fun x hx => ?_)
  obtain ⟨x, ab⟩ := x
  refine OutT.asks_bind (OutT.asks_ask ?_) (fun r => OutT.asks_bind (OutT.asks_lift _) (fun d => ?_))
  · rintro m - hcdb ⟨a, hm⟩
    have hm : x = .mem a m := hm
    subst hm
    obtain ⟨rfl, rfl, rfl⟩ := secCdb_sends hcdb
    have hx' : sgFirstMem true data addr base = .ret (.mem a m, ab) := hx
    by_cases hd : data = []
    · unfold sgFirstMem at hx'
      rw [if_pos hd] at hx'
      cases hx'
    · obtain ⟨a', c', ab', h1, -, -, h2, -⟩ := sgFirstMem_spec true _ addr base hd
      rw [hx'] at h1
      cases h1
      rw [h2 rfl]
      exact h rfl rfl rfl
  · split
    · exact OutT.asks_ret _
    · refine OutT.asks_bind (OutT.asks_ask (hraw d)) (fun r2 => ?_)
      split
      · exact OutT.asks_ret _
      · exact OutT.asks_ret _

theorem sgDriver_tame (addr base : Nat) (behind : Nat → Byte) (q : DrvReq) (hq : TameDrv dr C q) :
    OutT.Asks (TameSg dr C) (sgDriver addr base behind q) := by
  cases q with
  | sec rw dma p c data to =>
    refine OutT.asks_bind (sgSecurity_tame _ _ _ _ _ _ _ ?_) (fun _ => OutT.asks_ret _)
    rintro rfl
    exact hq
  | taskFile => exact OutT.asks_bind (sgTaskFile_tame ..) (fun _ => OutT.asks_ret _)
  | taskNil => exact OutT.asks_bind (sgTaskFile_tame ..) (fun _ => OutT.asks_ret _)
  | close => exact OutT.asks_bind (OutT.asks_ask (show TameSg dr C .close from trivial)) (fun _ => OutT.asks_ret _)
  | drivingType => exact OutT.asks_ret _
  | driverName => exact OutT.asks_ret _
  | nvmeAdmin => exact OutT.asks_panic
  | logPage => exact OutT.asks_panic

end

theorem drvSg_tame (fd : Nat) (q : DrvReq) (hq : TameDrv dr C q) : OutT.Asks (TameCall dr C) (drvSg fd q) := by
  unfold drvSg
  refine OutT.asks_bind (OutT.asks_ask (fun _ h => h.elim)) (fun p => OutT.asks_bind ?_ (fun _ => OutT.asks_ret _))
  refine OutT.asks_interp (A := TameSg dr C) _ _ (sgDriver_tame _ _ _ q hq) ?_
  intro q hq
  cases q with
  | close => exact OutT.asks_bind (OutT.asks_ask (fun _ h => h.elim)) (fun _ => OutT.asks_ret _)
  | sgIo q => exact OutT.asks_bind (OutT.asks_ask (fun data h => hq data h.1 h.2.1 h.2.2)) (fun _ => OutT.asks_ret _)

section
attribute [local irreducible] OutT.Asks

theorem nvmeSec_tame (fd : Nat) (rw : Bool) (p : Byte) (c : BitVec 16) (buf : Bytes)
    (h : rw = true → p = 1 → c = dr.comId → TameBytes dr C buf) :
    OutT.Asks (TameCall dr C) (drvNv fd (.nvmeAdmin (securityNvme rw p c buf))) := by
  unfold drvNv
  refine OutT.asks_bind (OutT.asks_ask (fun _ h => h.elim)) (fun pl => ?_)
  refine OutT.asks_bind (OutT.asks_bind (OutT.asks_bind ?_ (fun _ => OutT.asks_ret _)) (fun _ => OutT.asks_ret _)) (fun _ => OutT.asks_ret _)
  refine OutT.asks_bind (OutT.asks_ask ?_) (fun _ => OutT.asks_ret _)
  rintro data ⟨h1, h2, h3, h4⟩
  cases h4
  have hcd : (adminRecord (securityNvme rw p c buf) (BitVec.ofNat 64 pl.addr)).cdw10.toNat = (securityNvme rw p c buf).cdw10.toNat := rfl
  have hp := p.isLt
  have hc := c.isLt
  unfold securityOf at h2 h3
  dsimp only at h2 h3
  rw [hcd, securityNvme_cdw10] at h2 h3
  refine h ?_ (BitVec.eq_of_toNat_eq (by show p.toNat = 1; omega)) (BitVec.eq_of_toNat_eq (by omega))
  cases rw with
  | true => rfl
  | false => exact absurd h1 (by show ¬ (0x82#8 = 0x81#8); decide)

theorem security_does (i fd : Nat) (h : Handle) (hd : DriverOf i h.dh) (rw dma : Bool) (p : Byte) (c : BitVec 16) (buf : Bytes)
    (to : Nat) (hb : rw = true → p = 1 → c = dr.comId → TameBytes dr C buf) :
    OutT.Asks (TameCall dr C) (onLinux (onDriver i fd (h.securityCommand rw dma p c buf to))) := by
  obtain ⟨d, hd, hi, ha, hn⟩ := hd
  unfold Handle.securityCommand
  rw [hd]
  dsimp only
  match i, hi with
  | 0, _ =>
    rw [onLinux_drvNv]
    have hr : drvNv fd (.sec rw dma p c buf to) = (OutT.ask .place >>= fun pl =>
      OutT.ret { drv := { err := some (.msg "not supported"), data := buf, behind := pl.behind } }) := rfl
    have hfull : storeInto buf buf = buf := by unfold storeInto copyAt; simp
    rw [hr, OutT.bind_assoc']
    refine OutT.asks_bind (OutT.asks_ask (fun _ h => h.elim)) (fun pl => ?_)
    show OutT.Asks _ (onLinux (onDriver 0 fd (if d.ata then _ else _)))
    rw [if_neg (by rw [ha]; decide), if_pos (by rw [hn]; decide), hfull, onLinux_drvNv]
    exact OutT.asks_bind (nvmeSec_tame fd rw p c buf hb) (fun _ => OutT.asks_ret _)
  | 1, _ =>
    rw [onLinux_drvSg]
    refine OutT.asks_bind (drvSg_tame fd _ ?_) (fun r => ?_)
    · cases rw with
      | false => trivial
      | true => exact hb rfl
    · split
      · exact OutT.asks_ret _
      · rw [if_pos (by rw [ha]; decide), onLinux_drvSg]
        exact OutT.asks_bind (drvSg_tame fd _ trivial) (fun _ => OutT.asks_ret _)

end

theorem security_tame {o : Opened} (hm : Made o) (rw dma : Bool) (p : Byte) (c : BitVec 16) (buf : Bytes) (to : Nat)
    (hb : rw = true → p = 1 → c = dr.comId → TameBytes dr C buf) :
    Does (TameCall dr C) (o.method (fun h => h.securityCommand rw dma p c buf to)) := by
  refine does_method hm (fun h0 => ?_) (fun i fd hd => does_asks (security_does i fd _ hd rw dma p c buf to hb))
  unfold Handle.securityCommand
  rw [h0]
  exact OutT.asks_ret _

end Dparm
