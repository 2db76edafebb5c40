import Verif.Spec.Table
import Verif.Props.SessionReuse
/-!
# Reading a table: the range asked for is the range named (C166)
-/
namespace Dparm
open Spec

/-- The arguments, between the list tokens of the call. -/
def rangeTokens (uid : Bytes) (block : List Token) : List Token :=
  [.call, .bytes uid, .bytes mGet, .startList] ++ block ++ [.endList]

theorem rangeTokens_read (uid : Bytes) (block : List Token) :
    readCall (rangeTokens uid block ++ trailerTokens) = some (getCall uid block) := by
  have := readCall_call uid mGet block
  unfold rangeTokens
  rw [List.append_assoc]
  exact this

theorem bytes_of_8 {uid : Bytes} (h : uid.length = 8) : (Token.bytes uid).encode = 0xa8 :: uid := by
  unfold Token.bytes
  rw [if_pos (by omega)]
  simp [Token.encode, Token.flag, h]

theorem table_head {uid : Bytes} (h : uid.length = 8) :
    encInit (.buf (0xa8 :: uid)) (.method M_GET) = encodeAll [.call, .bytes uid, .bytes mGet] := by
  have e : encodeAll [.call, .bytes uid, .bytes mGet] = Token.encode .call ++ ((Token.bytes uid).encode ++ (Token.bytes mGet).encode) := by
    simp [encodeAll]
  rw [e, bytes_of_8 h]
  rfl

theorem opal_enc {uid : Bytes} (h : uid.length = 8) (a b : BitVec 16) :
    encInit (.buf (0xa8 :: uid)) (.method M_GET) ++ encAdds (Device.getTableOps a b)
      = encodeAll (rangeTokens uid (columnRange a.toNat b.toNat)) := by
  have n : ∀ c : BitVec 16, encAdd (.num (c.setWidth 64)) = Token.encode (.uint c.toNat) := by
    intro c
    have : (c.setWidth 64).toNat = c.toNat := by
      rw [BitVec.toNat_setWidth]; have := c.isLt; omega
    show Token.encode (.uint (c.setWidth 64).toNat) = _
    rw [this]
  have e1 : encAdd tSTARTLIST = Token.encode .startList := by decide
  have e2 : encAdd tSTARTNAME = Token.encode .startName := by decide
  have e3 : encAdd tENDNAME = Token.encode .endName := by decide
  have e4 : encAdd tENDLIST = Token.encode .endList := by decide
  have e5 : encAdd (.tok (.int 3)) = Token.encode (.uint 3) := by decide
  have e6 : encAdd (.tok (.int 4)) = Token.encode (.uint 4) := by decide
  rw [table_head h]
  simp only [encAdds, encodeAll, Device.getTableOps, rangeTokens, columnRange, List.flatMap_append, List.flatMap_cons, List.flatMap_nil,
    e1, e2, e3, e4, e5, e6, n, List.append_nil, List.append_assoc]

theorem named_enc {uid : Bytes} (h : uid.length = 8) (a b : Bytes) (ha : 1 ≤ a.length ∧ a.length < 2048)
    (hb : 1 ≤ b.length ∧ b.length < 2048) :
    encInit (.buf (0xa8 :: uid)) (.method M_GET) ++ encAdds (Device.entGetTableOps a b)
      = encodeAll (rangeTokens uid (namedRange a b)) := by
  have n : ∀ c : Bytes, 1 ≤ c.length ∧ c.length < 2048 → encAdd (.str c none) = Token.encode (.bytes c) := by
    intro c hc
    rw [encAdd_str_none]
    unfold stringArg
    rw [if_neg (by omega), if_pos hc.2]
  have e1 : encAdd tSTARTLIST = Token.encode .startList := by decide
  have e2 : encAdd tSTARTNAME = Token.encode .startName := by decide
  have e3 : encAdd tENDNAME = Token.encode .endName := by decide
  have e4 : encAdd tENDLIST = Token.encode .endList := by decide
  have e5 : encAdd (.str txtStartColumn none) = Token.encode (.bytes (ascii "startColumn")) := by decide
  have e6 : encAdd (.str txtEndColumn none) = Token.encode (.bytes (ascii "endColumn")) := by decide
  rw [table_head h]
  simp only [encAdds, encodeAll, Device.entGetTableOps, rangeTokens, namedRange, List.flatMap_append, List.flatMap_cons, List.flatMap_nil,
    e1, e2, e3, e4, e5, e6, n a ha, n b hb, List.append_nil, List.append_assoc]

theorem uint_WF (n : Nat) : (Token.uint n).WF := by
  unfold Token.uint
  split
  · assumption
  · split
    · exact Nat.lt_of_le_of_lt (Nat.le_of_eq (beBytes_length _ _)) (by decide)
    · split
      · exact Nat.lt_of_le_of_lt (Nat.le_of_eq (beBytes_length _ _)) (by decide)
      · split <;> exact Nat.lt_of_le_of_lt (Nat.le_of_eq (beBytes_length _ _)) (by decide)

theorem uint_length (n : Nat) : (Token.uint n).encode.length ≤ 9 := by
  unfold Token.uint
  split
  · show 1 ≤ 9; decide
  · split
    · simp [Token.encode]
    · split
      · simp [Token.encode]
      · split <;> simp [Token.encode]

theorem bytes_length (d : Bytes) : (Token.bytes d).encode.length ≤ d.length + 2 := by
  unfold Token.bytes
  split <;> simp [Token.encode]

theorem table_packet {ctx : Ctx} {d : Device} {s : Session} {inv : InvokingArg} {ops : List AddOp} (hinv : ∀ x, inv ≠ .method x)
    {uid : Bytes} {block : List Token}
    (henc : encInit inv (.method M_GET) ++ encAdds ops = encodeAll (rangeTokens uid block))
    (hw : ∀ t ∈ rangeTokens uid block, t.WF) (hl : (encodeAll (rangeTokens uid block)).length ≤ 450) :
    ∃ c, Cmd.make ctx.base inv (.method M_GET) ops = .ret c ∧
      readPacket (Cmd.wire (s.stamp d c)) = some ⟨d.baseComId.toNat, s.tperNumber, s.hostNumber, rangeTokens uid block ++ trailerTokens⟩ :=
  session_packet ctx.base inv (.method M_GET) ops s d hinv _ henc hw hl _ _ (leBytes_own s.hsn.toNat).2 (leBytes_own s.tsn.toNat).2
    (leBytes_own s.hsn.toNat).1 (leBytes_own s.tsn.toNat).1

theorem opal_packet (ctx : Ctx) (d : Device) (s : Session) {uid : Bytes} (hu : uid.length = 8) (a b : BitVec 16) :
    ∃ c, Cmd.make ctx.base (.buf (0xa8 :: uid)) (.method M_GET) (Device.getTableOps a b) = .ret c ∧
      readPacket (Cmd.wire (s.stamp d c)) = some ⟨d.baseComId.toNat, s.tperNumber, s.hostNumber,
        rangeTokens uid (columnRange a.toNat b.toNat) ++ trailerTokens⟩ := by
  refine table_packet (by simp) (opal_enc hu a b) ?_ ?_
  · intro t ht
    simp only [rangeTokens, columnRange, List.mem_append, List.mem_cons, List.not_mem_nil, or_false] at ht
    have c : ∀ n, n < 16 → (Token.control n).WF := fun n h => h
    rcases ht with (⟨rfl | rfl | rfl | rfl⟩ | ⟨rfl | rfl | rfl | rfl | rfl | rfl | rfl | rfl | rfl | rfl⟩) | rfl <;>
      first
        | exact uint_WF _
        | exact bytes_WF (by omega)
        | exact bytes_WF (by decide)
        | exact c _ (by decide)
  · have h1 := uint_length a.toNat
    have h2 := uint_length b.toNat
    have h3 := uint_length 3
    have h4 := uint_length 4
    have h5 := bytes_length uid
    have h6 := bytes_length mGet
    have h7 : mGet.length = 8 := rfl
    have k : ∀ n, (Token.control n).encode.length = 1 := fun _ => rfl
    simp only [rangeTokens, columnRange, encodeAll, List.flatMap_append, List.flatMap_cons, List.flatMap_nil, List.length_append,
      List.length_nil, Token.call, Token.startList, Token.startName, Token.endName, Token.endList, k]
    omega

theorem named_packet (ctx : Ctx) (d : Device) (s : Session) {uid : Bytes} (hu : uid.length = 8) (a b : Bytes) (ha : 1 ≤ a.length)
    (hb : 1 ≤ b.length) (hab : a.length + b.length ≤ 380) :
    ∃ c, Cmd.make ctx.base (.buf (0xa8 :: uid)) (.method M_GET) (Device.entGetTableOps a b) = .ret c ∧
      readPacket (Cmd.wire (s.stamp d c)) = some ⟨d.baseComId.toNat, s.tperNumber, s.hostNumber,
        rangeTokens uid (namedRange a b) ++ trailerTokens⟩ := by
  refine table_packet (by simp) (named_enc hu a b (by omega) (by omega)) ?_ ?_
  · intro t ht
    simp only [rangeTokens, namedRange, List.mem_append, List.mem_cons, List.not_mem_nil, or_false] at ht
    have c : ∀ n, n < 16 → (Token.control n).WF := fun n h => h
    rcases ht with (⟨rfl | rfl | rfl | rfl⟩ | ⟨rfl | rfl | rfl | rfl | rfl | rfl | rfl | rfl | rfl | rfl⟩) | rfl <;>
      first
        | exact c _ (by decide)
        | exact bytes_WF (by omega)
        | exact bytes_WF (by decide)
  · have h1 := bytes_length a
    have h2 := bytes_length b
    have h3 := bytes_length (ascii "startColumn")
    have h4 := bytes_length (ascii "endColumn")
    have h5 := bytes_length uid
    have h6 := bytes_length mGet
    have h7 : mGet.length = 8 := rfl
    have h8 : (ascii "startColumn").length = 11 := by decide
    have h9 : (ascii "endColumn").length = 9 := by decide
    have k : ∀ n, (Token.control n).encode.length = 1 := fun _ => rfl
    simp only [rangeTokens, namedRange, encodeAll, List.flatMap_append, List.flatMap_cons, List.flatMap_nil, List.length_append,
      List.length_nil, Token.call, Token.startList, Token.startName, Token.endName, Token.endList, k]
    omega

/-- What reading a table comes to: one command went out, which the drive `d` reads as `call` in the session of `s`; the call
returns the drive's accepted answer, or an error, or crashes on an accepted message too short to have a status. -/
structure TableRead (d : Device) (s : Session) (call : Call) (o : Out (Option Resp × Option GoErr)) (t : Prog.Trace SecReq SecRep) :
    Prop where
  sent : ∃ wire ts sent, sends t = [(sendOf d.baseComId wire, sent)] ∧
    readPacket wire = some ⟨d.baseComId.toNat, s.tperNumber, s.hostNumber, ts⟩ ∧ readCall ts = some call
  outcome : (∃ x e, o = .ret (x, some e)) ∨ (∃ r, Answered t r ∧ TooShort r ∧ o = .panic) ∨
    (∃ r, Answered t r ∧ Accepted r ∧ o = .ret (some r, none)) ∨ o = .running

theorem tableRead_of {ctx : Ctx} {d : Device} (hs : d.isAnySSC = true) (hf : 0 < ctx.fuel) {s : Session} {cmd : ABuf} {uid : Bytes}
    {block : List Token} (hp : readPacket (Cmd.wire (s.stamp d cmd)) = some ⟨d.baseComId.toNat, s.tperNumber, s.hostNumber,
        rangeTokens uid block ++ trailerTokens⟩) (env : Prog.Env SecReq SecRep) (h : Prog.Trace SecReq SecRep) :
    TableRead d s (getCall uid block) (OutT.run env h (s.sendCommand ctx d cmd)).1 (OutT.run env h (s.sendCommand ctx d cmd)).2 := by
  obtain ⟨⟨sent, h1⟩, h2⟩ := sendCommand_summary ctx d s cmd env h hs hf
  refine ⟨⟨_, _, sent, h1, hp, rangeTokens_read uid block⟩, ?_⟩
  rcases h2 with h2 | ⟨r, k1, -, k2, k3⟩ | ⟨r, k1, -, k2, k3⟩ | h2
  · exact .inl h2
  · exact .inr (.inl ⟨r, k1, k2, k3⟩)
  · exact .inr (.inr (.inl ⟨r, k1, k2, k3⟩))
  · exact .inr (.inr (.inr h2))

/-- **C166.** `OpalGetTable` on an Opal device, for every session, table, pair of columns and drive behaviour: exactly one command is sent,
to the drive the session belongs to; that drive reads it as Get of exactly this table and exactly these columns, under the session's
numbers; what is returned is the answer as parsed. -/
theorem table_range (ctx : Ctx) (recv d : Device) (s : Session) (uid : Bytes) (first last : BitVec 16) (env : Prog.Env SecReq SecRep)
    (h : Prog.Trace SecReq SecRep) (hr : recv.kind = .opal1 ∨ recv.kind = .opal2) (hs : d.isAnySSC = true) (hf : 0 < ctx.fuel)
    (hu : uid.length = 8) :
    TableRead d s (getCall uid (columnRange first.toNat last.toNat))
      (OutT.run env h (recv.getTable ctx d s (0xa8 :: uid) first last)).1
      (OutT.run env h (recv.getTable ctx d s (0xa8 :: uid) first last)).2 := by
  obtain ⟨c, hm, hp⟩ := opal_packet ctx d s hu first last
  have e : recv.getTable ctx d s (0xa8 :: uid) first last = s.sendCommand ctx d c := by
    have : d.opalGetTable ctx s (0xa8 :: uid) first last = s.sendCommand ctx d c := by
      unfold Device.opalGetTable; rw [hm]; rfl
    unfold Device.getTable
    rcases hr with e | e <;> rw [e] <;> exact this
  rw [e]
  exact tableRead_of hs hf hp env h

/-- **C166.** `EnterpriseGetTable` names the columns: the same, for names that are not empty and fit together into the packet. -/
theorem table_named_range (ctx : Ctx) (d : Device) (s : Session) (uid first last : Bytes) (env : Prog.Env SecReq SecRep)
    (h : Prog.Trace SecReq SecRep) (hs : d.isAnySSC = true) (hf : 0 < ctx.fuel) (hu : uid.length = 8) (h1 : 1 ≤ first.length)
    (h2 : 1 ≤ last.length) (h3 : first.length + last.length ≤ 380) :
    TableRead d s (getCall uid (namedRange first last))
      (OutT.run env h (d.entGetTable ctx s (0xa8 :: uid) first last)).1
      (OutT.run env h (d.entGetTable ctx s (0xa8 :: uid) first last)).2 := by
  obtain ⟨c, hm, hp⟩ := named_packet ctx d s hu first last h1 h2 h3
  have e : d.entGetTable ctx s (0xa8 :: uid) first last = s.sendCommand ctx d c := by
    unfold Device.entGetTable; rw [hm]; rfl
  rw [e]
  exact tableRead_of hs hf hp env h

/-- **C166.** Devices that are neither Opal 1 nor Opal 2 refuse `OpalGetTable`; a session of a device that is not Opal sends nothing
either way. -/
theorem table_unsupported (ctx : Ctx) (recv d : Device) (s : Session) (table : Bytes) (first last : BitVec 16)
    (env : Prog.Env SecReq SecRep) (h : Prog.Trace SecReq SecRep) :
    (recv.kind ≠ .opal1 ∧ recv.kind ≠ .opal2 →
      OutT.run env h (recv.getTable ctx d s table first last) = (.ret (none, some (.msg "not supported")), [])) ∧
    (d.isAnySSC = false → sends (OutT.run env h (recv.getTable ctx d s table first last)).2 = [] ∧
      ∀ r, (OutT.run env h (recv.getTable ctx d s table first last)).1 ≠ .ret (r, none)) := by
  have key : d.isAnySSC = false → sends (OutT.run env h (d.opalGetTable ctx s table first last)).2 = [] ∧
      ∀ r, (OutT.run env h (d.opalGetTable ctx s table first last)).1 ≠ .ret (r, none) := by
    intro hs
    unfold Device.opalGetTable
    cases hm : Cmd.make ctx.base (.buf table) (.method M_GET) (Device.getTableOps first last) with
    | panic => exact ⟨rfl, by intro r x; cases x⟩
    | ret c =>
      rw [OutT.run_bind, OutT.run_lift_ret]
      simp only [List.append_nil, List.nil_append]
      unfold Session.sendCommand Device.exec
      rw [hs]
      exact ⟨rfl, by intro r x; cases x⟩
  refine ⟨fun hr => ?_, fun hs => ?_⟩
  · unfold Device.getTable
    cases hk : recv.kind with
    | generic => rfl
    | enterprise => rfl
    | opal1 => exact absurd hk hr.1
    | opal2 => exact absurd hk hr.2
  · unfold Device.getTable
    cases recv.kind with
    | generic => exact ⟨rfl, by intro r x; cases x⟩
    | enterprise => exact ⟨rfl, by intro r x; cases x⟩
    | opal1 => exact key hs
    | opal2 => exact key hs

variable {dr : Drive} {W : Nat} {env : Prog.Env SecReq SecRep} {st : Prog.Trace SecReq SecRep → DriveState}

/-- **C166.** On a conforming drive, in an open session: reading the PIN column of C_PIN_MSID succeeds and the fifth
token of the answer is the drive's MSID, every other range of every table is
refused with the drive's status 0x0c, and the drive is as it was. -/
theorem table_conforming (hc : Conforming dr W env st) (hp : Prompt env) (ctx : Ctx) (recv d : Device)
    (hr : recv.kind = .opal1 ∨ recv.kind = .opal2) (hd : d.baseComId = dr.comId) (hs : d.isAnySSC = true) (hf : W < ctx.fuel)
    (s : Session) (uid : Bytes) (hu : uid.length = 8) (first last : BitVec 16) (h : Prog.Trace SecReq SecRep) (hH : InSession s (st h)) :
    ∃ r t, OutT.run env h (recv.getTable ctx d s (0xa8 :: uid) first last) =
        (.ret (some r, if uid = cPinMsid ∧ first = 3 ∧ last = 3 then none else some (.tcg 12)), t) ∧
      SameBut (st (h ++ t)) (st h) ∧
      (uid = cPinMsid ∧ first = 3 ∧ last = 3 → ∃ b, r.getToken 4 = .ret (some b) ∧ Tok.getString b = .ok dr.msid) := by
  obtain ⟨hz, o, ho⟩ := hH
  obtain ⟨c, hm, hpk⟩ := opal_packet ctx d s hu first last
  have e : recv.getTable ctx d s (0xa8 :: uid) first last = s.sendCommand ctx d c := by
    have : d.opalGetTable ctx s (0xa8 :: uid) first last = s.sendCommand ctx d c := by
      unfold Device.opalGetTable; rw [hm]; rfl
    unfold Device.getTable
    rcases hr with e | e <;> rw [e] <;> exact this
  rw [e]
  have hargs : columnRange first.toNat last.toNat = pinColumn ↔ first = 3 ∧ last = 3 := by
    constructor
    · intro x
      have hpin : pinColumn = columnRange 3 3 := by decide
      have inj : ∀ n : Nat, Token.uint n = Token.uint 3 → n = 3 := by
        intro n hn
        have h3 : Token.uint 3 = .tiny false 3 := rfl
        rw [h3] at hn
        unfold Token.uint at hn
        by_cases hlt : n < 64
        · rw [if_pos hlt] at hn
          injection hn
        · rw [if_neg hlt] at hn
          split at hn
          · cases hn
          · split at hn
            · cases hn
            · split at hn <;> cases hn
      rw [hpin] at x
      simp only [columnRange, List.cons.injEq, true_and, and_true] at x
      exact ⟨BitVec.eq_of_toNat_eq (inj _ x.1), BitVec.eq_of_toNat_eq (inj _ x.2)⟩
    · rintro ⟨rfl, rfl⟩
      decide
  have hne : uid = adminSP → ¬ (getCall uid (columnRange first.toNat last.toNat)).method = mRevert :=
    fun _ => (by decide : mGet ≠ mRevert)
  by_cases hcase : uid = cPinMsid ∧ first = 3 ∧ last = 3
  · obtain ⟨r, t, hF, h1, h2⟩ := send_fetched hc hp ctx d hd hs hf s c h _ hpk (by rw [hd])
      (make_readable_length _ _ _ _ (by simp) s d hm hpk) (.column 3 dr.msid) (st h) (fun tper => by
        unfold Drive.perform
        rw [rangeTokens_read]
        simp only
        rw [if_neg hz, show (st h).sessions.find? _ = some o from ho]
        simp only
        unfold Drive.method
        rw [if_neg (fun x => hne x.1 x.2.1), if_pos ⟨hcase.1, rfl, hargs.mpr hcase.2⟩])
      (by intro k hk; cases hk)
    refine ⟨r, t, ?_, by rw [h2]; exact ⟨rfl, rfl, rfl⟩, fun _ => fetched_column hF⟩
    rw [if_pos hcase]
    exact h1
  · obtain ⟨r, t, h1, h2⟩ := send_answered hc hp ctx d hd hs hf s c h _ hpk (by rw [hd])
      (make_readable_length _ _ _ _ (by simp) s d hm hpk) (.refused 12) (st h) (fun tper => by
        unfold Drive.perform
        rw [rangeTokens_read]
        simp only
        rw [if_neg hz, show (st h).sessions.find? _ = some o from ho]
        simp only
        unfold Drive.method
        rw [if_neg (fun x => hne x.1 x.2.1), if_neg (fun x => hcase ⟨x.1, hargs.mp x.2.2⟩)])
      (by intro k hk; simp only [Answer.refused.injEq] at hk; omega)
    refine ⟨r, t, ?_, by rw [h2]; exact ⟨rfl, rfl, rfl⟩, fun x => absurd x hcase⟩
    rw [if_neg hcase]
    exact h1

/-! ## These hypotheses can be met -/

/-- A session is opened anonymously and two tables are read in it: the MSID row, then a range of columns of the SID row. -/
def readsTwo : TcgM (Option GoErr × Option GoErr) := do
  let (s, _) ← newTcgSession.start sampleCtx shippedDevice ADMINSP_UID [] (.uid UID_HEXFF)
  let (_, e1) ← shippedDevice.getTable sampleCtx shippedDevice s (0xa8 :: cPinMsid) 3 3
  let (_, e2) ← shippedDevice.getTable sampleCtx shippedDevice s (0xa8 :: [0, 0, 0, 0x0b, 0, 0, 0, 1]) 3 300
  pure (e1, e2)

example : (match (OutT.run (idealEnv shippedDrive ownedState) [] readsTwo).1 with
    | .ret (none, some (.tcg 12)) => true | _ => false) = true := by
  decide +kernel

example : shippedDevice.kind = .opal2 ∧ shippedDevice.isAnySSC = true ∧ 0 < sampleCtx.fuel ∧ cPinMsid.length = 8 := by decide

/-- An open session. -/
example : InSession { newTcgSession with hsn := 0x69000000, tsn := 0x01000000 }
    { ownedState with sessions := [⟨105, 1, true, none⟩] } := by
  refine ⟨by decide, ⟨105, 1, true, none⟩, by decide⟩

end Dparm
