import Verif.Spec.SharedDrive
import Verif.Lemmas.Concurrent
import Verif.Lemmas.TcgSystem
import Verif.Props.Tper
/-!
# Lemmas: one drive, several clients
-/
namespace Dparm
open Spec

/-! ## The requests of the operations, in the order they are made -/

section
attribute [local irreducible] OutT.Asks

theorem poll_asks_of {A : SecReq → Prop} (d : Device) (t0 : Nat) (h0 : A .now) (h1 : A (.sleep pollSleep)) (h2 : A (d.recvReq 1)) :
    ∀ fuel, OutT.Asks A (d.poll 1 t0 fuel) := by
  intro fuel
  induction fuel with
  | zero => exact OutT.asks_running
  | succ n ih =>
    unfold Device.poll
    refine OutT.asks_bind (OutT.asks_ask h0) (fun t => ?_)
    refine OutT.asks_bind (OutT.asks_ask h1) (fun _ => ?_)
    refine OutT.asks_bind (OutT.asks_ask h2) (fun r => ?_)
    dsimp only
    split
    · exact OutT.asks_ret _
    · split
      · exact OutT.asks_ret _
      · split
        · exact ih
        · exact OutT.asks_ret _

/-- What a command needs: the clock, and the transfers if the device has an SSC the library supports. -/
structure CmdAsks (A : SecReq → Prop) (d : Device) (wire : Bytes) : Prop where
  now : A .now
  rest : d.isAnySSC = true → A (.sleep pollSleep) ∧ A (d.recvReq 1) ∧ A (d.sendReq 1 wire)

theorem sendCommand_asks_of {A : SecReq → Prop} (ctx : Ctx) (d : Device) (s : Session) (cmd : ABuf)
    (h : CmdAsks A d (Cmd.wire (s.stamp d cmd))) : OutT.Asks A (s.sendCommand ctx d cmd) := by
  have he : OutT.Asks A (d.exec ctx.fuel (s.stamp d cmd) 1) := by
    unfold Device.exec
    refine OutT.asks_bind (OutT.asks_ask h.now) (fun t => ?_)
    split
    · exact OutT.asks_ret _
    · rename_i hs
      obtain ⟨h1, h2, h3⟩ := h.rest (by simpa using hs)
      refine OutT.asks_bind (OutT.asks_ask h3) (fun r => ?_)
      split
      · exact OutT.asks_ret _
      · exact poll_asks_of d _ h.now h1 h2 _
  unfold Session.sendCommand
  refine OutT.asks_bind he (fun x => ?_)
  obtain ⟨resp, err⟩ := x
  cases err with
  | some e => exact OutT.asks_ret _
  | none =>
    cases resp with
    | none => exact OutT.asks_panic
    | some r => exact OutT.asks_bind (OutT.asks_lift _) (fun _ => OutT.asks_ret _)

theorem ssc_not_enterprise {d : Device} (h : d.isAnySSC = true) : d.isEnterprise = false := by
  unfold Device.isAnySSC at h
  unfold Device.isEnterprise
  cases hk : d.kind <;> rw [hk] at h <;> first | rfl | cases h

theorem start_asks_of {A : SecReq → Prop} (ctx : Ctx) (d : Device) (s : Session) (sp : UID) (challenge : Bytes) (auth : AuthArg)
    (h0 : A .now) (hc : ∀ c, Cmd.make ctx.base (.uid SMUID_UID) (.method M_STARTSESSION) (s.startOps ctx d sp challenge auth) = .ret c →
      CmdAsks A d (Cmd.wire (s.stamp d c))) : OutT.Asks A (s.start ctx d sp challenge auth) := by
  unfold Session.start
  refine OutT.asks_lift_bind (fun cmd hm => ?_)
  refine OutT.asks_bind (sendCommand_asks_of ctx d _ cmd (hc cmd hm)) (fun x => ?_)
  obtain ⟨resp, err⟩ := x
  cases err with
  | some e => exact OutT.asks_ret _
  | none =>
    cases resp with
    | none => exact OutT.asks_panic
    | some r =>
      dsimp only
      unfold Session.startTail Session.startNumbers
      refine OutT.asks_lift_bind (fun h _ => OutT.asks_lift_bind (fun t _ => ?_))
      cases h with
      | none => exact OutT.asks_ret _
      | some h =>
        cases t with
        | none => exact OutT.asks_ret _
        | some t =>
          dsimp only
          split
          · exact OutT.asks_panic
          · exact OutT.asks_ret _
          · split
            · exact OutT.asks_panic
            · exact OutT.asks_ret _
            · split
              · rename_i he
                have hn : ¬ d.isAnySSC = true := fun hs => by
                  have := ssc_not_enterprise hs
                  rw [this] at he
                  exact Bool.noConfusion he.2
                refine OutT.asks_bind ?_ (fun _ => OutT.asks_ret _)
                unfold Session.authenticate
                refine OutT.asks_lift_bind (fun cmd _ => ?_)
                refine OutT.asks_bind (sendCommand_asks_of ctx d _ cmd ⟨h0, fun hs => absurd hs hn⟩) (fun x => ?_)
                obtain ⟨resp, err⟩ := x
                cases err with
                | some e => exact OutT.asks_ret _
                | none =>
                  cases resp with
                  | none => exact OutT.asks_panic
                  | some r => exact OutT.asks_lift _
              · exact OutT.asks_ret _

theorem getDefaultPassword_asks_of {A : SecReq → Prop} (ctx : Ctx) (d : Device) (h0 : A .now)
    (h1 : ∀ c, Cmd.make ctx.base (.uid SMUID_UID) (.method M_STARTSESSION)
      (newTcgSession.startOps ctx d ADMINSP_UID [] (.uid UID_HEXFF)) = .ret c → CmdAsks A d (Cmd.wire (newTcgSession.stamp d c)))
    (h2 : ∀ s c, d.isAnySSC = true → Cmd.make ctx.base (.buf Device.msidTable) (.method M_GET) (Device.getTableOps 3 3) = .ret c →
      CmdAsks A d (Cmd.wire (Session.stamp s d c))) :
    OutT.Asks A (d.getDefaultPassword ctx) := by
  unfold Device.getDefaultPassword
  split
  · exact OutT.asks_ret _
  · refine OutT.asks_bind (start_asks_of ctx d _ _ _ _ h0 h1) (fun x => ?_)
    obtain ⟨s, e⟩ := x
    cases e with
    | some e => exact OutT.asks_ret _
    | none =>
      dsimp only
      refine OutT.asks_bind ?_ (fun x => ?_)
      · split
        · rename_i he
          refine OutT.asks_lift_bind (fun cmd hc => sendCommand_asks_of ctx d s cmd ⟨h0, fun hs => ?_⟩)
          have := ssc_not_enterprise hs
          unfold Device.isEnterprise at this
          rw [he] at this
          cases this
        · refine OutT.asks_lift_bind (fun cmd hc => sendCommand_asks_of ctx d s cmd ⟨h0, fun hs => (h2 s cmd hs hc).rest hs⟩)
      · obtain ⟨resp, err⟩ := x
        cases err with
        | some e => exact OutT.asks_ret _
        | none =>
          cases resp with
          | none => exact OutT.asks_panic
          | some r =>
            refine OutT.asks_lift_bind (fun t _ => ?_)
            cases t with
            | none => exact OutT.asks_ret _
            | some t =>
              dsimp only
              split
              · exact OutT.asks_panic
              · exact OutT.asks_ret _
              · exact OutT.asks_ret _

/-- A device without a supported SSC: only the clock is read. -/
theorem revertTPer_now {A : SecReq → Prop} (ctx : Ctx) (d : Device) (h0 : A .now) (hn : ¬ d.isAnySSC = true) (pw : Bytes) (psid adm : Bool) :
    OutT.Asks A (d.revertTPer ctx pw psid adm) := by
  have hk : ¬ (d.kind = .opal1 ∨ d.kind = .opal2) := by
    rintro (h | h) <;> exact hn (by unfold Device.isAnySSC; rw [h])
  unfold Device.revertTPer
  split
  · exact OutT.asks_ret _
  · rename_i h; exact absurd (.inl h) hk
  · rename_i h; exact absurd (.inr h) hk
  · unfold Device.revertEnterprise
    refine OutT.asks_bind (start_asks_of ctx d _ _ _ _ h0 (fun _ _ => ⟨h0, fun hs => absurd hs hn⟩)) (fun x => ?_)
    obtain ⟨s, e⟩ := x
    cases e with
    | some e => exact OutT.asks_ret _
    | none =>
      refine OutT.asks_lift_bind (fun cmd hc => ?_)
      exact OutT.asks_bind (sendCommand_asks_of ctx d _ cmd ⟨h0, fun hs => absurd hs hn⟩) (fun x => OutT.asks_ret _)

end

/-! ## What the library sends to a drive -/

/-- The packet opens a session with these credentials, reverts, or reads the MSID; its session numbers may be any. -/
def LibPacket (C : Option (Bytes × Bytes) → Prop) (p : Packet) : Prop :=
  (∃ cred, C cred ∧ p.tsn = 0 ∧ p.hsn = 0 ∧ p.tokens = startTokens adminSP cred ++ trailerTokens) ∨
  p.tokens = revertTokens ++ trailerTokens ∨ p.tokens = getMsidTokens ++ trailerTokens

/-- A request of the library to the drive `dr`. -/
def LibReq (dr : Drive) (C : Option (Bytes × Bytes) → Prop) : SecReq → Prop
  | .now => True
  | .sleep _ => True
  | .sec false dma p c data _ => dma = false ∧ p = 1 ∧ c = dr.comId ∧ data = zeros 2048
  | .sec true dma p c data _ => dma = false ∧ p = 1 ∧ c = dr.comId ∧ data.length ≤ 4096 ∧ 512 ∣ data.length ∧
      ∃ k, readPacket data = some k ∧ k.comId = dr.comId.toNat ∧ LibPacket C k

/-- The request is a Revert command. -/
def sendsRevert : SecReq → Bool
  | .sec true _ _ _ data _ => match readPacket data with
    | some k => decide (k.tokens = revertTokens ++ trailerTokens)
    | none => false
  | _ => false

/-- The policy: requests of the library, and a Revert command takes one of `n`. -/
def revertCredit (dr : Drive) (C : Option (Bytes × Bytes) → Prop) : Policy SecReq SecRep Nat where
  allowed n q := LibReq dr C q ∧ (sendsRevert q = true → 0 < n)
  answers _ _ _ := True
  next n q _ := if sendsRevert q then n - 1 else n

/-- A request of the library that is no Revert. -/
def Quiet (dr : Drive) (C : Option (Bytes × Bytes) → Prop) (q : SecReq) : Prop := LibReq dr C q ∧ sendsRevert q = false

theorem startTokens_ne_revert (cred : Option (Bytes × Bytes)) : startTokens adminSP cred ++ trailerTokens ≠ revertTokens ++ trailerTokens := by
  intro h
  have := congrArg readCall h
  rw [startTokens_read, revertTokens_read] at this
  have := congrArg (Option.map Call.invoking) this
  simp only [Option.map_some] at this
  exact absurd this (by decide)

theorem getMsid_ne_revert : getMsidTokens ++ trailerTokens ≠ revertTokens ++ trailerTokens := by decide

variable {dr : Drive} {C : Option (Bytes × Bytes) → Prop}

theorem quiet_cmd {d : Device} {wire : Bytes} (hd : d.baseComId = dr.comId) (hl : wire.length ≤ 4096 ∧ 512 ∣ wire.length)
    {k : Packet} (hp : readPacket wire = some k) (hk : k.comId = dr.comId.toNat) (hL : LibPacket C k)
    (hr : k.tokens ≠ revertTokens ++ trailerTokens) : CmdAsks (Quiet dr C) d wire := by
  refine ⟨⟨trivial, rfl⟩, fun _ => ⟨⟨trivial, rfl⟩, ⟨⟨rfl, rfl, hd, rfl⟩, rfl⟩, ⟨rfl, rfl, hd, hl.1, hl.2, k, hp, hk, hL⟩, ?_⟩⟩
  unfold sendsRevert Device.sendReq
  simp only [hp]
  exact decide_eq_false hr

theorem quiet_none {d : Device} {wire : Bytes} (hn : ¬ d.isAnySSC = true) : CmdAsks (Quiet dr C) d wire :=
  ⟨⟨trivial, rfl⟩, fun h => absurd h hn⟩

/-- Opening a session. -/
theorem start_quiet (ctx : Ctx) (d : Device) (hd : d.isAnySSC = true → d.baseComId = dr.comId) (s : Session) (challenge : Bytes) (u : UID)
    (hl : d.isAnySSC = true → s.noHash = true → challenge.length ≤ 400)
    (hn : leBytes 4 (s.hsn.toNat % 2 ^ 32) = [0, 0, 0, 0] ∧ leBytes 4 (s.tsn.toNat % 2 ^ 32) = [0, 0, 0, 0])
    (hC : d.isAnySSC = true → C (presented ctx.kdf s.noHash d.serial challenge u)) (c : ABuf)
    (hm : Cmd.make ctx.base (.uid SMUID_UID) (.method M_STARTSESSION) (s.startOps ctx d ADMINSP_UID challenge (.uid u)) = .ret c) :
    CmdAsks (Quiet dr C) d (Cmd.wire (s.stamp d c)) := by
  by_cases hs : d.isAnySSC = true
  · obtain ⟨c', hm', hp⟩ := start_packet ctx d s challenge u hs (hl hs) hn
    rw [hm] at hm'
    simp only [P.ret.injEq] at hm'
    subst hm'
    exact quiet_cmd (hd hs) (make_readable_length _ _ _ _ (by simp) s d hm hp) hp (by rw [hd hs]) (.inl ⟨_, hC hs, rfl, rfl, rfl⟩)
      (startTokens_ne_revert _)
  · exact quiet_none hs

/-- Any command in a session with any numbers. -/
theorem any_session_packet (base : Nat) (inv : InvokingArg) (m : MethodArg) (ops : List AddOp) (s : Session)
    (d : Device) (hinv : ∀ x, inv ≠ .method x) (ts : List Token)
    (henc : encInit inv m ++ encAdds ops = encodeAll ts) (hw : ∀ t ∈ ts, t.WF) (hlen : (encodeAll ts).length ≤ 450) {c : ABuf}
    (hm : Cmd.make base inv m ops = .ret c) :
    ∃ host tper, readPacket (Cmd.wire (s.stamp d c)) = some ⟨d.baseComId.toNat, tper, host, ts ++ trailerTokens⟩ := by
  have hb : ∀ n, leBytes 4 (n % 2 ^ 32) = beBytes 4 (beVal (leBytes 4 (n % 2 ^ 32))) ∧ beVal (leBytes 4 (n % 2 ^ 32)) < 2 ^ 32 := by
    intro n
    have h1 := beBytes_beVal (leBytes 4 (n % 2 ^ 32))
    have h2 := beVal_lt (leBytes 4 (n % 2 ^ 32))
    rw [leBytes_length] at h1 h2
    exact ⟨h1.symm, by have : (256 : Nat) ^ 4 = 2 ^ 32 := by decide
                       omega⟩
  obtain ⟨c', hm', hp⟩ := session_packet base inv m ops s d hinv ts henc hw hlen _ _ (hb s.hsn.toNat).2 (hb s.tsn.toNat).2
    (hb s.hsn.toNat).1 (hb s.tsn.toNat).1
  rw [hm] at hm'
  simp only [P.ret.injEq] at hm'
  subst hm'
  exact ⟨_, _, hp⟩

theorem getDefaultPassword_quiet (ctx : Ctx) (d : Device) (hd : d.isAnySSC = true → d.baseComId = dr.comId) (hC : C none) :
    OutT.Asks (Quiet dr C) (d.getDefaultPassword ctx) := by
  refine getDefaultPassword_asks_of ctx d ⟨trivial, rfl⟩ ?_ ?_
  · exact start_quiet ctx d hd newTcgSession [] UID_HEXFF (fun _ => by simp) (by decide) (fun _ => hC)
  · intro s c hs hm
    obtain ⟨host, tper, hp⟩ := any_session_packet ctx.base (.buf Device.msidTable) (.method M_GET) (Device.getTableOps 3 3) s d (by simp)
      getMsidTokens (getMsid_enc.trans getMsidCall_tokens) (by decide) (by decide) hm
    exact quiet_cmd (hd hs) (make_readable_length _ _ _ _ (by simp) s d hm hp) hp (by rw [hd hs]) (.inr (.inr rfl)) getMsid_ne_revert

theorem quiet_safe {α : Type} {p : TcgM α} (hp : OutT.Asks (Quiet dr C) p) (n : Nat) {B : Nat → Prop} (hB : B n) :
    OutT.Safe (revertCredit dr C) B p n (fun _ m => m = n) := by
  refine OutT.safe_mono (OutT.safe_of_asks (C := fun _ => True) hB hp (fun q hq => ?_) ?_) (fun _ _ h => h.2)
  · refine ⟨⟨hq.1, fun h => ?_⟩, fun r => ?_⟩
    · rw [hq.2] at h; cases h
    · show (if sendsRevert q then n - 1 else n) = n
      rw [hq.2]; rfl
  · have : ∀ (p : Prog SecReq SecRep (Out α)), Prog.Returns (fun _ => True) p := by
      intro p
      induction p with
      | done o => cases o <;> trivial
      | ask q k ih => intro r; exact ih r
    exact this p

/-! ## One Revert per `RevertTPer` -/

theorem Prog.allowed_mono {α : Type} {p : Prog SecReq SecRep α} : ∀ {n m : Nat}, Prog.Allowed (revertCredit dr C) p n → n ≤ m →
    Prog.Allowed (revertCredit dr C) p m := by
  induction p with
  | done a => intro n m _ _; trivial
  | ask q k ih =>
    intro n m h hnm
    refine ⟨⟨h.1.1, fun hq => Nat.lt_of_lt_of_le (h.1.2 hq) hnm⟩, fun r hr => ih r (h.2 r hr) ?_⟩
    show (if sendsRevert q then n - 1 else n) ≤ (if sendsRevert q then m - 1 else m)
    split <;> omega

theorem revertCmd_safe (ctx : Ctx) (d : Device) (hd : d.baseComId = dr.comId) (s : Session) (n : Nat) {c : ABuf}
    (hm : Cmd.make ctx.base (.uid ADMINSP_UID) (.method M_REVERT) [tSTARTLIST, tENDLIST] = .ret c) :
    OutT.Safe (revertCredit dr C) (fun m => n ≤ m) (s.sendCommand ctx d c) (n + 1) (fun _ m => n ≤ m) := by
  obtain ⟨host, tper, hp⟩ := any_session_packet ctx.base (.uid ADMINSP_UID) (.method M_REVERT) [tSTARTLIST, tENDLIST] s d (by simp)
    revertTokens (revertOps_enc.trans revertCall_tokens) (by decide) (by decide) hm
  have hrev : sendsRevert (d.sendReq 1 (Cmd.wire (s.stamp d c))) = true := by
    unfold sendsRevert Device.sendReq
    simp only [hp]
    exact decide_eq_true trivial
  have hlib : LibReq dr C (d.sendReq 1 (Cmd.wire (s.stamp d c))) :=
    ⟨rfl, rfl, hd, (make_readable_length _ _ _ _ (by simp) s d hm hp).1, (make_readable_length _ _ _ _ (by simp) s d hm hp).2, _, hp, by rw [hd], .inr (.inl rfl)⟩
  unfold Session.sendCommand
  refine OutT.safe_bind' (C := fun _ m => n ≤ m) ?_ (fun x m hmm => ?_)
  · unfold Device.exec
    refine OutT.safe_ask_bind (Nat.le_succ n) ⟨trivial, fun h => by cases h⟩ (fun t _ => ?_)
    have h0 : (revertCredit dr C).next (n + 1) .now t = n + 1 := rfl
    rw [h0]
    split
    · exact OutT.safe_ret (Nat.le_succ n)
    · refine OutT.safe_ask_bind (Nat.le_succ n) ⟨hlib, fun _ => Nat.succ_pos n⟩ (fun r _ => ?_)
      have h1 : (revertCredit dr C).next (n + 1) (d.sendReq 1 (Cmd.wire (s.stamp d c))) r = n := by
        show (if sendsRevert _ then n + 1 - 1 else n + 1) = n
        rw [hrev]; rfl
      rw [h1]
      split
      · exact OutT.safe_ret (Nat.le_refl n)
      · refine OutT.safe_mono (quiet_safe (poll_asks_of d _ ⟨trivial, rfl⟩ ⟨trivial, rfl⟩ ⟨⟨rfl, rfl, hd, rfl⟩, rfl⟩ _) n (Nat.le_refl n)) ?_
        intro _ m h
        exact Nat.le_of_eq h.symm
  · obtain ⟨resp, err⟩ := x
    cases err with
    | some e => exact OutT.safe_ret hmm
    | none =>
      cases resp with
      | none => exact OutT.safe_panic hmm
      | some r =>
        dsimp only
        cases Session.checkResponse r with
        | panic => exact OutT.safe_panic hmm
        | ret e => exact OutT.safe_ret hmm

theorem ssc_opal {d : Device} (h : d.isAnySSC = true) : d.kind = .opal1 ∨ d.kind = .opal2 := by
  unfold Device.isAnySSC at h
  cases hk : d.kind <;> rw [hk] at h <;> first | exact .inl rfl | exact .inr rfl | cases h

/-- The credentials an operation may present. -/
def TcgOp.Presents (kdf : Kdf) (C : Option (Bytes × Bytes) → Prop) : TcgOp → Prop
  | .revert d pw psid _ => d.isAnySSC = true → C (presented kdf (revertSession psid).noHash d.serial pw (if psid then PSID_UID else SID_UID))
  | .defaultPassword _ => C none

section
attribute [local irreducible] OutT.Asks Session.start

theorem op_safe (ctx : Ctx) (op : TcgOp) (hf : op.Fits dr) (hC : op.Presents ctx.kdf C) (n : Nat) :
    OutT.Safe (revertCredit dr C) (fun m => n ≤ m) (op.prog ctx) (n + (if op.isRevert then 1 else 0)) (fun _ m => n ≤ m) := by
  cases op with
  | defaultPassword d =>
    show OutT.Safe _ _ _ n _
    unfold TcgOp.prog
    refine OutT.safe_bind' (quiet_safe (getDefaultPassword_quiet ctx d (fun hs => hf (ssc_opal hs)) hC) n (Nat.le_refl n)) (fun x m hm => ?_)
    exact OutT.safe_ret (Nat.le_of_eq hm.symm)
  | revert d pw psid adm =>
    show OutT.Safe _ _ _ (n + 1) _
    unfold TcgOp.prog
    refine OutT.safe_bind' (C := fun _ m => n ≤ m) ?_ (fun x m hm => OutT.safe_ret hm)
    by_cases hs : d.isAnySSC = true
    · have hk := ssc_opal hs
      rw [revertTPer_opal hk]
      have hdef : d.revertOpal ctx pw psid = ((revertSession psid).start ctx d ADMINSP_UID pw
          (.uid (if psid then PSID_UID else SID_UID)) >>= fun (s, e) => match e with
            | some e => OutT.ret (some e)
            | none => do
              let cmd ← OutT.lift (Cmd.make ctx.base (.uid ADMINSP_UID) (.method M_REVERT) [tSTARTLIST, tENDLIST])
              let (_, e) ← s.sendCommand ctx d cmd
              OutT.ret e) := rfl
      rw [hdef]
      have hn := (revertSession_num psid).2
      have hstart := start_quiet (dr := dr) (C := C) ctx d (fun _ => (hf hk).1) (revertSession psid) pw
        (if psid then PSID_UID else SID_UID) (fun _ hx => (hf hk).2 (by cases psid <;> first | rfl | exact absurd hx (by decide))) hn hC
      have hq : OutT.Asks (Quiet dr C) ((revertSession psid).start ctx d ADMINSP_UID pw (.uid (if psid then PSID_UID else SID_UID))) :=
        start_asks_of ctx d (revertSession psid) ADMINSP_UID pw (.uid (if psid then PSID_UID else SID_UID)) ⟨trivial, rfl⟩ hstart
      refine OutT.safe_bind' (quiet_safe (B := fun m => n ≤ m) hq (n + 1) (Nat.le_succ n)) (fun x m hm => ?_)
      subst hm
      obtain ⟨s, e⟩ := x
      cases e with
      | some e => exact OutT.safe_ret (Nat.le_succ n)
      | none =>
        dsimp only
        cases hc : Cmd.make ctx.base (.uid ADMINSP_UID) (.method M_REVERT) [tSTARTLIST, tENDLIST] with
        | panic => exact OutT.safe_panic (Nat.le_succ n)
        | ret c =>
          refine OutT.safe_bind' (C := fun x m => x = c ∧ m = n + 1) (OutT.safe_ret ⟨rfl, rfl⟩) ?_
          rintro x m ⟨rfl, rfl⟩
          exact OutT.safe_bind' (revertCmd_safe ctx d (hf hk).1 s n hc) (fun x m hm => OutT.safe_ret hm)
    · refine OutT.safe_mono (quiet_safe (revertTPer_now ctx d ⟨trivial, rfl⟩ hs pw psid adm) (n + 1) (Nat.le_succ n)) ?_
      intro _ m hm
      subst hm
      exact Nat.le_succ n

end

/-- How many Reverts the operations may send. -/
def revertCount (ops : List TcgOp) : Nat := (ops.filter TcgOp.isRevert).length

theorem tcgClient_allowed (ctx : Ctx) : ∀ ops : List TcgOp, (∀ op ∈ ops, op.Fits dr ∧ op.Presents ctx.kdf C) →
    Prog.Allowed (revertCredit dr C) (tcgClient ctx ops) (revertCount ops) := by
  intro ops
  induction ops with
  | nil => intro _; trivial
  | cons op ops ih =>
    intro h
    have hr := ih (fun o ho => h o (List.mem_cons_of_mem _ ho))
    obtain ⟨h1, h2⟩ := h op (List.mem_cons_self ..)
    have hcount : revertCount (op :: ops) = revertCount ops + (if op.isRevert then 1 else 0) := by
      unfold revertCount
      rw [List.filter_cons]
      split <;> simp
    rw [hcount]
    unfold tcgClient
    have key : ∀ o m, revertCount ops ≤ m → Prog.Allowed (revertCredit dr C)
        (Prog.bind (tcgClient ctx ops) (fun r => .done (o :: r))) m := fun o m hm =>
      Prog.allowed_map (Prog.allowed_mono hr hm)
    exact Prog.allowed_bind (fun a m hm => key _ m hm) (fun m hm => ⟨key _ m hm, key _ m hm⟩) (op_safe ctx op h1 h2 _)

/-! ## Every schedule -/

theorem sum_set {l : List Nat} : ∀ {i c c' : Nat}, l[i]? = some c → (l.set i c').sum + c = l.sum + c' := by
  induction l with
  | nil => intro i c c' h; cases h
  | cons x l ih =>
    intro i c c' h
    cases i with
    | zero => cases h; simp only [List.set_cons_zero, List.sum_cons]; omega
    | succ i =>
      have := ih (c' := c') (i := i) (c := c) h
      simp only [List.set_cons_succ, List.sum_cons]; omega

/-- An invariant of the drive's state with the credit left holds at every moment. -/
theorem shared_inv {env : Prog.Env SecReq SecRep} (ctx : Ctx) (ops : List (List TcgOp))
    (hops : ∀ cl ∈ ops, ∀ op ∈ cl, op.Fits dr ∧ op.Presents ctx.kdf C) (I : Prog.Trace SecReq SecRep → Nat → Prop)
    (h0 : I [] (ops.map revertCount).sum)
    (hI : ∀ h n q, I h n → LibReq dr C q → (sendsRevert q = true → 0 < n) → I (h ++ [(q, env h q)]) (if sendsRevert q then n - 1 else n)) (sched : List Nat) :
    ∃ n, I ((tcgClients ctx ops).run (sameDrive env) sched).trace.whole n := by
  have key : ∀ (sched : List Nat) (s : Pool SecReq SecRep (List (Out TcgDone))) (cr : List Nat),
      s.threads.length = cr.length → (∀ (i : Nat) p c, s.threads[i]? = some p → cr[i]? = some c → Prog.Allowed (revertCredit dr C) p c) →
      I s.trace.whole cr.sum → ∃ n, I (s.run (sameDrive env) sched).trace.whole n := by
    intro sched
    induction sched with
    | nil => intro s cr _ _ h; exact ⟨_, h⟩
    | cons j sched ih =>
      intro s cr hl ha h
      show ∃ n, I ((s.step (sameDrive env) j).run (sameDrive env) sched).trace.whole n
      unfold Pool.step
      split
      · rename_i q k hj
        have hjl : j < cr.length := hl ▸ (List.getElem?_eq_some_iff.1 hj).1
        obtain ⟨c, hc⟩ : ∃ c, cr[j]? = some c := ⟨cr[j], List.getElem?_eq_getElem hjl⟩
        obtain ⟨⟨hq1, hq2⟩, hk⟩ := ha j _ c hj hc
        refine ih _ (cr.set j (if sendsRevert q then c - 1 else c)) (by simp [hl]) ?_ ?_
        · intro i p c' hp hc'
          dsimp only at hp
          by_cases hij : i = j
          · subst hij
            rw [List.getElem?_set_self (hl ▸ hjl)] at hp
            rw [List.getElem?_set_self hjl] at hc'
            cases hp
            cases hc'
            exact hk _ trivial
          · rw [List.getElem?_set_ne (Ne.symm hij)] at hp hc'
            exact ha i p c' hp hc'
        · have := hI s.trace.whole cr.sum q h hq1 (fun hr => by
            have := hq2 hr
            have := sum_set (c' := 0) hc
            omega)
          have hs := sum_set (c' := if sendsRevert q then c - 1 else c) hc
          have he : (cr.set j (if sendsRevert q then c - 1 else c)).sum = if sendsRevert q then cr.sum - 1 else cr.sum := by
            by_cases hr : sendsRevert q = true
            · have := hq2 hr
              rw [hr] at hs ⊢
              simp only [if_true] at hs ⊢
              omega
            · rw [Bool.not_eq_true] at hr
              rw [hr] at hs ⊢
              simp only [Bool.false_eq_true, if_false] at hs ⊢
              omega
          rw [he]
          dsimp only
          rw [Tagged.whole_snoc]
          exact this
      · exact ih s cr hl ha h
  refine key sched (tcgClients ctx ops) (ops.map revertCount) (by simp [tcgClients]) ?_ h0
  intro i p c hp hc
  simp only [tcgClients, List.getElem?_map, Option.map_eq_some_iff] at hp hc
  obtain ⟨cl, h1, rfl⟩ := hp
  obtain ⟨cl', h2, rfl⟩ := hc
  rw [h1] at h2
  cases h2
  exact tcgClient_allowed ctx cl (hops cl (List.mem_of_getElem? h1))

/-- What a request of the library does to the drive. -/
theorem libReq_state {W : Nat} {env : Prog.Env SecReq SecRep} {st : Prog.Trace SecReq SecRep → DriveState} (hs : SharedDrive dr W env st)
    (h : Prog.Trace SecReq SecRep) (q : SecReq) (hq : LibReq dr C q) :
    (∃ x w, st (h ++ [(q, env h q)]) = { st h with answer := x, wait := w }) ∨
    (∃ cred tper w, C cred ∧ st (h ++ [(q, env h q)]) = { dr.startSession tper (st h) (seenArgs cred) with wait := w }) ∨
    (sendsRevert q = true ∧ (∃ o ∈ (st h).sessions, o.Privileged) ∧
      ∃ w, st (h ++ [(q, env h q)]) = ⟨dr.msid, [], some .done, w, (st h).reverts + 1⟩) := by
  cases q with
  | now => left; rw [hs.now]; exact ⟨(st h).answer, (st h).wait, rfl⟩
  | sleep ns => left; rw [hs.sleep]; exact ⟨(st h).answer, (st h).wait, rfl⟩
  | sec rw dma p c data to =>
    cases rw with
    | false =>
      obtain ⟨rfl, rfl, rfl, rfl⟩ := hq
      left
      cases ha : (st h).answer with
      | none => rw [hs.idle h to ha]; exact ⟨(st h).answer, (st h).wait, rfl⟩
      | some a =>
        cases hw : (st h).wait with
        | zero => rw [(hs.ready h to a ha hw).2.2]; exact ⟨none, (st h).wait, rfl⟩
        | succ w => rw [(hs.notReady h to a w ha hw).2.2]; exact ⟨(st h).answer, w, rfl⟩
    | true =>
      obtain ⟨rfl, rfl, rfl, hl1, hl2, k, hk, hkc, hL⟩ := hq
      obtain ⟨_, tper, w, _, _, hst⟩ := hs.send h data to k hl1 hl2 hk hkc
      rw [hst]
      rcases hL with ⟨cred, hC, h1, h2, h3⟩ | hL | hL
      · right; left
        refine ⟨cred, tper, w, hC, ?_⟩
        obtain ⟨a, b, c, d⟩ := k
        simp only at h1 h2 h3
        subst h1 h2 h3
        rw [perform_start]
      · have hrev : sendsRevert (.sec true false 1 dr.comId data to) = true := by
          unfold sendsRevert
          simp only [hk]
          exact decide_eq_true hL
        unfold Drive.perform
        rw [hL, revertTokens_read]
        dsimp only
        split
        · rw [if_neg (by rintro ⟨h1, _⟩; exact absurd h1 (by decide))]
          exact .inl ⟨_, w, rfl⟩
        · split
          · exact .inl ⟨_, w, rfl⟩
          · rename_i o ho
            unfold Drive.method
            rw [if_pos ⟨rfl, rfl, rfl⟩]
            split
            · rename_i hp
              exact .inr (.inr ⟨hrev, ⟨o, List.mem_of_find?_eq_some ho, hp⟩, w, rfl⟩)
            · exact .inl ⟨_, w, rfl⟩
      · left
        unfold Drive.perform
        rw [hL, getMsidTokens_read]
        dsimp only
        split
        · rw [if_neg (by rintro ⟨h1, _⟩; exact absurd h1 (by decide))]
          exact ⟨_, w, rfl⟩
        · split
          · exact ⟨_, w, rfl⟩
          · unfold Drive.method
            rw [if_neg (by rintro ⟨h1, _⟩; exact absurd h1 (by decide)), if_pos ⟨rfl, rfl, rfl⟩]
            exact ⟨_, w, rfl⟩

end Dparm
