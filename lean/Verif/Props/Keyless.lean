import Verif.Spec.Keyless
import Verif.Props.Protected
import Verif.Props.WinProtected
import Verif.Props.SessionOps
import Verif.Props.Table
/-!
# Ready-made session calls with wrong credentials do not show the key (C167)
-/
namespace Dparm
open Spec

theorem decodeAll_cons {t : Token} (hw : t.WF) {n : Nat} {rest : Bytes} {ts : List Token}
    (h : decodeAll n (t.encode ++ rest) = some ts) : ∃ m ts', ts = t :: ts' ∧ decodeAll m rest = some ts' := by
  have h1 := decodeOne_encode t hw rest
  have hpos := encode_length_pos t
  cases he : t.encode with
  | nil => rw [he] at hpos; simp at hpos
  | cons b bs =>
    rw [he] at h1 h
    simp only [List.cons_append] at h1 h
    cases n with
    | zero => simp [decodeAll] at h
    | succ n =>
      simp only [decodeAll, h1] at h
      cases hd : decodeAll n rest with
      | none => rw [hd] at h; cases h
      | some ts' =>
        rw [hd] at h
        exact ⟨n, ts', (Option.some.inj h).symm, hd⟩

theorem uid_WF (u : UID) : (Token.bytes u.bytes).WF := bytes_WF (by rw [u.len]; omega)

/-- A call begins with its invoking UID and its method, however it goes on. -/
theorem wire_head (comId : BitVec 16) (tsn hsn : Bytes) (ht : tsn.length = 4) (hh : hsn.length = 4) (u m : UID) (rest : Bytes)
    (hl : rest.length < 90000) {p : Packet}
    (hp : readPacket (wireImage comId.toNat tsn hsn (0xf8 :: (0xa8 :: u.bytes) ++ (0xa8 :: m.bytes) ++ rest)) = some p) {c : Call}
    (hc : readCall p.tokens = some c) : c.invoking = u.bytes ∧ c.method = m.bytes := by
  obtain ⟨pay, hpay⟩ : ∃ x, 0xf8 :: (0xa8 :: u.bytes) ++ (0xa8 :: m.bytes) ++ rest = x := ⟨_, rfl⟩
  rw [hpay] at hp
  have hpl : pay.length = 19 + rest.length := by rw [← hpay]; simp [u.len, m.len]; omega
  by_cases hf : pay.length ≤ 450
  · rw [readPacket_image _ comId.isLt _ _ ht hh _ (by omega)] at hp
    cases hd : decodeAll (pay.length + 6) (pay ++ [0xf9, 0xf0, 0x00, 0x00, 0x00, 0xf1]) with
    | none => rw [hd] at hp; cases hp
    | some ts =>
      rw [hd] at hp
      cases hp
      dsimp only at hc
      have hpay' : pay ++ [0xf9, 0xf0, 0x00, 0x00, 0x00, 0xf1] = Token.call.encode ++ ((Token.bytes u.bytes).encode ++
          ((Token.bytes m.bytes).encode ++ (rest ++ [0xf9, 0xf0, 0x00, 0x00, 0x00, 0xf1]))) := by
        rw [bytes8, bytes8, ← hpay, show Token.call.encode = [0xf8] from rfl]
        simp
      rw [hpay'] at hd
      obtain ⟨_, ts1, rfl, hd1⟩ := decodeAll_cons (show Token.call.WF by decide) hd
      obtain ⟨_, ts2, rfl, hd2⟩ := decodeAll_cons (uid_WF u) hd1
      obtain ⟨_, ts3, rfl, hd3⟩ := decodeAll_cons (uid_WF m) hd2
      cases ts3 with
      | nil => cases hc
      | cons t3 rest =>
        simp only [readCall, asBytes_bytes] at hc
        split at hc
        · cases hc; exact ⟨rfl, rfl⟩
        · cases hc
  · rw [readPacket_cut _ _ _ _ ht hh (by omega) (by omega)] at hp
    cases hp

variable {dr : Drive} {sid : Bytes}

/-- A call of a method other than StartSession shows no key. -/
theorem made_keyless (base : Nat) (u : UID) (m : UID) (inv : InvokingArg) (marg : MethodArg) (ops : List AddOp) (s : Session) (d : Device)
    (hinv : ∀ x, inv ≠ .method x) (hi : encInit inv marg = 0xf8 :: (0xa8 :: u.bytes) ++ (0xa8 :: m.bytes))
    (hl : (encAdds ops).length ≤ 61000) (hm : m.bytes ≠ mStartSession) {c : ABuf} (hc : Cmd.make base inv marg ops = .ret c) :
    ¬ ShowsKey dr sid (Cmd.wire (s.stamp d c)) := by
  rintro ⟨p, k, a, h1, h2, h3, h4, h5, -⟩
  have hil : (encInit inv marg).length = 19 := by rw [hi]; simp [u.len, m.len]
  obtain ⟨c', hc', _, _, hwire⟩ := make_wire base inv marg ops s d hinv (by omega)
  rw [hc] at hc'
  cases hc'
  rw [hwire, hi] at h1
  obtain ⟨-, h6⟩ := wire_head d.baseComId _ _ (leBytes_length _ _) (leBytes_length _ _) u m _ (by omega) h1 h3
  exact hm (h6.symm.trans h5)

theorem str_length (t : Bytes) : (encAdd (.str t none)).length ≤ 2050 ∧ (encAdd (.str t (some t.length))).length ≤ 2050 := by
  have h : (encAdd.encStr t t.length).length ≤ 2050 := by
    unfold encAdd.encStr
    split
    · simp
    · split
      · simp; omega
      · split
        · simp; omega
        · simp
  refine ⟨h, ?_⟩
  have : encAdd (.str t (some t.length)) = encAdd.encStr t t.length := by
    simp [encAdd]
  rw [this]
  exact h

theorem num_length (v : BitVec 64) : (encAdd (.num v)).length ≤ 9 := uint_length v.toNat

/-- `Start` with a wrong credential, for whatever SP and with whatever session numbers. -/
theorem start_keyless (ctx : Ctx) (d : Device) (s : Session) (sp : UID) (ch : Bytes) (au : AuthArg) (hs : d.isAnySSC = true)
    (hg : (TcgCall.start s sp ch au).Guesses dr sid ctx.kdf d) {c : ABuf}
    (hm : Cmd.make ctx.base (.uid SMUID_UID) (.method M_STARTSESSION) (s.startOps ctx d sp ch au) = .ret c) :
    ¬ ShowsKey dr sid (Cmd.wire (s.stamp d c)) := by
  rintro ⟨p, k, a, h1, -, h3, -, -, h6, h7⟩
  have henc := startOps_enc ctx d s sp ch au hs
  have hno : a.authority = none → False := by
    intro h0
    rcases h7 with ⟨h, -⟩ | ⟨h, -⟩ <;> (rw [h0] at h; cases h)
  by_cases h0 : ch = []
  · unfold startCredential at henc
    rw [if_pos h0, startCall_tokens_none] at henc
    have hw := startTokens_WF sp none (by rintro _ _ h; cases h)
    have hlen : (encodeAll (startTokens sp.bytes none)).length ≤ 450 := by
      rw [← startCall_tokens_none]
      have e1 : (Token.bytes sp.bytes).encode.length = 9 := by rw [bytes8]; simp [sp.len]
      have e2 : (callHead [0, 0, 0, 0, 0, 0, 0, 0xff] [0, 0, 0, 0, 0, 0, 0xff, 2]).length = 19 := by decide
      have e3 : (Token.uint 105).encode.length = 2 := by decide
      have e4 : (Token.uint 1).encode.length = 1 := by decide
      have e5 : Token.startList.encode.length = 1 ∧ Token.endList.encode.length = 1 := by decide
      have e6 : startSessionCall sp.bytes none = callHead [0, 0, 0, 0, 0, 0, 0, 0xff] [0, 0, 0, 0, 0, 0, 0xff, 2] ++
          (Token.startList.encode ++ ((Token.uint 105).encode ++ ((Token.bytes sp.bytes).encode ++ ((Token.uint 1).encode ++
            Token.endList.encode)))) := by
        simp [startSessionCall, encodeAll]
      rw [e6]
      simp only [List.length_append, e1, e2, e3, e4, e5.1, e5.2]
      omega
    obtain ⟨host, tper, hp⟩ := any_session_packet ctx.base (.uid SMUID_UID) (.method M_STARTSESSION) _ s d (by simp) _ henc hw hlen hm
    rw [hp] at h1
    cases h1
    dsimp only at h3
    rw [startTokens_read] at h3
    cases h3
    dsimp only at h6
    rw [startTokens_start sp.bytes none] at h6
    cases h6
    exact hno rfl
  · rcases hg with hg | ⟨u, rfl, hg1, hg2⟩
    · exact h0 hg
    have hau : (AuthArg.uid u).bytes.length ≤ 50000 := by
      show (0xa8 :: u.bytes).length ≤ _
      simp [u.len]
    have hlen := startCall_length sp ctx.kdf s.noHash d.serial ch (AuthArg.uid u).bytes hau
    rw [← henc, List.length_append] at hlen
    obtain ⟨c', hc, _, _, hwire⟩ := make_wire ctx.base (.uid SMUID_UID) (.method M_STARTSESSION)
      (s.startOps ctx d sp ch (.uid u)) s d (by simp) (by omega)
    rw [hm] at hc
    cases hc
    rw [hwire] at h1
    rw [← List.length_append] at hlen
    rw [henc] at h1 hlen
    unfold startCredential at h1 hlen
    rw [if_neg h0] at h1 hlen
    generalize hv : challengeValue ctx.kdf s.noHash d.serial ch = v at h1 hlen hg1 hg2
    have hv0 : v ≠ [] := hv ▸ challengeValue_ne h0
    have l4 : ∀ n, (leBytes 4 n).length = 4 := fun n => leBytes_length _ _
    by_cases hl : v.length < 2048
    · rw [show (AuthArg.uid u).bytes = 0xa8 :: u.bytes from rfl, startCall_tokens _ _ u hv0 hl] at h1 hlen
      by_cases hf : (encodeAll (startTokens sp.bytes (some (v, u.bytes)))).length ≤ 450
      · rw [readPacket_wireImage _ d.baseComId.isLt _ _ (l4 _) (l4 _) _
          (startTokens_WF _ _ (by rintro c' u' h; cases h; exact ⟨hl, by rw [u.len]; omega⟩)) (by omega)] at h1
        cases h1
        dsimp only at h3
        rw [startTokens_read] at h3
        cases h3
        dsimp only at h6
        rw [startTokens_start sp.bytes (some (v, u.bytes))] at h6
        cases h6
        rcases h7 with ⟨e1, e2⟩ | ⟨e1, e2⟩
        · exact hg1 ⟨Option.some.inj e1, Option.some.inj e2⟩
        · exact hg2 ⟨Option.some.inj e1, Option.some.inj e2⟩
      · rw [readPacket_cut _ _ _ _ (l4 _) (l4 _) (by omega) (by omega)] at h1
        cases h1
    · rw [show (AuthArg.uid u).bytes = 0xa8 :: u.bytes from rfl, startCall_gap _ _ u (by omega)] at h1
      have := gapTokens_length sp u
      rw [readPacket_wireImage _ d.baseComId.isLt _ _ (l4 _) (l4 _) _ (gapTokens_WF sp u) (by omega)] at h1
      cases h1
      dsimp only at h3
      rw [gapTokens_read] at h3
      cases h3
      dsimp only at h6
      rw [gapTokens_start] at h6
      cases h6

/-- The command of a call shows no key, if it is for the drive at all. -/
theorem keyless_cmd {d : Device} {wire : Bytes} (h : d.isAnySSC = true → d.baseComId = dr.comId → ¬ ShowsKey dr sid wire) :
    CmdAsks (fun q => ∀ dma data secs, q = .sec true dma 1 dr.comId data secs → ¬ ShowsKey dr sid data) d wire := by
  refine ⟨(fun _ _ _ h => by cases h), fun hs => ⟨(fun _ _ _ h => by cases h), (fun _ _ _ h => by cases h), ?_⟩⟩
  intro dma data secs e
  unfold Device.sendReq at e
  simp only [SecReq.sec.injEq] at e
  obtain ⟨-, -, -, hc, rfl, -⟩ := e
  exact h hs hc

theorem exec_asks_gen {A : SecReq → Prop} (fuel : Nat) (d : Device) (cmd : ABuf) (p : Byte) (h0 : A .now)
    (h : d.isAnySSC = true → A (.sleep pollSleep) ∧ A (d.recvReq p) ∧ A (d.sendReq p (Cmd.wire cmd))) :
    OutT.Asks A (d.exec fuel cmd p) := by
  have poll : d.isAnySSC = true → ∀ t0 fuel, OutT.Asks A (d.poll p t0 fuel) := by
    intro hs t0 fuel
    obtain ⟨h1, h2, -⟩ := h hs
    induction fuel with
    | zero => exact trivial
    | succ n ih =>
      unfold Device.poll
      refine OutT.asks_bind (OutT.asks_ask h0) (fun t => ?_)
      refine OutT.asks_bind (OutT.asks_ask h1) (fun _ => ?_)
      refine OutT.asks_bind (OutT.asks_ask h2) (fun r => ?_)
      dsimp only
      split
      · exact OutT.asks_ret _
      · split
        · exact OutT.asks_ret _
        · split
          · exact ih
          · exact OutT.asks_ret _
  unfold Device.exec
  refine OutT.asks_bind (OutT.asks_ask h0) (fun t => ?_)
  split
  · exact OutT.asks_ret _
  · rename_i hs
    have hs : d.isAnySSC = true := by simpa using hs
    refine OutT.asks_bind (OutT.asks_ask (h hs).2.2) (fun r => ?_)
    split
    · exact OutT.asks_ret _
    · exact poll hs _ fuel

section
attribute [local irreducible] OutT.Asks Session.start

/-- **C167.** A session call of somebody who has not got the key shows the drive no key, whatever the drive answers. -/
theorem guess_keyless (ctx : Ctx) (d : Device) (c : TcgCall) (h : c.Guesses dr sid ctx.kdf d) : c.Keyless dr sid ctx d := by
  intro env hist x hx
  refine OutT.asks_run (A := fun q => ∀ dma data secs, q = .sec true dma 1 dr.comId data secs → ¬ ShowsKey dr sid data) ?_ env hist x hx
  have hone : ∀ n : Int, (encAdd (.tok (.int n))).length = 1 := fun _ => rfl
  cases c with
  | start s sp ch au =>
    simp only [TcgCall.prog]
    exact OutT.asks_bind (start_asks_of ctx d s sp ch au (fun _ _ _ h => by cases h)
      (fun c hm => keyless_cmd (fun hs _ => start_keyless ctx d s sp ch au hs h hm))) (fun _ => OutT.asks_ret _)
  | authenticate s a ch =>
    have h : a.length < 20000 := h
    simp only [TcgCall.prog]
    refine OutT.asks_bind ?_ (fun _ => OutT.asks_ret _)
    unfold Session.authenticate
    refine OutT.asks_lift_bind (fun cmd hm => ?_)
    refine OutT.asks_bind (sendCommand_asks_of ctx d _ cmd (keyless_cmd (fun hs _ => ?_))) (fun x => ?_)
    · refine made_keyless ctx.base THISSP_UID (if d.isEnterprise then M_EAUTHENTICATE else M_AUTHENTICATE) _ _ _ s d (by simp) rfl ?_ ?_ hm
      · unfold Session.authOps encAdds
        have h1 := (str_length (Session.credential ctx d s ch)).2
        rw [ssc_not_enterprise hs]
        simp only [List.flatMap_append, List.length_append, List.flatMap_cons, List.flatMap_nil, List.length_nil, tSTARTLIST, tENDLIST, hone]
        have e1 : (encAdd (.raw a)).length = a.length := rfl
        rw [e1]
        split
        · simp only [List.flatMap_cons, List.flatMap_nil, List.length_append, List.length_nil, tSTARTNAME, tENDNAME, tUINT, hone,
            Bool.false_eq_true, if_false]
          omega
        · simp only [List.flatMap_nil, List.length_nil]
          omega
      · split <;> decide
    · obtain ⟨resp, err⟩ := x
      cases err with
      | some e => exact OutT.asks_ret _
      | none =>
        cases resp with
        | none => exact OutT.asks_panic
        | some r => exact OutT.asks_lift _
  | send s inv m ops =>
    simp only [TcgCall.prog]
    exact OutT.asks_lift_bind (fun cmd _ => OutT.asks_bind
      (sendCommand_asks_of ctx d _ cmd (keyless_cmd (fun hs hd => absurd ⟨hs, hd⟩ h))) (fun _ => OutT.asks_ret _))
  | close s =>
    rw [closeCall_done]
    exact OutT.asks_ret _
  | table s recv t a b =>
    obtain ⟨u, rfl⟩ := h
    have hg : OutT.Asks (fun q => ∀ dma data secs, q = .sec true dma 1 dr.comId data secs → ¬ ShowsKey dr sid data)
        (d.opalGetTable ctx s (0xa8 :: u.bytes) a b) := by
      unfold Device.opalGetTable
      refine OutT.asks_lift_bind (fun cmd hm => sendCommand_asks_of ctx d s cmd (keyless_cmd (fun _ _ => ?_)))
      refine made_keyless ctx.base u M_GET _ _ _ s d (by simp) rfl ?_ (by decide) hm
      have h1 := num_length (a.setWidth 64)
      have h2 := num_length (b.setWidth 64)
      unfold Device.getTableOps encAdds
      simp only [List.flatMap_cons, List.flatMap_nil, List.length_append, List.length_nil, tSTARTLIST, tENDLIST, tSTARTNAME, tENDNAME, hone]
      omega
    simp only [TcgCall.prog]
    refine OutT.asks_bind ?_ (fun _ => OutT.asks_ret _)
    unfold Device.getTable
    split
    · exact OutT.asks_ret _
    · exact OutT.asks_ret _
    · exact hg
    · exact hg
  | entTable s t a b =>
    obtain ⟨⟨u, rfl⟩, ha, hb⟩ := h
    simp only [TcgCall.prog]
    refine OutT.asks_bind ?_ (fun _ => OutT.asks_ret _)
    unfold Device.entGetTable
    refine OutT.asks_lift_bind (fun cmd hm => sendCommand_asks_of ctx d s cmd (keyless_cmd (fun _ _ => ?_)))
    refine made_keyless ctx.base u M_GET _ _ _ s d (by simp) rfl ?_ (by decide) hm
    have h1 := (str_length txtStartColumn).1
    have h2 := (str_length txtEndColumn).1
    have h3 := (str_length a).1
    have h4 := (str_length b).1
    unfold Device.entGetTableOps encAdds
    simp only [List.flatMap_cons, List.flatMap_nil, List.length_append, List.length_nil, tSTARTLIST, tENDLIST, tSTARTNAME, tENDNAME, hone]
    omega
  | exec p inv m ops =>
    simp only [TcgCall.prog]
    refine OutT.asks_lift_bind (fun cmd _ => OutT.asks_bind ?_ (fun _ => OutT.asks_ret _))
    refine exec_asks_gen ctx.fuel d cmd p (fun _ _ _ h => by cases h) (fun hs => ⟨(fun _ _ _ h => by cases h), (fun _ _ _ h => by cases h), ?_⟩)
    intro dma data secs e
    unfold Device.sendReq at e
    simp only [SecReq.sec.injEq] at e
    obtain ⟨-, -, hp, hc, -, -⟩ := e
    exact absurd ⟨hp, hs, hc⟩ h

end

/-- **C167**, with C159: whatever calls any number of goroutines make on Linux, wrong guesses in sessions and `RevertTPer` included:
the drive is not reverted, its SID credential stays, and nobody gets a session of SID or PSID. -/
theorem guesses_move_nothing {st : Prog.Trace AReq ARep → DriveState} (hg : Guarded dr st)
    (order : List (Bytes × Bytes) → List (Bytes × Bytes)) (ctx : Ctx) (env : SysEnv AReq ARep) (calls : List (List LinuxCall))
    (hun : ∀ cl ∈ calls, ∀ c ∈ cl, c.Guessing dr (st []).sid ctx.kdf) (hpriv : ∀ o ∈ (st []).sessions, ¬ o.Privileged)
    (sched : List Nat) :
    let s := st ((clients order ctx calls).run env sched).trace.whole
    s.sid = (st []).sid ∧ s.reverts = (st []).reverts ∧ ∀ o ∈ s.sessions, ¬ o.Privileged := by
  refine drive_protected hg order ctx env calls (fun cl hcl c hc => ?_) hpriv sched
  have := hun cl hcl c hc
  cases c with
  | security => exact fun h => this ⟨h.1, h.2.1, h.2.2.1⟩
  | tcg i d c => exact guess_keyless ctx d c this
  | _ => exact this

/-- **C167**, with C160: the same on Windows. -/
theorem win_guesses_move_nothing {st : Prog.Trace WAReq WARep → DriveState} (hg : WinGuarded dr st) (conv : Wide → Bytes) (ctx : Ctx)
    (env : SysEnv WAReq WARep) (calls : List (List WinClientCall))
    (hun : ∀ cl ∈ calls, ∀ c ∈ cl, c.Guessing dr (st []).sid ctx.kdf) (hpriv : ∀ o ∈ (st []).sessions, ¬ o.Privileged)
    (sched : List Nat) :
    let s := st ((winClients conv ctx calls).run env sched).trace.whole
    s.sid = (st []).sid ∧ s.reverts = (st []).reverts ∧ ∀ o ∈ s.sessions, ¬ o.Privileged := by
  refine win_drive_protected hg conv ctx env calls (fun cl hcl c hc => ?_) hpriv sched
  have := hun cl hcl c hc
  cases c with
  | security => exact fun h => this ⟨h.1, h.2.1, h.2.2.1⟩
  | tcg i d c => exact guess_keyless ctx d c this
  | _ => exact this

/-- Somebody opens the drive, starts a session with `pw` as PSID, tries to authenticate as SID and reads a table; another one closes a
session of his own. -/
def trespass (pw : Bytes) : List (List LinuxCall) :=
  [[.openPath (ascii "/dev/sda"), .tcg 0 shippedDevice (.start { noHash := true } ADMINSP_UID pw (.uid PSID_UID)),
    .tcg 0 shippedDevice (.authenticate {} (0xa8 :: SID_UID.bytes) pw),
    .tcg 0 shippedDevice (.table {} shippedDevice (0xa8 :: C_PIN_MSID.bytes) 3 3)],
   [.openPath (ascii "/dev/sda"), .tcg 0 shippedDevice (.close {})]]

/-- With a wrong guess the drive is safe, under every schedule. -/
example (sched : List Nat) :
    let s := guardedState 3 roomyDrive ownedState ((clients id sampleCtx (trespass [0x50, 0x33])).run
      (guardedEnv 3 roomyDrive ownedState) sched).trace.whole
    s.sid = ownedState.sid ∧ s.reverts = 0 ∧ ∀ o ∈ s.sessions, ¬ o.Privileged :=
  guesses_move_nothing (guarded_ideal 3 roomyDrive ownedState) id sampleCtx _ (trespass [0x50, 0x33])
    (by
      intro cl hcl c hc
      simp only [trespass, List.mem_cons, List.not_mem_nil, or_false] at hcl
      rcases hcl with rfl | rfl <;> simp only [List.mem_cons, List.not_mem_nil, or_false] at hc
      · rcases hc with rfl | rfl | rfl | rfl
        · trivial
        · exact .inr ⟨PSID_UID, rfl, by decide, by decide⟩
        · show (0xa8 :: SID_UID.bytes).length < 20000
          decide
        · exact ⟨C_PIN_MSID, rfl⟩
      · rcases hc with rfl | rfl <;> trivial)
    (fun o ho => by cases ho) sched

/-- So it is on Windows, whatever the answers. -/
example (w : WinRun) (conv : Wide → Bytes) (env : SysEnv WAReq WARep) (sched : List Nat) :
    let s := winGuardedState roomyDrive ownedState ((winClients conv sampleCtx
      [[.openPath w (ascii "\\\\.\\PhysicalDrive0"),
        .tcg 0 shippedDevice (.start { noHash := true } ADMINSP_UID [0x50, 0x33] (.uid PSID_UID)),
        .tcg 0 shippedDevice (.authenticate {} (0xa8 :: SID_UID.bytes) [0x50])]]).run env sched).trace.whole
    s.sid = ownedState.sid ∧ s.reverts = 0 ∧ ∀ o ∈ s.sessions, ¬ o.Privileged :=
  win_guesses_move_nothing (winGuarded_ideal roomyDrive ownedState) conv sampleCtx env _
    (by
      intro cl hcl c hc
      simp only [List.mem_cons, List.not_mem_nil, or_false] at hcl
      subst hcl
      simp only [List.mem_cons, List.not_mem_nil, or_false] at hc
      rcases hc with rfl | rfl | rfl
      · trivial
      · exact .inr ⟨PSID_UID, rfl, by decide, by decide⟩
      · show (0xa8 :: SID_UID.bytes).length < 20000
        decide)
    (fun o ho => by cases ho) sched

/-- With the PSID the same calls open a session of PSID, so the condition matters. -/
example :
    ((guardedState 3 roomyDrive ownedState ((clients id sampleCtx (trespass [0x50, 0x31])).run
      (guardedEnv 3 roomyDrive ownedState) (takeTurns 2 400)).trace.whole).sessions.map (·.authority)) = [some psidAuthority] ∧
    ((guardedState 3 roomyDrive ownedState ((clients id sampleCtx (trespass [0x50, 0x33])).run
      (guardedEnv 3 roomyDrive ownedState) (takeTurns 2 400)).trace.whole).sessions.map (·.authority)) = [] := by
  decide +kernel

end Dparm
