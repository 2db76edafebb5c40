import Verif.Lemmas.TcgCalls
import Verif.Lemmas.Crash
import Verif.Props.Client
import Verif.Props.HandleSystem
/-!
# Properties: what can crash a Linux client (C162)
-/
namespace Dparm
open Spec

/-! ## The rest of the rules -/

theorem sane_then {Q R α β : Type} {A : α → Prop} {B : β → Prop} {C : Prog.Trace Q R → Prop} {p : OutT Q R α} {f : α → OutT Q R β}
    (hp : Sane A C p) (hf : ∀ a, A a → ∃ b, f a = OutT.ret b ∧ B b) : Sane B C (p >>= f) := by
  intro env h
  rw [OutT.run_bind]
  rcases hr : OutT.run env h p with ⟨o, t⟩
  have := hp env h
  rw [hr] at this
  rcases this with ⟨a, ha, hA⟩ | ⟨ha, hc⟩
  · dsimp only at ha
    subst ha
    obtain ⟨b, hb, hB⟩ := hf a hA
    dsimp only
    rw [hb]
    exact .inl ⟨b, rfl, hB⟩
  · dsimp only at ha hc
    subst ha
    exact .inr ⟨rfl, hc⟩

/-- All handles the client holds are sound. -/
def AllSound (st : Held) : Prop := ∀ o ∈ st, Sound o

theorem AllSound.add {st : Held} (h : AllSound st) {r : Res Opened} (hr : ∀ o, r = .ok o → Sound o) : AllSound (st.add r).held := by
  cases r with
  | ok o =>
    intro x hx
    rcases List.mem_append.1 hx with hx | hx
    · exact h x hx
    · rw [List.mem_singleton.1 hx]; exact hr o rfl
  | err e => exact h
  | panic => exact h

theorem AllSound.set {st : Held} (h : AllSound st) {o : Opened} (i : Nat) (ho : Sound o) : AllSound (st.set i o) := by
  intro x hx
  rcases List.mem_or_eq_of_mem_set hx with hx | rfl
  · exact h x hx
  · exact ho

/-- A sound handle is one of three kinds. -/
theorem Sound.kinds {o : Opened} (h : Sound o) : o.handle.dh = none ∨ ∃ fd, NvmeDrive o fd ∨ ScsiDrive o fd := by
  rcases h.made.drv with h | ⟨i, fd, hs, d, hd, hi, ha, hn⟩
  · exact .inl h
  · right
    obtain ⟨a, n, id⟩ := d
    dsimp only at ha hn
    subst ha hn
    match i, hi with
    | 0, _ => exact ⟨fd, .inl ⟨hs, id, hd⟩⟩
    | 1, _ => exact ⟨fd, .inr ⟨hs, id, hd⟩⟩

theorem onHandle_drv {o : Opened} {i fd : Nat} (hs : o.source = some (i, fd)) {α : Type} (p : DrvM α) :
    OutT.interp sysCall (onLinux (o.onHandle p)) = drvA i fd p := by
  unfold Opened.onHandle
  rw [hs]
  exact sysOn_eq _

theorem onHandle_bare {o : Opened} {α : Type} (p : DrvM α) :
    ∃ i fd, i < 2 + i ∧ OutT.interp sysCall (onLinux (o.onHandle p)) = drvA i fd p := by
  unfold Opened.onHandle
  cases o.source with
  | none => exact ⟨0, 0, by omega, sysOn_eq _⟩
  | some x => exact ⟨x.1, x.2, by omega, sysOn_eq _⟩

/-- A method of a sound handle that never panics with a driver of this kind. -/
theorem method_total {o : Opened} (h : Sound o) {α : Type} {p : DrvM α} (C : Prog.Trace AReq ARep → Prop)
    (hp : ∀ i fd, (o.handle.dh = none ∨ (o.source = some (i, fd) ∧ DriverOf i o.handle.dh)) →
      OutT.Total (fun _ => True) (drvA i fd p)) :
    Sane (fun _ => True) C (OutT.interp sysCall (onLinux (o.onHandle p))) := by
  rcases h.made.drv with hd | ⟨i, fd, hs, hd⟩
  · obtain ⟨i, fd, -, he⟩ := onHandle_bare (o := o) p
    rw [he]
    exact sane_total (hp i fd (.inl hd))
  · rw [onHandle_drv hs]
    exact sane_total (hp i fd (.inr ⟨hs, hd⟩))

/-- A query through the handle with the number `i`. -/
theorem query_sane {st : Held} (h : AllSound st) (i : Nat) {α : Type} (p : Handle → DrvM α) {C : Prog.Trace AReq ARep → Prop}
    (hp : ∀ o, st[i]? = some o → Sound o → Sane (fun _ => True) C (OutT.interp sysCall (o.method p))) :
    Sane (fun a : Reported => AllSound a.held) C (st.query i p) := by
  unfold Held.query Held.on
  split
  · rename_i o ho
    exact sane_then (hp o ho (h o (List.mem_of_getElem? ho))) (fun _ _ => ⟨_, rfl, h⟩)
  · exact sane_ret h

/-! ## Scanning the volumes -/

theorem diskfs_chunk {env : Prog.Env AReq ARep} {T : Prog.Trace FReq FRep} {t : Prog.Trace AReq ARep}
    (hc : OutT.Chunks stepA env T t) {parent : Bytes} {d : FRep} (hm : (FReq.diskfs parent, d) ∈ T) :
    ∃ a : ARep, (AReq.sys (.os (.diskfs parent)), a) ∈ t ∧ a.sys.os = d := by
  induction hc with
  | nil => cases hm
  | @cons q r h c T t h1 _ ih =>
    rcases List.mem_cons.1 hm with he | hm
    · cases he
      have h2 : OutT.run env h (stepA (.diskfs parent)) =
          (.ret (env h (.sys (.os (.diskfs parent)))).sys.os, [(.sys (.os (.diskfs parent)), env h (.sys (.os (.diskfs parent))))]) := rfl
      rw [h2] at h1
      cases h1
      exact ⟨_, List.mem_append_left _ List.mem_cons_self, rfl⟩
    · obtain ⟨a, h2, h3⟩ := ih hm
      exact ⟨a, List.mem_append_right _ h2, h3⟩

theorem enumVolumes_sane (st : Held) (m : Mounts) :
    Sane (fun _ => True) (fun t => CrashCause st t (.enumVolumes m)) (sysOn (enumVolumes m)) := by
  intro env hist
  have hok : OutT.Asks FOk (enumVolumes m) := OutT.asks_mono (fun q hq => by cases q <;> first | trivial | exact hq.elim)
    (enumVolumes_asks m)
  obtain ⟨h1, h2⟩ := OutT.interp_chunks stepA env {} hist (stepA_returns env) (OutT.within_of_asks (B := FRepOk) hok)
  obtain ⟨env', he⟩ : ∃ e, e = OutT.upperEnv stepA env {} hist := ⟨_, rfl⟩
  rw [← he] at h1 h2
  have h1' : (OutT.run env hist (sysOn (enumVolumes m))).1 = (OutT.run env' [] (enumVolumes m)).1 := h1
  have hp := (enum_volumes_panic m env' []).1
  have hr : (OutT.run env' [] (enumVolumes m)).1 ≠ .running := by
    cases ho : m.openErr with
    | some e => unfold enumVolumes; rw [ho]; exact fun h => by cases h
    | none =>
      obtain ⟨looks, -, -, h3⟩ := enum_volumes_partitions m ho env' []
      intro hh
      rw [hh] at h3
      exact h3
  cases hx : (OutT.run env' [] (enumVolumes m)).1 with
  | running => exact absurd hx hr
  | ret a => exact .inl ⟨a, h1'.trans hx, trivial⟩
  | panic =>
    obtain ⟨line, hl, parent, digits, d, hn, hz, hm, ht⟩ := hp hx
    obtain ⟨a, ha, hd⟩ := diskfs_chunk h2 hm
    exact .inr ⟨h1'.trans hx, .enumVolumes hl hn hz ha (by rw [hd]; exact ht)⟩

/-! ## TCG operations -/

theorem answered_later {a b : Prog.Trace SecReq SecRep} {r : Resp} (h : Answered b r) : Answered (a ++ b) r := by
  obtain ⟨before, p, c, last, rfl, h⟩ := h
  exact ⟨a ++ before, p, c, last, by rw [List.append_assoc], h⟩

theorem revert_panics (ctx : Ctx) (d : Device) (pw : Bytes) (psid adm : Bool) (hf : 0 < ctx.fuel)
    (env : Prog.Env SecReq SecRep) (h : Prog.Trace SecReq SecRep)
    (hp : (OutT.run env h (d.revertTPer ctx pw psid adm)).1 = .panic) :
    (d.kind = .opal1 ∨ d.kind = .opal2) ∧ ∃ r, Answered (OutT.run env h (d.revertTPer ctx pw psid adm)).2 r ∧ TooShort r := by
  have hk : d.kind = .opal1 ∨ d.kind = .opal2 := by
    cases hd : d.kind with
    | opal1 => exact .inl rfl
    | opal2 => exact .inr rfl
    | generic =>
      have := ((unsupported_device_silent ctx d (.inl hd) env h).1 pw psid adm).1
      rw [hp] at this; cases this
    | enterprise =>
      have := ((unsupported_device_silent ctx d (.inr hd) env h).1 pw psid adm).1
      rw [hp] at this; cases this
  refine ⟨hk, ?_⟩
  obtain ⟨t1, t2, ht, -, -, hc⟩ := revert_summary ctx d pw psid adm hk hf env h
  rw [hp] at hc
  rw [ht]
  rcases hc with ⟨rfl, ⟨s, e, -, h1⟩ | ⟨r, h1, h2, -⟩ | h1⟩ | ⟨r, host, tper, -, -, -, -, ⟨e, h1⟩ | ⟨r2, h1, h2, -⟩ | ⟨r2, -, -, h1⟩ | h1⟩
  · cases h1
  · exact ⟨r, by rw [List.append_nil]; exact h1, h2⟩
  · cases h1
  · cases h1
  · exact ⟨r2, answered_later h1, h2⟩
  · cases h1
  · cases h1

theorem defaultPassword_panics (ctx : Ctx) (d : Device) (hf : 0 < ctx.fuel)
    (env : Prog.Env SecReq SecRep) (h : Prog.Trace SecReq SecRep)
    (hp : (OutT.run env h (d.getDefaultPassword ctx)).1 = .panic) :
    (d.kind = .opal1 ∨ d.kind = .opal2) ∧ ∃ r, Answered (OutT.run env h (d.getDefaultPassword ctx)).2 r ∧ TooShort r := by
  have hd : d.kind = .opal1 ∨ d.kind = .opal2 := by
    cases hd : d.kind with
    | opal1 => exact .inl rfl
    | opal2 => exact .inr rfl
    | generic =>
      have := (unsupported_device_silent ctx d (.inl hd) env h).2.1.1
      rw [hp] at this; cases this
    | enterprise =>
      have := (unsupported_device_silent ctx d (.inr hd) env h).2.1.1
      rw [hp] at this; cases this
  refine ⟨hd, ?_⟩
  have hs := opal_ssc hd
  obtain ⟨c, _, _, -, hcase⟩ := start_summary ctx d newTcgSession ADMINSP_UID []
    (.uid UID_HEXFF) env h hs hf (by decide)
  have hdef : d.getDefaultPassword ctx = (newTcgSession.start ctx d ADMINSP_UID [] (.uid UID_HEXFF) >>=
      fun (s, e) => match e with
        | some e => OutT.ret ([], some e)
        | none => d.opalGetTable ctx s Device.msidTable 3 3 >>= fun (resp, err) =>
          match err, resp with
          | some e, _ => OutT.ret ([], some e)
          | none, none => OutT.panic
          | none, some r => (OutT.lift (r.getToken 4) : TcgM _) >>= fun x => match x with
            | none => OutT.ret ([], some .illegalResponse)
            | some t => match Tok.getString t with
              | .panic => OutT.panic
              | .err e => OutT.ret ([], some e)
              | .ok v => OutT.ret (v, none)) := by
    unfold Device.getDefaultPassword
    rcases hd with e | e <;> rw [e] <;> rfl
  rw [hdef, OutT.run_bind] at hp ⊢
  rcases hstart : OutT.run env h (newTcgSession.start ctx d ADMINSP_UID [] (.uid UID_HEXFF)) with ⟨o, t⟩
  rw [hstart] at hcase hp
  simp only at hcase
  rcases hcase with ⟨s', e, rfl, _⟩ | ⟨r, h1, h2, _, rfl⟩ | ⟨r, host, tper, h1, h2, _, h3, s', rfl, h5, h6, _⟩ |
    ⟨_, rfl⟩
  · cases hp
  · exact ⟨r, h1, h2⟩
  · have hfit : 56 + (encInit (.buf Device.msidTable) (.method M_GET)).length
        + (encAdds (Device.getTableOps 3 3)).length + 6 ≤ 61440 := by decide
    obtain ⟨cmd, hcmd, _, _, -⟩ := make_wire ctx.base (.buf Device.msidTable) (.method M_GET)
      (Device.getTableOps 3 3) s' d (by simp) hfit
    obtain ⟨-, hc2⟩ := sendCommand_summary ctx d s' cmd env (h ++ t) hs hf
    have hget : d.opalGetTable ctx s' Device.msidTable 3 3 = s'.sendCommand ctx d cmd := by
      unfold Device.opalGetTable
      rw [hcmd]; rfl
    simp only at hp ⊢
    rw [hget, OutT.run_bind] at hp ⊢
    rcases hsc : OutT.run env (h ++ t) (s'.sendCommand ctx d cmd) with ⟨o2, t2⟩
    rw [hsc] at hc2 hp
    simp only at hc2
    rcases hc2 with ⟨x, e, rfl⟩ | ⟨r2, k1, _, k2, rfl⟩ | ⟨r2, k1, hp2, k2, rfl⟩ | rfl
    · cases hp
    · exact ⟨r2, answered_later k1, k2⟩
    · exfalso
      have g := getToken_exact r2
      simp only [OutT.run_bind] at hp
      by_cases h4 : 4 < r2.tokens.length
      · obtain ⟨tok, htok⟩ : ∃ tok, r2.tokens[4]? = some tok := ⟨r2.tokens[4], by simp [h4]⟩
        have hg : r2.getToken 4 = .ret (some tok) := by
          rw [show (4 : Int) = ((4 : Nat) : Int) from rfl, (g 0).2.2 4 (by omega)]
          rw [List.getElem?_eq_getElem h4] at htok
          simp only [Option.some.injEq] at htok
          rw [htok]
        have hmem : tok ∈ r2.tokens := List.mem_of_getElem? htok
        obtain ⟨_, _, _, q1, q2⟩ := (parsed_tokens hp2).2 tok hmem
        rw [hg] at hp
        simp only [OutT.run_lift_ret, q1] at hp
        cases hpay : payloadOf tok with
        | panic => exact q2 hpay
        | err e => rw [hpay] at hp; cases hp
        | ok v => rw [hpay] at hp; cases hp
      · have hg : r2.getToken 4 = .ret none := ((g 4).2.1).2 (by unfold Resp.getTokenCount; omega)
        rw [hg] at hp
        cases hp
    · cases hp
  · cases hp

/-- On a handle without driver a security command is refused without a system call. -/
theorem bare_security {o : Opened} (hd : o.handle.dh = none) (rw dma : Bool) (p : Byte) (c : BitVec 16) (buf : Bytes) (secs : Nat) :
    secOnLinux o (.sec rw dma p c buf secs) = OutT.ret { err := some (.msg "not supported"), data := buf } := by
  unfold secOnLinux
  obtain ⟨i, fd, -, he⟩ := onHandle_bare (o := o) (o.handle.securityCommand rw dma p c buf secs)
  dsimp only
  rw [he]
  unfold Handle.securityCommand
  rw [hd]
  rfl

/-- If an operation of the TCG layer panics only because of an answer that is too short, then on a Linux drive only because of
such an answer of the drive. -/
theorem tcg_panics {o : Opened} (h : Sound o) {α : Type} {p : TcgM α} {comId : BitVec 16} (hp : OutT.Asks (TcgAsk comId) p)
    (hc : ∀ env hist, (OutT.run env hist p).1 = .panic → ∃ r, Answered (OutT.run env hist p).2 r ∧ TooShort r)
    (env : Prog.Env AReq ARep) (hist : Prog.Trace AReq ARep) (hr : (OutT.run env hist (tcgOnLinux o p)).1 = .panic) :
    ∃ fd r, ((NvmeDrive o fd ∧ AnsweredOnNvme fd (OutT.run env hist (tcgOnLinux o p)).2 r) ∨
      (ScsiDrive o fd ∧ AnsweredOnScsi fd (OutT.run env hist (tcgOnLinux o p)).2 r)) ∧ TooShort r := by
  rcases h.kinds with hd | ⟨fd, hn | hn⟩
  · exfalso
    have ht : ∀ q, True → ∀ h, ∃ r, (OutT.run env h (secOnLinux o q)).1 = .ret r ∧
        ∀ rw dma p c buf secs, q = SecReq.sec rw dma p c buf secs → r.err ≠ none := by
      intro q _ h
      cases q with
      | now => exact ⟨_, rfl, (fun _ _ _ _ _ _ h => by cases h)⟩
      | sleep ns => exact ⟨_, rfl, (fun _ _ _ _ _ _ h => by cases h)⟩
      | sec rw dma p c buf secs =>
        refine ⟨_, by rw [bare_security hd]; rfl, fun _ _ _ _ _ _ _ h => by cases h⟩
    obtain ⟨h1, -⟩ := OutT.interp_chunks (A := fun _ => True) (secOnLinux o) env {} hist ht (p := p)
      (OutT.within_of_asks (OutT.asks_true p))
    have h1' := h1.symm.trans hr
    have hall := OutT.within_run (A := fun _ => True) (B := fun q (r : SecRep) => ∀ rw dma p c buf secs, q = SecReq.sec rw dma p c buf secs → r.err ≠ none)
      (OutT.upperEnv (secOnLinux o) env {} hist) [] (p := p)
      (OutT.within_of_asks (OutT.asks_true p)) (fun q hq H => (OutT.upperEnv_ok (secOnLinux o) env {} hist ht q hq H).2)
    obtain ⟨r, ⟨before, p', c, last, he, hn, -⟩, -⟩ := hc _ [] h1'
    have hm := hall (.sec false false p' c (zeros 2048) 5, last.got) (by
      rw [he]
      refine List.mem_append_right _ ?_
      unfold Round.exchanges
      simp)
    exact hm.2 _ _ _ _ _ _ rfl hn
  · obtain ⟨hs, id, hd⟩ := hn
    obtain ⟨env', h1, h2, -⟩ := tcg_on_nvme o fd id hs hd comId p hp env hist
    obtain ⟨r, h3, h4⟩ := hc env' [] (h1.symm.trans hr)
    exact ⟨fd, r, .inl ⟨⟨hs, id, hd⟩, h2.answered h3⟩, h4⟩
  · obtain ⟨hs, id, hd⟩ := hn
    obtain ⟨env', h1, h2, -, -, hl⟩ := tcg_on_scsi o fd id hs hd comId p hp env hist
    obtain ⟨r, h3, h4⟩ := hc env' [] (h1.symm.trans hr)
    exact ⟨fd, r, .inr ⟨⟨hs, id, hd⟩, h2.answered hl h3⟩, h4⟩

/-! ## Every call -/

/-- A driver call of the SCSI generic driver that panics before it asks for anything. -/
theorem stepA_panics (fd : Nat) (q : DrvReq) (hq : ∀ addr base behind, sgDriver addr base behind q = OutT.panic)
    (env : Prog.Env AReq ARep) (hist : Prog.Trace AReq ARep) :
    OutT.run env hist (stepA (.drv 1 fd q)) = (.panic, [(.sys .place, env hist (.sys .place))]) := by
  have : stepA (.drv 1 fd q) = (OutT.ask (.sys .place) >>= fun _ => OutT.panic : AM FRep) := by
    show OutT.interp sysCall (drvSg fd q) = _
    unfold drvSg
    simp only [hq]
    rfl
  rw [this, OutT.run_ask_bind]
  rfl

theorem run_panic_bind {Q R α β : Type} (env : Prog.Env Q R) (hist : Prog.Trace Q R) {p : OutT Q R α} {f : α → OutT Q R β} {t}
    (hp : OutT.run env hist p = (.panic, t)) : OutT.run env hist (p >>= f) = (.panic, t) := by
  rw [OutT.run_bind, hp]

theorem sec_empty (rw dma : Bool) (p : Byte) (c : BitVec 16) (secs addr base : Nat) (behind : Nat → Byte) :
    sgDriver addr base behind (.sec rw dma p c [] secs) = OutT.panic := by
  unfold sgDriver sgSecurity
  cases rw <;> rfl

theorem task_empty (rw dma : Bool) (tf : Tf) (secs addr base : Nat) (behind : Nat → Byte) :
    sgDriver addr base behind (.taskFile rw dma tf [] secs) = OutT.panic := by
  unfold sgDriver sgTaskFile
  cases rw <;> rfl

theorem security_empty {o : Opened} {fd : Nat} (h : ScsiDrive o fd) (rw dma : Bool) (p : Byte) (c : BitVec 16) (secs : Nat)
    (env : Prog.Env AReq ARep) (hist : Prog.Trace AReq ARep) :
    OutT.run env hist (OutT.interp sysCall (o.method (fun h => h.securityCommand rw dma p c [] secs))) =
      (.panic, [(.sys .place, env hist (.sys .place))]) := by
  obtain ⟨hs, id, hd⟩ := h
  unfold Opened.method
  rw [onHandle_drv hs]
  unfold Handle.securityCommand
  dsimp only
  rw [hd]
  dsimp only
  rw [drvA_ask]
  exact run_panic_bind _ _ (stepA_panics fd _ (sec_empty rw dma p c secs) env hist)

theorem ata_empty {o : Opened} {fd : Nat} (h : ScsiDrive o fd) (rw dma : Bool) (tf : Tf) (secs : Nat)
    (env : Prog.Env AReq ARep) (hist : Prog.Trace AReq ARep) :
    OutT.run env hist (OutT.interp sysCall (o.method (fun h => h.ataDoTaskFileCmd rw dma tf [] secs))) =
      (.panic, [(.sys .place, env hist (.sys .place))]) := by
  obtain ⟨hs, id, hd⟩ := h
  unfold Opened.method
  rw [onHandle_drv hs]
  unfold Handle.ataDoTaskFileCmd
  dsimp only
  rw [hd]
  dsimp only
  rw [if_pos rfl, drvA_ask]
  exact run_panic_bind _ _ (stepA_panics fd _ (task_empty rw dma tf secs) env hist)

/-- The driver questions on a handle without driver. -/
theorem bare_panics {o : Opened} (hd : o.handle.dh = none) (env : Prog.Env AReq ARep) (hist : Prog.Trace AReq ARep) :
    OutT.run env hist (OutT.interp sysCall (o.method Handle.getDrivingType)) = (.panic, []) ∧
    OutT.run env hist (OutT.interp sysCall (o.method Handle.getDriverName)) = (.panic, []) := by
  unfold Opened.method
  constructor
  · obtain ⟨i, fd, -, he⟩ := onHandle_bare (o := o) o.handle.getDrivingType
    rw [he]
    unfold Handle.getDrivingType
    rw [hd]
    rfl
  · obtain ⟨i, fd, -, he⟩ := onHandle_bare (o := o) o.handle.getDriverName
    rw [he]
    unfold Handle.getDriverName
    rw [hd]
    rfl

theorem made_driver {o : Opened} {i fd : Nat} (h : o.handle.dh = none ∨ (o.source = some (i, fd) ∧ DriverOf i o.handle.dh)) :
    o.handle.dh = none ∨ DriverOf i o.handle.dh := h.imp id (·.2)

/-- A drive whose driver sits at place 1 is a SCSI generic drive. -/
theorem scsi_of {o : Opened} {fd : Nat} (hs : o.source = some (1, fd)) (hd : DriverOf 1 o.handle.dh) : ScsiDrive o fd := by
  obtain ⟨⟨a, n, id⟩, hd, -, ha, hn⟩ := hd
  dsimp only at ha hn
  subst ha hn
  exact ⟨hs, id, hd⟩

/-- The calls that poll the drive for an answer. -/
def polls : LinuxCall → Bool
  | .revert .. => true
  | .defaultPassword .. => true
  | .tcg _ _ (.close _) => false
  | .tcg .. => true
  | _ => false

theorem call_sane (order : List (Bytes × Bytes) → List (Bytes × Bytes)) (ctx : Ctx) (c : LinuxCall) (st : Held)
    (h : AllSound st) (hc : polls c = false) :
    Sane (fun a : Reported => AllSound a.held) (fun t => CrashCause st t c) (c.prog order ctx st) := by
  have hopen : ∀ path (C : Prog.Trace AReq ARep → Prop), (∀ t, EndsMalformed t → C t) →
      Sane (fun r => ∀ o, r = Res.ok o → Sound o) C (OutT.interp sysCall (onLinux (openByPath 2 order path))) := by
    intro path C hC
    rw [sysOn_eq]
    exact sane_mono (fun r hr => hr.2) hC (openByPath_sane order path)
  cases c with
  | openPath path =>
    simp only [LinuxCall.prog]
    exact sane_then (hopen path _ (fun t ht => .openPath ht)) (fun r hr => ⟨_, rfl, h.add hr⟩)
  | enumDrives =>
    simp only [LinuxCall.prog]
    rw [sysOn_eq]
    refine sane_then (sane_mono (fun _ h => h) (fun t ht => ?_) (enumDrives_sane order)) (fun r _ => ⟨_, rfl, ?_⟩)
    · obtain ⟨s, v, h1, h2, h3⟩ := ht
      exact .enumDrives h1 h2 h3
    · cases r <;> exact h
  | enumVolumes m =>
    simp only [LinuxCall.prog]
    rw [sysOn_eq]
    exact sane_then (enumVolumes_sane st m) (fun r _ => ⟨_, rfl, h⟩)
  | openVolume vols path =>
    simp only [LinuxCall.prog]
    refine sane_then (A := fun r => ∀ o, r = some (Res.ok o) → Sound o) ?_ (fun r hr => ?_)
    · unfold openDriveByVolumePath
      dsimp only
      split
      · exact sane_ret (fun o h => by cases h)
      · split
        · rw [show onLinux (openByPath 2 order (trimSuffix path 0x2f#8) >>= fun o => OutT.ret (some o)) =
              (onLinux (openByPath 2 order (trimSuffix path 0x2f#8)) >>= fun o => OutT.ret (some o)) from OutT.interp_bind ..,
            OutT.interp_bind]
          refine sane_then (hopen _ _ (fun t ht => .openVolume ht)) (fun r hr => ⟨_, rfl, ?_⟩)
          intro o ho
          cases ho
          exact hr o rfl
        · exact sane_ret (fun o h => by cases h)
    · cases r with
      | none => exact ⟨_, rfl, h⟩
      | some r => exact ⟨_, rfl, h.add (fun o ho => hr o (by rw [ho]))⟩
  | openPartition p =>
    simp only [LinuxCall.prog]
    exact sane_then (hopen _ _ (fun t ht => .openPartition ht)) (fun r hr => ⟨_, rfl, h.add hr⟩)
  | close i =>
    simp only [LinuxCall.prog]
    unfold Held.on
    split
    · rename_i o ho
      dsimp only
      rw [sysOn_eq]
      exact sane_then (close_sane o (h o (List.mem_of_getElem? ho)) _) (fun o' ho' => ⟨_, rfl, h.set i ho'⟩)
    · exact sane_ret h
  | drivingType i =>
    simp only [LinuxCall.prog]
    refine query_sane h i _ (fun o ho hs => ?_)
    cases hd : o.handle.dh with
    | none =>
      intro env hist
      rw [(bare_panics hd env hist).1]
      exact .inr ⟨rfl, .drivingType ho hd rfl⟩
    | some d =>
      rcases hs.made.drv with hn | ⟨k, fd, h1, h2⟩
      · rw [hd] at hn; cases hn
      · unfold Opened.method
        rw [onHandle_drv h1]
        obtain ⟨-, -, hk, -⟩ := id h2
        exact (plainDrv_sane hk hd _).1
  | driverName i =>
    simp only [LinuxCall.prog]
    refine query_sane h i _ (fun o ho hs => ?_)
    cases hd : o.handle.dh with
    | none =>
      intro env hist
      rw [(bare_panics hd env hist).2]
      exact .inr ⟨rfl, .driverName ho hd rfl⟩
    | some d =>
      rcases hs.made.drv with hn | ⟨k, fd, h1, h2⟩
      · rw [hd] at hn; cases hn
      · unfold Opened.method
        rw [onHandle_drv h1]
        obtain ⟨-, -, hk, -⟩ := id h2
        exact (plainDrv_sane hk hd _).2
  | ata i rw dma tf data secs =>
    cases data with
    | none =>
      simp only [LinuxCall.prog]
      exact query_sane h i _ (fun o ho hs => method_total hs _ (fun k fd hk => ataNil_total k fd _ (made_driver hk) rw dma tf secs))
    | some b =>
      simp only [LinuxCall.prog]
      refine query_sane h i _ (fun o ho hs => ?_)
      by_cases hb : b = []
      · subst hb
        by_cases hx : ∃ fd, ScsiDrive o fd
        · obtain ⟨fd, hx⟩ := hx
          intro env hist
          rw [ata_empty hx]
          exact .inr ⟨rfl, .ata ho hx ⟨_, rfl⟩⟩
        · refine method_total hs _ (fun k fd hk => ?_)
          rcases hk with hk | ⟨h1, h2⟩
          · unfold Handle.ataDoTaskFileCmd
            dsimp only
            rw [hk]
            exact OutT.total_ret trivial
          · refine ata_total k fd _ (.inr h2) rw dma tf [] secs ?_
            rintro rfl
            exact absurd ⟨fd, scsi_of h1 h2⟩ hx
      · exact method_total hs _ (fun k fd hk => ata_total k fd _ (made_driver hk) rw dma tf b secs (fun _ => hb))
  | logPage i nsid logId rae size =>
    simp only [LinuxCall.prog]
    exact query_sane h i _ (fun o ho hs => method_total hs _ (fun k fd hk => logPage_total k fd _ (made_driver hk) nsid logId rae size))
  | security i rw dma p c buf secs =>
    simp only [LinuxCall.prog]
    refine query_sane h i _ (fun o ho hs => ?_)
    by_cases hb : buf = []
    · subst hb
      by_cases hx : ∃ fd, ScsiDrive o fd
      · obtain ⟨fd, hx⟩ := hx
        intro env hist
        rw [security_empty hx]
        exact .inr ⟨rfl, .security ho hx ⟨_, rfl⟩⟩
      · refine method_total hs _ (fun k fd hk => ?_)
        rcases hk with hk | ⟨h1, h2⟩
        · unfold Handle.securityCommand
          dsimp only
          rw [hk]
          exact OutT.total_ret trivial
        · refine security_total k fd _ (.inr h2) rw dma p c [] secs ?_
          rintro rfl
          exact absurd ⟨fd, scsi_of h1 h2⟩ hx
    · exact method_total hs _ (fun k fd hk => security_total k fd _ (made_driver hk) rw dma p c buf secs (fun _ => hb))
  | discover i =>
    simp only [LinuxCall.prog]
    unfold Held.on
    split
    · rename_i o ho
      have hs := h o (List.mem_of_getElem? ho)
      refine sane_then (A := fun x => Sound { o with handle := x.1 }) ?_ (fun x hx => ⟨_, rfl, h.set i hx⟩)
      unfold Opened.method
      rcases hs.made.drv with hd | ⟨k, fd, h1, h2⟩
      · obtain ⟨k, fd, -, he⟩ := onHandle_bare (o := o) o.handle.tcgDiscovery0
        rw [he]
        refine sane_total ?_
        unfold Handle.tcgDiscovery0 Handle.securityCommand
        rw [hd]
        exact OutT.total_ret ⟨hs.made.set (.inl rfl), fun hn => absurd rfl hn⟩
      · rw [onHandle_drv h1]
        have hne : o.handle.dh ≠ none := by
          obtain ⟨d, hd, -⟩ := h2
          rw [hd]
          exact fun h => by cases h
        refine sane_mono (fun x hx => ⟨hs.made.set (.inr hx.1), fun _ => hx.2⟩) (fun t ht => .discover ht) (discovery_sane h2 (hs.map hne))
    · exact sane_ret h
  | revert i d pw psid adm => cases hc
  | defaultPassword i d => cases hc
  | tcg i d c =>
    cases c with
    | close s =>
      simp only [LinuxCall.prog, closeCall_done]
      unfold Held.on
      split
      · exact sane_ret h
      · exact sane_ret h
    | _ => cases hc

theorem polling_held (order : List (Bytes × Bytes) → List (Bytes × Bytes)) (ctx : Ctx) (c : LinuxCall) (st : Held)
    (hc : polls c = true) : OutT.Returns (fun a : Reported => a.held = st) (c.prog order ctx st) := by
  have hb : ∀ i {α : Type} (p : Opened → AM α), OutT.Returns (fun a : Reported => a.held = st)
      (st.on i (fun o => p o >>= fun _ => OutT.ret { held := st })) := by
    intro i α p
    unfold Held.on
    split
    · exact OutT.returns_bind (OutT.returns_any _) (fun _ _ => OutT.returns_ret rfl)
    · exact OutT.returns_ret rfl
  cases c with
  | revert i d pw psid adm =>
    simp only [LinuxCall.prog]
    exact hb i _
  | defaultPassword i d =>
    simp only [LinuxCall.prog]
    exact hb i _
  | tcg i d c =>
    simp only [LinuxCall.prog]
    exact hb i _
  | _ => cases hc

theorem client_sound (order : List (Bytes × Bytes) → List (Bytes × Bytes)) (ctx : Ctx) (env : Prog.Env AReq ARep)
    (calls : List LinuxCall) : ∀ (st : Held) (hist : Prog.Trace AReq ARep), AllSound st →
    AllSound (clientRun order ctx env calls st hist).held := by
  induction calls with
  | nil => exact fun st hist h => h
  | cons c cs ih =>
    intro st hist h
    unfold clientRun
    refine ih _ _ ?_
    cases hp : polls c with
    | false =>
      have hm := call_sane order ctx c st h hp env hist
      generalize (OutT.run env hist (c.prog order ctx st)).1 = o at hm
      rcases hm with ⟨a, rfl, ha⟩ | ⟨rfl, -⟩
      · exact ha
      · exact h
    | true =>
      have hm := OutT.returns_run (polling_held order ctx c st hp) env hist
      generalize (OutT.run env hist (c.prog order ctx st)).1 = o at hm
      cases o with
      | ret a => show AllSound a.held; rw [hm a rfl]; exact h
      | panic => exact h
      | running => exact h

/-- A call that never panics and transfers no empty buffer does not panic on a drive. -/
theorem tcg_calm {o : Opened} (h : Sound o) {α : Type} {p : TcgM α} (hp : OutT.Asks Bytewise p)
    (hc : ∀ env hist, (OutT.run env hist p).1 ≠ .panic) (env : Prog.Env AReq ARep) (hist : Prog.Trace AReq ARep) :
    (OutT.run env hist (tcgOnLinux o p)).1 ≠ .panic := by
  obtain ⟨h1, -⟩ := OutT.interp_chunks (A := Bytewise) (B := fun _ _ => True) (secOnLinux o) env {} hist (fun q hq h' => by
    cases q with
    | now => exact ⟨_, rfl, trivial⟩
    | sleep ns => exact ⟨_, rfl, trivial⟩
    | sec rw dma p c buf secs =>
      have := method_total h (p := o.handle.securityCommand rw dma p c buf secs) (fun _ => False)
        (fun k fd hk => security_total k fd _ (made_driver hk) rw dma p c buf secs (fun _ => hq)) env h'
      rcases this with ⟨a, ha, -⟩ | ⟨-, hf⟩
      · exact ⟨a, ha, trivial⟩
      · exact hf.elim) (p := p) (OutT.within_of_asks hp)
  unfold tcgOnLinux
  rw [h1]
  exact hc _ _

theorem session_crash {ctx : Ctx} (hf : 0 < ctx.fuel) {st : Held} {i : Nat} {o : Opened} (hs : Sound o) (ho : st[i]? = some o)
    {d : Device} {c : TcgCall} (env : Prog.Env AReq ARep) (hist : Prog.Trace AReq ARep)
    (h1 : (OutT.run env hist (tcgOnLinux o (c.prog ctx d))).1 = .panic) :
    CrashCause st (OutT.run env hist (tcgOnLinux o (c.prog ctx d))).2 (.tcg i d c) := by
  by_cases hj : judges c = true
  · have ha := tcgCall_asks ctx d c (fun p inv m ops he => by rw [he] at hj; cases hj)
    obtain ⟨fd, r, h3, h4⟩ := tcg_panics hs ha (fun env hist hx => (tcgCall_panics ctx d c hf env hist hx).2.2) env hist h1
    by_cases hk : d.kind = .opal1 ∨ d.kind = .opal2
    · exact .tcg ho hk hj h3 h4
    · exfalso
      rcases hs.kinds with hd | ⟨fd, ⟨hs, id, hd⟩ | ⟨hs, id, hd⟩⟩
      · rcases h3 with ⟨⟨-, id, hn⟩, -⟩ | ⟨⟨-, id, hn⟩, -⟩ <;> (rw [hd] at hn; cases hn)
      · obtain ⟨env', g1, -⟩ := tcg_on_nvme o fd id hs hd _ _ ha env hist
        exact hk (tcgCall_panics ctx d c hf env' [] (g1.symm.trans h1)).1
      · obtain ⟨env', g1, -⟩ := tcg_on_scsi o fd id hs hd _ _ ha env hist
        exact hk (tcgCall_panics ctx d c hf env' [] (g1.symm.trans h1)).1
  · exfalso
    cases c with
    | close s => rw [closeCall_done] at h1; cases h1
    | exec p inv m ops =>
      refine tcg_calm hs (execCall_bytewise ctx d p inv m ops) (fun env hist hx => ?_) env hist h1
      have := (tcgCall_panics ctx d _ hf env hist hx).2.1
      cases this
    | _ => exact hj rfl

/-- Why a call panics, for what the client holds. -/
theorem call_crash (order : List (Bytes × Bytes) → List (Bytes × Bytes)) (ctx : Ctx) (hf : 0 < ctx.fuel) (c : LinuxCall) (st : Held)
    (h : AllSound st) (env : Prog.Env AReq ARep) (hist : Prog.Trace AReq ARep)
    (hr : (OutT.run env hist (c.prog order ctx st)).1 = .panic) : CrashCause st (OutT.run env hist (c.prog order ctx st)).2 c := by
  cases hp : polls c with
  | false =>
    rcases call_sane order ctx c st h hp env hist with ⟨a, ha, -⟩ | ⟨-, hc⟩
    · rw [hr] at ha; cases ha
    · exact hc
  | true =>
    have tail : ∀ {α : Type} (p : AM α), (OutT.run env hist (p >>= fun _ => OutT.ret ({ held := st } : Reported))).1 = .panic →
        (OutT.run env hist p).1 = .panic ∧ (OutT.run env hist (p >>= fun _ => OutT.ret ({ held := st } : Reported))).2 =
          (OutT.run env hist p).2 := by
      intro α p hx
      rw [OutT.run_bind] at hx ⊢
      generalize OutT.run env hist p = r at hx ⊢
      obtain ⟨o, t⟩ := r
      cases o with
      | ret a => cases hx
      | panic => exact ⟨rfl, rfl⟩
      | running => cases hx
    cases c <;> first
      | cases hp
      | skip
    · rename_i i d pw psid adm
      simp only [LinuxCall.prog] at hr ⊢
      unfold Held.on at hr ⊢
      split at hr
      · rename_i o ho
        obtain ⟨h1, h2⟩ := tail _ hr
        dsimp only at h2 ⊢
        rw [h2]
        have hs := h o (List.mem_of_getElem? ho)
        obtain ⟨fd, r, h3, h4⟩ := tcg_panics hs (revertTPer_asks ctx d pw psid adm)
          (fun env hist hx => (revert_panics ctx d pw psid adm hf env hist hx).2) env hist h1
        by_cases hk : d.kind = .opal1 ∨ d.kind = .opal2
        · exact .revert ho hk h3 h4
        · exfalso
          rcases hs.kinds with hd | ⟨fd, ⟨hs, id, hd⟩ | ⟨hs, id, hd⟩⟩
          · rcases h3 with ⟨⟨-, id, hn⟩, -⟩ | ⟨⟨-, id, hn⟩, -⟩ <;> (rw [hd] at hn; cases hn)
          · obtain ⟨env', g1, -⟩ := tcg_on_nvme o fd id hs hd _ _ (revertTPer_asks ctx d pw psid adm) env hist
            exact hk (revert_panics ctx d pw psid adm hf env' [] (g1.symm.trans h1)).1
          · obtain ⟨env', g1, -⟩ := tcg_on_scsi o fd id hs hd _ _ (revertTPer_asks ctx d pw psid adm) env hist
            exact hk (revert_panics ctx d pw psid adm hf env' [] (g1.symm.trans h1)).1
      · cases hr
    · rename_i i d
      simp only [LinuxCall.prog] at hr ⊢
      unfold Held.on at hr ⊢
      split at hr
      · rename_i o ho
        obtain ⟨h1, h2⟩ := tail _ hr
        dsimp only at h2 ⊢
        rw [h2]
        have hs := h o (List.mem_of_getElem? ho)
        obtain ⟨fd, r, h3, h4⟩ := tcg_panics hs (getDefaultPassword_asks ctx d)
          (fun env hist hx => (defaultPassword_panics ctx d hf env hist hx).2) env hist h1
        by_cases hk : d.kind = .opal1 ∨ d.kind = .opal2
        · exact .defaultPassword ho hk h3 h4
        · exfalso
          rcases hs.kinds with hd | ⟨fd, ⟨hs, id, hd⟩ | ⟨hs, id, hd⟩⟩
          · rcases h3 with ⟨⟨-, id, hn⟩, -⟩ | ⟨⟨-, id, hn⟩, -⟩ <;> (rw [hd] at hn; cases hn)
          · obtain ⟨env', g1, -⟩ := tcg_on_nvme o fd id hs hd _ _ (getDefaultPassword_asks ctx d) env hist
            exact hk (defaultPassword_panics ctx d hf env' [] (g1.symm.trans h1)).1
          · obtain ⟨env', g1, -⟩ := tcg_on_scsi o fd id hs hd _ _ (getDefaultPassword_asks ctx d) env hist
            exact hk (defaultPassword_panics ctx d hf env' [] (g1.symm.trans h1)).1
      · cases hr
    · rename_i i d c
      simp only [LinuxCall.prog] at hr ⊢
      unfold Held.on at hr ⊢
      split at hr
      · rename_i o ho
        obtain ⟨h1, h2⟩ := tail _ hr
        dsimp only at h2 ⊢
        rw [h2]
        exact session_crash hf (h o (List.mem_of_getElem? ho)) ho env hist h1
      · cases hr

/-! ## The property -/

/-- **C162.** After whatever calls, and whatever system and drives answer: a call of the library panics only for a reason of
the list `CrashCause`; and every call but those that poll the drive (`RevertTPer`, `GetDefaultPassword` and the calls
on sessions) comes to an end. -/
theorem client_crash (order : List (Bytes × Bytes) → List (Bytes × Bytes)) (ctx : Ctx) (hf : 0 < ctx.fuel)
    (env : Prog.Env AReq ARep) (calls : List LinuxCall) (c : LinuxCall) :
    let before := clientRun order ctx env calls [] []
    let r := OutT.run env before.trace (c.prog order ctx before.held)
    (r.1 = .panic → CrashCause before.held r.2 c) ∧ (polls c = false → r.1 ≠ .running) := by
  dsimp only
  have hs := client_sound order ctx env calls [] [] (fun o ho => by cases ho)
  refine ⟨call_crash order ctx hf c _ hs env _, fun hp hr => ?_⟩
  rcases call_sane order ctx c _ hs hp env (clientRun order ctx env calls [] []).trace with ⟨a, ha, -⟩ | ⟨ha, -⟩
  · rw [hr] at ha; cases ha
  · rw [hr] at ha; cases ha

/-- **C162.** `Close`, `NvmeGetLogPage`, `Close` of a session and `Exec` never panic. -/
theorem client_never_crashes (order : List (Bytes × Bytes) → List (Bytes × Bytes)) (ctx : Ctx) (hf : 0 < ctx.fuel)
    (env : Prog.Env AReq ARep) (calls : List LinuxCall) :
    let before := clientRun order ctx env calls [] []
    (∀ i, ∃ a, (OutT.run env before.trace ((LinuxCall.close i).prog order ctx before.held)).1 = .ret a) ∧
    (∀ i nsid logId rae size,
      ∃ a, (OutT.run env before.trace ((LinuxCall.logPage i nsid logId rae size).prog order ctx before.held)).1 = .ret a) ∧
    (∀ i d s, ∃ a, (OutT.run env before.trace ((LinuxCall.tcg i d (.close s)).prog order ctx before.held)).1 = .ret a) ∧
    (∀ i d protocol inv m ops,
      (OutT.run env before.trace ((LinuxCall.tcg i d (.exec protocol inv m ops)).prog order ctx before.held)).1 ≠ .panic) := by
  dsimp only
  have key : ∀ c : LinuxCall, polls c = false →
      (∀ held t, ¬ CrashCause held t c) →
      ∃ a, (OutT.run env (clientRun order ctx env calls [] []).trace (c.prog order ctx (clientRun order ctx env calls [] []).held)).1 = .ret a := by
    intro c hp hn
    obtain ⟨h1, h2⟩ := client_crash order ctx hf env calls c
    generalize (OutT.run env (clientRun order ctx env calls [] []).trace (c.prog order ctx (clientRun order ctx env calls [] []).held)) = r at h1 h2
    obtain ⟨o, t⟩ := r
    cases o with
    | ret a => exact ⟨a, rfl⟩
    | panic => exact absurd (h1 rfl) (hn _ _)
    | running => exact absurd rfl (h2 hp)
  refine ⟨fun i => key _ rfl (fun _ _ h => by cases h), fun i nsid logId rae size => key _ rfl (fun _ _ h => by cases h),
    fun i d s => key _ rfl (fun _ _ h => ?_), fun i d p inv m ops hx => ?_⟩
  · cases h with
    | tcg _ _ hj => cases hj
  · cases (client_crash order ctx hf env calls (.tcg i d (.exec p inv m ops))).1 hx with
    | tcg _ _ hj => cases hj

/-- What a query through the handle `i` does to the outcome. -/
theorem query_outcome {st : Held} {i : Nat} {o : Opened} (ho : st[i]? = some o) {α : Type} (p : Handle → DrvM α)
    (env : Prog.Env AReq ARep) (hist : Prog.Trace AReq ARep) :
    (OutT.run env hist (st.query i p)).1 = .panic ↔ (OutT.run env hist (OutT.interp sysCall (o.method p))).1 = .panic := by
  unfold Held.query Held.on
  rw [ho]
  dsimp only
  rw [OutT.run_bind]
  generalize OutT.run env hist (OutT.interp sysCall (o.method p)) = r
  obtain ⟨x, t⟩ := r
  cases x <;> simp

/-- **C162, the other direction.** For a handle the client holds, these reasons are exact: the two questions about the driver
panic exactly if the handle has none; an ATA command exactly if it gets a buffer without bytes and the drive is a SCSI generic
one; a security command likewise; and reading the discovery data again exactly if what is read is malformed. -/
theorem handle_crash_iff (order : List (Bytes × Bytes) → List (Bytes × Bytes)) (ctx : Ctx)
    (env : Prog.Env AReq ARep) (calls : List LinuxCall) (i : Nat) (o : Opened) :
    let before := clientRun order ctx env calls [] []
    let panics := fun c : LinuxCall => (OutT.run env before.trace (c.prog order ctx before.held)).1 = .panic
    before.held[i]? = some o →
    (panics (.drivingType i) ↔ o.handle.dh = none) ∧
    (panics (.driverName i) ↔ o.handle.dh = none) ∧
    (∀ rw dma tf data secs, panics (.ata i rw dma tf data secs) ↔ data = some [] ∧ ∃ fd, ScsiDrive o fd) ∧
    (∀ rw dma p c buf secs, panics (.security i rw dma p c buf secs) ↔ buf = [] ∧ ∃ fd, ScsiDrive o fd) ∧
    ((¬ panics (.discover i) ∧ o.handle.dh = none) ∨ ∃ fd rep,
      DiscoveryRead fd (OutT.run env before.trace ((LinuxCall.discover i).prog order ctx before.held)).2 rep ∧
      (panics (.discover i) ↔ rep.err = none ∧ announcedEnd rep.data ≤ 2048 ∧ Overruns rep.data 32 (announcedEnd rep.data))) := by
  intro before panics ho
  have hs : AllSound before.held := client_sound order ctx env calls [] [] (fun o ho => by cases ho)
  have hso := hs o (List.mem_of_getElem? ho)
  have cause : ∀ c, polls c = false → panics c →
      CrashCause before.held (OutT.run env before.trace (c.prog order ctx before.held)).2 c := by
    intro c hp hc
    rcases call_sane order ctx c _ hs hp env before.trace with ⟨a, ha, -⟩ | ⟨-, h⟩
    · rw [show _ = _ from hc] at ha; cases ha
    · exact h
  refine ⟨⟨fun h => ?_, fun h => ?_⟩, ⟨fun h => ?_, fun h => ?_⟩, fun rw dma tf data secs => ⟨fun h => ?_, fun h => ?_⟩,
    fun rw dma p c buf secs => ⟨fun h => ?_, fun h => ?_⟩, ?_⟩
  · have := cause _ rfl h
    cases this with
    | drivingType here bare quiet => rw [ho] at here; cases here; exact bare
  · exact (query_outcome ho _ env before.trace).2 (by rw [(bare_panics h env before.trace).1])
  · have := cause _ rfl h
    cases this with
    | driverName here bare quiet => rw [ho] at here; cases here; exact bare
  · exact (query_outcome ho _ env before.trace).2 (by rw [(bare_panics h env before.trace).2])
  · have := cause _ rfl h
    cases this with
    | ata here drive quiet => rw [ho] at here; cases here; exact ⟨rfl, _, drive⟩
  · obtain ⟨rfl, fd, hd⟩ := h
    exact (query_outcome ho _ env before.trace).2 (by rw [ata_empty hd])
  · have := cause _ rfl h
    cases this with
    | security here drive quiet => rw [ho] at here; cases here; exact ⟨rfl, _, drive⟩
  · obtain ⟨rfl, fd, hd⟩ := h
    exact (query_outcome ho _ env before.trace).2 (by rw [security_empty hd])
  · have hrun : ∀ k fd, OutT.interp sysCall (onLinux (o.onHandle o.handle.tcgDiscovery0)) = drvA k fd o.handle.tcgDiscovery0 →
        (OutT.run env before.trace ((LinuxCall.discover i).prog order ctx before.held)).2 =
          (OutT.run env before.trace (drvA k fd o.handle.tcgDiscovery0)).2 ∧
        (panics (.discover i) ↔ (OutT.run env before.trace (drvA k fd o.handle.tcgDiscovery0)).1 = .panic) := by
      intro k fd he
      show _ ∧ ((OutT.run env before.trace ((LinuxCall.discover i).prog order ctx before.held)).1 = .panic ↔ _)
      simp only [LinuxCall.prog]
      unfold Held.on
      rw [ho]
      dsimp only
      unfold Opened.method
      rw [he, OutT.run_bind]
      generalize OutT.run env before.trace (drvA k fd o.handle.tcgDiscovery0) = r
      obtain ⟨x, t⟩ := r
      cases x <;> simp
    rcases hso.made.drv with hd | ⟨k, fd, h1, h2⟩
    · left
      obtain ⟨k, fd, -, he⟩ := onHandle_bare (o := o) o.handle.tcgDiscovery0
      refine ⟨?_, hd⟩
      rw [(hrun k fd he).2]
      unfold Handle.tcgDiscovery0 Handle.securityCommand
      rw [hd]
      exact fun h => by cases h
    · right
      have hne : o.handle.dh ≠ none := by
        obtain ⟨d, hd, -⟩ := h2
        rw [hd]
        exact fun h => by cases h
      obtain ⟨rep, g1, g2, -⟩ := discovery_drv (fd := fd) h2 (hso.map hne) env before.trace
      obtain ⟨e1, e2⟩ := hrun k fd (onHandle_drv h1 _)
      exact ⟨fd, rep, by rw [e1]; exact g1, e2.trans g2⟩

/-! ## Concrete cases -/

def outcome : Out (List Opened) → Option Bool
  | .ret _ => some true
  | .panic => some false
  | .running => none

/-- A closed handle is asked for its driver, an open one is given buffers without bytes: four panics. -/
def crashingCalls : List LinuxCall :=
  [.openPath (ascii "/dev/sda"), .ata 0 false false {} (some []) 3, .ata 0 false false {} none 3,
    .security 0 true false 1 1 [] 3, .close 0, .drivingType 0, .driverName 0, .security 0 true false 1 1 [] 3, .discover 0, .close 0]

example : (clientRun id sampleCtx sampleClient crashingCalls [] []).reports.map outcome =
    [some true, some false, some true, some false, some true, some false, some false, some true, some true, some true] := by
  decide +kernel

/-- The same drive, but its discovery data announces 2048 bytes and its last descriptor runs over them. -/
def sampleMalformed : Prog.Env AReq ARep := fun h q => match q with
  | .sys (.sgIo _ k) => if k.cdb[0]? = some 0xa2
      then { sys := { sg := { data := [0, 0, 8, 0] ++ zeros 28 ++ (List.replicate 8 ([0, 0, 0, 255] ++ zeros 255)).flatten } } } else sampleClient h q
  | q => sampleClient h q

/-- Opening the drive panics; and so does the enumeration. -/
example : (clientRun id sampleCtx sampleMalformed [.openPath (ascii "/dev/sda"), .enumDrives] [] []).reports.map outcome =
    [some false, some false] := by
  decide +kernel

end Dparm
