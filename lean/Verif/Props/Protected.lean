import Verif.Lemmas.Protected
import Verif.Props.TperScsi
import Verif.Props.SharedDrive
/-!
# No sequence of calls moves a drive without its password (C159)
-/
namespace Dparm
open Spec

theorem run_interp_all {Q R Q' R' α : Type} {f : Q → OutT Q' R' R} {A : Q → Prop} {B : Q' → Prop}
    (hf : ∀ q, A q → ∀ env hist, ∀ x ∈ (OutT.run env hist (f q)).2, B x.1) (p : Prog Q R (Out α)) (hp : Prog.Asks A p) :
    ∀ env hist, ∀ x ∈ (OutT.run env hist (OutT.interp f p)).2, B x.1 := by
  induction p with
  | done o => intro env hist x hx; cases hx
  | ask q k ih =>
    intro env hist x hx
    have hi : OutT.interp f (Prog.ask q k) = (f q >>= fun r => OutT.interp f (k r)) := rfl
    rw [hi, OutT.run_bind] at hx
    have h1 := hf q hp.1 env hist
    rcases hr : OutT.run env hist (f q) with ⟨o, t⟩
    rw [hr] at hx h1
    cases o with
    | panic => exact h1 x hx
    | running => exact h1 x hx
    | ret a =>
      rcases List.mem_append.1 hx with hx | hx
      · exact h1 x hx
      · exact ih a (hp.2 a) env _ x hx

variable {dr : Drive} {C : Option (Bytes × Bytes) → Prop}

/-- A request of the whole program that can do no more to the drive than `C` allows. -/
def TameReq (dr : Drive) (C : Option (Bytes × Bytes) → Prop) (q : AReq) : Prop :=
  ∀ data, Hands dr.comId data q → TameBytes dr C data

def AllTame (dr : Drive) (C : Option (Bytes × Bytes) → Prop) (t : Prog.Trace AReq ARep) : Prop := ∀ x ∈ t, TameReq dr C x.1

theorem OnlySys.tame {t : Prog.Trace AReq ARep} (h : OnlySys (TameCall dr C) t) : AllTame dr C t := by
  intro x hx
  obtain ⟨q, e, hq⟩ := h x hx
  rw [e]
  exact hq

theorem allTame_bind {α β : Type} {p : AM α} {f : α → AM β} (hp : ∀ env hist, AllTame dr C (OutT.run env hist p).2)
    (hf : ∀ a env hist, AllTame dr C (OutT.run env hist (f a)).2) (env : Prog.Env AReq ARep) (hist : Prog.Trace AReq ARep) :
    AllTame dr C (OutT.run env hist (p >>= f)).2 := by
  have h1 := hp env hist
  rw [OutT.run_bind]
  rcases hr : OutT.run env hist p with ⟨o, t⟩
  rw [hr] at h1
  cases o with
  | panic => exact h1
  | running => exact h1
  | ret a =>
    intro x hx
    rcases List.mem_append.1 hx with hx | hx
    · exact h1 x hx
    · exact hf a env _ x hx

theorem allTame_ret {β : Type} (b : β) (env : Prog.Env AReq ARep) (hist : Prog.Trace AReq ARep) :
    AllTame dr C (OutT.run env hist (OutT.ret b : AM β)).2 := by
  intro x hx; cases hx

theorem secOnLinux_tame {o : Opened} (hm : Made o) (q : SecReq) (hq : TameSec dr C q) (env : Prog.Env AReq ARep)
    (hist : Prog.Trace AReq ARep) : AllTame dr C (OutT.run env hist (secOnLinux o q)).2 := by
  cases q with
  | now =>
    refine allTame_bind (fun env hist => ?_) (fun _ _ _ => allTame_ret _ _ _) env hist
    intro x hx
    rw [OutT.run_ask] at hx
    rw [List.mem_singleton.1 hx]
    intro data h
    exact h.elim
  | sleep ns =>
    refine allTame_bind (fun env hist => ?_) (fun _ _ _ => allTame_ret _ _ _) env hist
    intro x hx
    rw [OutT.run_ask] at hx
    rw [List.mem_singleton.1 hx]
    intro data h
    exact h.elim
  | sec rw dma p c data to =>
    refine OnlySys.tame ?_
    have h : Does (TameCall dr C) (o.method (fun h => h.securityCommand rw dma p c data to)) :=
      security_tame hm rw dma p c data to (fun hr => by subst hr; exact hq)
    obtain ⟨env', -, h'⟩ := sysCall_run (o.method (fun h => h.securityCommand rw dma p c data to)) env hist
    intro x hx
    obtain ⟨y, hy, e⟩ := h'.mem x hx
    exact ⟨_, e, h env' [] y hy⟩

theorem tcgOnLinux_tame {o : Opened} (hm : Made o) {α : Type} {p : TcgM α} (hp : OutT.Asks (TameSec dr C) p)
    (env : Prog.Env AReq ARep) (hist : Prog.Trace AReq ARep) : AllTame dr C (OutT.run env hist (tcgOnLinux o p)).2 :=
  run_interp_all (B := TameReq dr C) (fun q hq => secOnLinux_tame hm q hq) p hp env hist

theorem ata_does (i fd : Nat) (h : Handle) (rw dma : Bool) (tf : Tf) (data : Bytes) (to : Nat) (hd : DriverOf i h.dh) :
    OutT.Asks (TameCall dr C) (onLinux (onDriver i fd (h.ataDoTaskFileCmd rw dma tf data to))) := by
  obtain ⟨d, hd, hi, ha, hn⟩ := hd
  unfold Handle.ataDoTaskFileCmd
  rw [hd]
  dsimp only
  match i, hi with
  | 0, _ =>
    rw [if_neg (by rw [ha]; decide)]
    exact OutT.asks_ret _
  | 1, _ =>
    rw [if_pos (by rw [ha]; decide), onLinux_drvSg]
    exact OutT.asks_bind (drvSg_tame fd _ trivial) (fun _ => OutT.asks_ret _)

theorem ataNil_does (i fd : Nat) (h : Handle) (rw dma : Bool) (tf : Tf) (to : Nat) (hd : DriverOf i h.dh) :
    OutT.Asks (TameCall dr C) (onLinux (onDriver i fd (h.ataDoTaskFileNil rw dma tf to))) := by
  obtain ⟨d, hd, hi, ha, hn⟩ := hd
  unfold Handle.ataDoTaskFileNil
  rw [hd]
  dsimp only
  match i, hi with
  | 0, _ =>
    rw [if_neg (by rw [ha]; decide)]
    exact OutT.asks_ret _
  | 1, _ =>
    rw [if_pos (by rw [ha]; decide), onLinux_drvSg]
    exact OutT.asks_bind (drvSg_tame fd _ trivial) (fun _ => OutT.asks_ret _)

/-- The credentials a call may present to the drive, and the packets of its own it may send. -/
def CallTame (dr : Drive) (C : Option (Bytes × Bytes) → Prop) (ctx : Ctx) : LinuxCall → Prop
  | .security _ rw _ p c buf _ => rw = true → p = 1 → c = dr.comId → TameBytes dr C buf
  | .revert _ d pw psid _ => d.isAnySSC = true → d.baseComId = dr.comId →
      C (presented ctx.kdf (revertSession psid).noHash d.serial pw (if psid then PSID_UID else SID_UID))
  | .defaultPassword _ _ => C none
  | .tcg _ d c => OutT.Asks (TameSec dr C) (c.prog ctx d)
  | _ => True

theorem call_tame (order : List (Bytes × Bytes) → List (Bytes × Bytes)) (ctx : Ctx) (c : LinuxCall) (st : Held)
    (h : AllMade st) (hc : CallTame dr C ctx c) (env : Prog.Env AReq ARep) (hist : Prog.Trace AReq ARep) :
    AllTame dr C (OutT.run env hist (c.prog order ctx st)).2 := by
  have hlook : looks c = true → AllTame dr C (OutT.run env hist (c.prog order ctx st)).2 := fun hl x hx => by
    obtain ⟨q, e, hq⟩ := call_looks order ctx c st h hl env hist x hx
    rw [e]
    exact looks_tame hq
  have hq : ∀ i {α : Type} (p : Handle → DrvM α), (∀ h : Handle, h.dh = none → OutT.Asks (fun _ => False) (p h)) →
      (∀ (h : Handle) i fd, DriverOf i h.dh → OutT.Asks (TameCall dr C) (onLinux (onDriver i fd (p h)))) →
      AllTame dr C (OutT.run env hist (st.query i p)).2 := by
    intro i α p h0 h1
    unfold Held.query Held.on
    split
    · rename_i o ho
      exact (does_sys (does_method (h o (List.mem_of_getElem? ho)) (h0 _) (fun i fd hd => does_asks (h1 _ i fd hd))) _
        (fun _ _ _ => onlySys_ret _ _ _ _) env hist).tame
    · exact allTame_ret _ _ _
  cases c with
  | ata i rw dma tf data secs =>
    cases data with
    | some b =>
      refine hq i _ (fun h h0 => ?_) (fun h i fd hd => ata_does i fd h rw dma tf b secs hd)
      unfold Handle.ataDoTaskFileCmd
      rw [h0]
      exact OutT.asks_ret _
    | none =>
      refine hq i _ (fun h h0 => ?_) (fun h i fd hd => ataNil_does i fd h rw dma tf secs hd)
      unfold Handle.ataDoTaskFileNil
      rw [h0]
      exact OutT.asks_ret _
  | security i rw dma p c b s =>
    refine hq i _ (fun h h0 => ?_) (fun h i fd hd => security_does i fd h hd rw dma p c b s hc)
    unfold Handle.securityCommand
    rw [h0]
    exact OutT.asks_ret _
  | revert i d pw psid adm =>
    simp only [LinuxCall.prog]
    unfold Held.on
    split
    · rename_i o ho
      exact allTame_bind (fun env hist => tcgOnLinux_tame (h o (List.mem_of_getElem? ho))
        (revertTPer_tame ctx d pw psid adm hc) env hist) (fun _ _ _ => allTame_ret _ _ _) env hist
    · exact allTame_ret _ _ _
  | defaultPassword i d =>
    simp only [LinuxCall.prog]
    unfold Held.on
    split
    · rename_i o ho
      exact allTame_bind (fun env hist => tcgOnLinux_tame (h o (List.mem_of_getElem? ho))
        (getDefaultPassword_tame ctx d hc) env hist) (fun _ _ _ => allTame_ret _ _ _) env hist
    · exact allTame_ret _ _ _
  | tcg i d c =>
    simp only [LinuxCall.prog]
    unfold Held.on
    split
    · rename_i o ho
      exact allTame_bind (fun env hist => tcgOnLinux_tame (h o (List.mem_of_getElem? ho)) hc env hist)
        (fun _ _ _ => allTame_ret _ _ _) env hist
    · exact allTame_ret _ _ _
  | openPath => exact hlook rfl
  | enumDrives => exact hlook rfl
  | enumVolumes => exact hlook rfl
  | openVolume => exact hlook rfl
  | openPartition => exact hlook rfl
  | close => exact hlook rfl
  | drivingType => exact hlook rfl
  | driverName => exact hlook rfl
  | logPage => exact hlook rfl
  | discover => exact hlook rfl

theorem clientRun_tame (order : List (Bytes × Bytes) → List (Bytes × Bytes)) (ctx : Ctx) (env : Prog.Env AReq ARep)
    (calls : List LinuxCall) (hc : ∀ c ∈ calls, CallTame dr C ctx c) : ∀ (st : Held) (hist : Prog.Trace AReq ARep), AllMade st →
    AllTame dr C (clientRun order ctx env calls st hist).trace := by
  induction calls with
  | nil => intro st hist _ x hx; cases hx
  | cons c cs ih =>
    intro st hist h x hx
    unfold clientRun at hx
    dsimp only at hx
    rcases List.mem_append.1 hx with hx | hx
    · exact call_tame order ctx c st h (hc c (List.mem_cons_self ..)) env hist x hx
    · refine ih (fun c' h' => hc c' (List.mem_cons_of_mem _ h')) _ _ ?_ x hx
      have hm := call_made order ctx c st h env hist
      generalize (OutT.run env hist (c.prog order ctx st)).1 = o at hm
      cases o with
      | ret a => exact hm a rfl
      | panic => exact h
      | running => exact h

/-- Every exchange is one of a goroutine that exists. -/
theorem pool_tags {Q R α : Type} {env : SysEnv Q R} (s₀ : Pool Q R α) (ht : s₀.trace = []) (sched : List Nat) :
    ∀ x ∈ (s₀.run env sched).trace, x.1 < s₀.threads.length := by
  have key : ∀ (sched : List Nat) (s : Pool Q R α), s.threads.length = s₀.threads.length → (∀ x ∈ s.trace, x.1 < s₀.threads.length) →
      ∀ x ∈ (s.run env sched).trace, x.1 < s₀.threads.length := by
    intro sched
    induction sched with
    | nil => intro s _ h; exact h
    | cons j sched ih =>
      intro s hl h
      refine ih (s.step env j) ?_ ?_
      · unfold Pool.step
        split
        · simp [hl]
        · exact hl
      · unfold Pool.step
        split
        · rename_i q k hj
          intro x hx
          rcases List.mem_append.1 hx with hx | hx
          · exact h x hx
          · rw [List.mem_singleton.1 hx]
            rw [← hl]
            exact (List.getElem?_eq_some_iff.1 hj).1
        · exact h
  exact key sched s₀ rfl (by rw [ht]; intro x hx; cases hx)

/-- All system calls of all goroutines are tame. -/
theorem clients_tame (order : List (Bytes × Bytes) → List (Bytes × Bytes)) (ctx : Ctx) (env : SysEnv AReq ARep)
    (calls : List (List LinuxCall)) (hc : ∀ cl ∈ calls, ∀ c ∈ cl, CallTame dr C ctx c) (sched : List Nat) :
    AllTame dr C ((clients order ctx calls).run env sched).trace.whole := by
  intro x hx
  obtain ⟨⟨i, y⟩, hy, rfl⟩ := List.mem_map.1 hx
  have hi : i < calls.length := by
    have := pool_tags (env := env) (clients order ctx calls) rfl sched _ hy
    simpa [clients] using this
  have hcs : calls[i]? = some calls[i] := List.getElem?_eq_getElem hi
  obtain ⟨p', -, h2⟩ := pool_follows (env := env) (clients order ctx calls) rfl sched i (clientProg order ctx calls[i] [])
    (by simp [clients, hcs])
  have := Prog.Follows.run (env := replay (((clients order ctx calls).run env sched).trace.of i) (fun _ => {})) [] h2
    (replay_replays _ _)
  rw [clientProg_run] at this
  have hsub : ∀ z ∈ ((clients order ctx calls).run env sched).trace.of i, TameReq dr C z.1 := by
    intro z hz
    refine clientRun_tame order ctx (replay (((clients order ctx calls).run env sched).trace.of i) (fun _ => {})) calls[i]
      (fun c hc' => hc _ (List.getElem_mem hi) c hc') [] [] (fun o ho => by cases ho) z ?_
    have h' := congrArg Prod.snd this
    dsimp only at h'
    rw [h']
    exact List.mem_append_left _ hz
  exact hsub y (List.mem_map.2 ⟨(i, y), List.mem_filter.2 ⟨hy, by simp⟩, rfl⟩)

/-- What the drive must not see: neither the PSID nor the SID credential. -/
def NoKey (dr : Drive) (sid : Bytes) (cred : Option (Bytes × Bytes)) : Prop :=
  ∀ v u, cred = some (v, u) → ¬ (u = psidAuthority ∧ v = dr.psid) ∧ ¬ (u = sidAuthority ∧ v = sid)

theorem wrong_noKey {sid : Bytes} {kdf : Kdf} {d : Device} {pw : Bytes} {psid : Bool} (h : WrongPassword dr sid kdf d pw psid) :
    NoKey dr sid (presented kdf (revertSession psid).noHash d.serial pw (if psid then PSID_UID else SID_UID)) := by
  intro v u hp
  rw [presented_revert] at hp
  split at hp
  · cases hp
  · simp only [Option.some.injEq, Prod.mk.injEq] at hp
    obtain ⟨rfl, rfl⟩ := hp
    cases psid with
    | false => exact ⟨(fun ⟨h1, _⟩ => absurd h1 (by decide)), (fun ⟨_, h2⟩ => h h2)⟩
    | true => exact ⟨(fun ⟨_, h2⟩ => h h2), (fun ⟨h1, _⟩ => absurd h1 (by decide))⟩

theorem keyless_bytes {sid data : Bytes} (h : ¬ ShowsKey dr sid data) : TameBytes dr (NoKey dr sid) data := by
  intro p hp hc
  refine tame_any (fun c a h1 h2 h3 h4 => ?_)
  intro v u ho
  unfold offered at ho
  split at ho
  · rename_i v' u' hv hu
    simp only [Option.some.injEq, Prod.mk.injEq] at ho
    obtain ⟨rfl, rfl⟩ := ho
    refine ⟨?_, ?_⟩
    · rintro ⟨rfl, rfl⟩
      exact h ⟨p, c, a, hp, hc, h1, h2, h3, h4, .inl ⟨hu, hv⟩⟩
    · rintro ⟨rfl, rfl⟩
      exact h ⟨p, c, a, hp, hc, h1, h2, h3, h4, .inr ⟨hu, hv⟩⟩
  · cases ho

instance : Inhabited SecRep := ⟨{}⟩

theorem keyless_tame {sid : Bytes} {ctx : Ctx} {d : Device} {c : TcgCall} (h : c.Keyless dr sid ctx d) :
    OutT.Asks (TameSec dr (NoKey dr sid)) (c.prog ctx d) := by
  refine OutT.asks_of_run (fun env hist x hx => ?_)
  have := h env hist x hx
  obtain ⟨q, r⟩ := x
  dsimp only at this ⊢
  cases q with
  | now => trivial
  | sleep ns => trivial
  | sec rw dma p c data secs =>
    cases rw with
    | false => trivial
    | true =>
      rintro rfl rfl
      exact keyless_bytes (this dma data secs rfl)

theorem unprivileged_tame {sid : Bytes} {ctx : Ctx} {c : LinuxCall} (h : c.Unprivileged dr sid ctx) :
    CallTame dr (NoKey dr sid) ctx c := by
  cases c with
  | security i rw dma p c b s =>
    intro h1 h2 h3
    exact keyless_bytes (fun hk => h ⟨h1, h2, h3, hk⟩)
  | revert i d pw psid adm => exact fun _ _ => wrong_noKey h
  | defaultPassword i d => intro v u hp; cases hp
  | tcg i d c => exact keyless_tame h
  | _ => trivial

/-- A tame request leaves credentials alone and opens no session of SID or PSID, if the credentials presented are wrong. -/
theorem guarded_step {Q R : Type} {hands : Bytes → Q → Prop} {st : Prog.Trace Q R → DriveState} (hg : GuardedBy hands dr st)
    {sid : Bytes} (h : Prog.Trace Q R) (q : Q) (r : R) (hq : ∀ data, hands data q → TameBytes dr (NoKey dr sid) data)
    (hs : (st h).sid = sid) (hp : ∀ o ∈ (st h).sessions, ¬ o.Privileged) :
    (st (h ++ [(q, r)])).sid = sid ∧ (st (h ++ [(q, r)])).reverts = (st h).reverts ∧
      ∀ o ∈ (st (h ++ [(q, r)])).sessions, ¬ o.Privileged := by
  rcases hg h q r with ⟨h1, h2, h3⟩ | ⟨data, p, tper, w, h1, h2, h3, h4⟩
  · exact ⟨h1.trans hs, h2, fun o ho => hp o (h3 o ho)⟩
  · rcases hq data h1 p h2 h3 tper (st h) with ⟨x, e⟩ | ⟨a, hC, e⟩ | ⟨⟨o, ho, hpo⟩, -⟩
    · rw [h4, e]
      exact ⟨hs, rfl, hp⟩
    · rw [h4, e]
      have hn : dr.admits (st h) a = true → a.authority = none := by
        intro ha
        unfold Drive.admits at ha
        split at ha
        · assumption
        · rename_i v u hv hu
          obtain ⟨k1, k2⟩ := hC v u (by unfold offered; rw [hv, hu])
          simp only [Bool.or_eq_true, Bool.and_eq_true, beq_iff_eq] at ha
          rw [hs] at ha
          rcases ha with ha | ha
          · exact absurd ha k1
          · exact absurd ha k2
        · cases ha
      dsimp only
      unfold Drive.startSession
      split
      · exact ⟨hs, rfl, hp⟩
      · split
        · exact ⟨hs, rfl, hp⟩
        · split
          · rename_i ha
            have := hn ha
            refine ⟨hs, rfl, fun o ho => ?_⟩
            rcases List.mem_cons.1 ho with rfl | ho
            · rintro ⟨_, hpo | hpo⟩ <;> (dsimp only at hpo; rw [this] at hpo; cases hpo)
            · exact hp o ho
          · exact ⟨hs, rfl, hp⟩
    · exact absurd hpo (hp o ho)

/-- So do all of them together. -/
theorem guarded_run {Q R : Type} {hands : Bytes → Q → Prop} {st : Prog.Trace Q R → DriveState} (hg : GuardedBy hands dr st)
    (hpriv : ∀ o ∈ (st []).sessions, ¬ o.Privileged) (t : Prog.Trace Q R)
    (ht : ∀ x ∈ t, ∀ data, hands data x.1 → TameBytes dr (NoKey dr (st []).sid) data) :
    (st t).sid = (st []).sid ∧ (st t).reverts = (st []).reverts ∧ ∀ o ∈ (st t).sessions, ¬ o.Privileged := by
  have key : ∀ (t h : Prog.Trace Q R), (∀ x ∈ t, ∀ data, hands data x.1 → TameBytes dr (NoKey dr (st []).sid) data) →
      ((st h).sid = (st []).sid ∧ (st h).reverts = (st []).reverts ∧ ∀ o ∈ (st h).sessions, ¬ o.Privileged) →
      ((st (h ++ t)).sid = (st []).sid ∧ (st (h ++ t)).reverts = (st []).reverts ∧ ∀ o ∈ (st (h ++ t)).sessions, ¬ o.Privileged) := by
    intro t
    induction t with
    | nil => intro h _ hi; rw [List.append_nil]; exact hi
    | cons x t ih =>
      rintro h ha ⟨h1, h2, h3⟩
      obtain ⟨q, r⟩ := x
      obtain ⟨k1, k2, k3⟩ := guarded_step hg h q r (ha _ (List.mem_cons_self ..)) h1 h3
      have := ih (h ++ [(q, r)]) (fun y hy => ha y (List.mem_cons_of_mem _ hy)) ⟨k1, k2.trans h2, k3⟩
      rw [List.append_assoc] at this
      exact this
  have := key t [] ht ⟨rfl, rfl, hpriv⟩
  rw [List.nil_append] at this
  exact this

/-- **C159.** Any number of goroutines make whatever calls of the API in whatever order, with whatever answers of the system, and
stop wherever: if no packet of their own (sent raw or through a session) shows the drive its PSID or its SID credential, and none
calls `RevertTPer` with the PSID or with a password whose derived key is the SID credential, and no session of SID or PSID was open at the start, then the drive is not reverted, its
SID credential is not changed, and no session of SID or PSID is open. -/
theorem drive_protected {st : Prog.Trace AReq ARep → DriveState} (hg : Guarded dr st)
    (order : List (Bytes × Bytes) → List (Bytes × Bytes)) (ctx : Ctx) (env : SysEnv AReq ARep) (calls : List (List LinuxCall))
    (hun : ∀ cl ∈ calls, ∀ c ∈ cl, c.Unprivileged dr (st []).sid ctx) (hpriv : ∀ o ∈ (st []).sessions, ¬ o.Privileged)
    (sched : List Nat) :
    let s := st ((clients order ctx calls).run env sched).trace.whole
    s.sid = (st []).sid ∧ s.reverts = (st []).reverts ∧ ∀ o ∈ s.sessions, ¬ o.Privileged := by
  exact guarded_run hg hpriv _
    (clients_tame (dr := dr) order ctx env calls (fun cl hcl c hc => unprivileged_tame (hun cl hcl c hc)) sched)

/-! ## A computer that meets the hypotheses -/

/-- A SECURITY PROTOCOL OUT whose data goes the wrong way is lost; otherwise the drive of Props/TperScsi.lean. -/
def guardedStep (fd : Nat) (dr : Drive) (s : DriveState) : AReq → DriveState
  | .sys (.sgIo f q) => if q.dir = -3 ∧ q.cdb[0]? = some 0xb5 then s else idealScsiStep fd dr s (.sys (.sgIo f q))
  | _ => s

/-- Its state after a history. -/
def guardedState (fd : Nat) (dr : Drive) (s0 : DriveState) (h : Prog.Trace AReq ARep) : DriveState :=
  h.foldl (fun s x => guardedStep fd dr s x.1) s0

/-- The answers of a system with this drive at descriptor `fd`, whatever goroutine asks. -/
def guardedEnv (fd : Nat) (dr : Drive) (s0 : DriveState) : SysEnv AReq ARep := fun h _ q =>
  idealScsi fd dr (guardedState fd dr s0 h.whole) [] q

theorem guarded_ideal (fd : Nat) (dr : Drive) (s0 : DriveState) : Guarded dr (guardedState fd dr s0) := by
  intro h q r
  have hsn : guardedState fd dr s0 (h ++ [(q, r)]) = guardedStep fd dr (guardedState fd dr s0 h) q := by
    simp [guardedState, List.foldl_append]
  rw [hsn]
  generalize guardedState fd dr s0 h = s
  have hself : Unmoved s s := ⟨rfl, rfl, fun _ ho => ho⟩
  match q with
  | .now => exact .inl hself
  | .sleep _ => exact .inl hself
  | .sys (.os _) => exact .inl hself
  | .sys .place => exact .inl hself
  | .sys (.nvmeIo _ _ _) => exact .inl hself
  | .sys (.nvme _ _ _ _) => exact .inl hself
  | .sys (.sgIo fd' q) =>
    simp only [guardedStep]
    split
    · exact .inl hself
    rename_i hdir
    unfold idealScsiStep asSecScsi
    simp only
    split
    · rename_i x hx
      split at hx
      · rename_i addr buf hm
        split at hx
        · rename_i hc
          cases hx
          simp only [idealStep]
          split
          · rename_i hpc
            split
            · rename_i p hp
              split
              · rename_i hcid
                refine .inr ⟨buf, p, _, 0, ⟨fun hd => hdir ⟨hd, hc.2⟩, .inl ⟨hc.2, ?_, ?_⟩, addr, hm⟩, hp, hcid, rfl⟩
                · cases hx : q.cdb[1]? with
                  | none => rw [hx] at hpc; exact absurd hpc.1 (by decide)
                  | some b => rw [hx] at hpc; exact congrArg some hpc.1
                · have hlt : beVal (slice q.cdb 2 2) < 65536 := by
                    refine Nat.lt_of_lt_of_le (beVal_lt _) ?_
                    have hl : (slice q.cdb 2 2).length ≤ 2 := by unfold slice; simp; omega
                    exact Nat.pow_le_pow_right (by decide) hl
                  have := congrArg BitVec.toNat hpc.2
                  simp only [BitVec.toNat_ofNat] at this
                  omega
              · exact .inl hself
            · exact .inl hself
          · exact .inl hself
        · split at hx
          · cases hx
            simp only [idealStep]
            split
            · exact .inl ⟨rfl, rfl, fun _ ho => ho⟩
            · exact .inl hself
          · cases hx
      · cases hx
    · exact .inl hself

/-- One goroutine opens the drive and calls `RevertTPer` with a wrong PSID and then with the PSID `last`; the other opens it and
reads the default password. -/
def guessing (last : Bytes) : List (List LinuxCall) :=
  [[.openPath (ascii "/dev/sda"), .revert 0 shippedDevice [0x50, 0x32] true true, .revert 0 shippedDevice last true true],
   [.openPath (ascii "/dev/sda"), .defaultPassword 0 shippedDevice, .close 0]]

/-- With two wrong guesses the drive is safe under every schedule. -/
example (sched : List Nat) :
    let s := guardedState 3 roomyDrive ownedState ((clients id sampleCtx (guessing [0x50, 0x33])).run
      (guardedEnv 3 roomyDrive ownedState) sched).trace.whole
    s.sid = ownedState.sid ∧ s.reverts = 0 ∧ ∀ o ∈ s.sessions, ¬ o.Privileged :=
  drive_protected (guarded_ideal 3 roomyDrive ownedState) id sampleCtx _ (guessing [0x50, 0x33])
    (by
      intro cl hcl c hc
      simp only [guessing, List.mem_cons, List.not_mem_nil, or_false] at hcl
      rcases hcl with rfl | rfl <;> simp only [List.mem_cons, List.not_mem_nil, or_false] at hc <;>
        rcases hc with rfl | rfl | rfl <;> first | trivial | (show ([_, _] : Bytes) ≠ _; decide))
    (fun o ho => by cases ho) sched

/-- Something is at stake: with the PSID as the last guess the same calls revert the drive, where the wrong one does not. -/
example :
    (guardedState 3 roomyDrive ownedState ((clients id sampleCtx (guessing [0x50, 0x31])).run
      (guardedEnv 3 roomyDrive ownedState) (takeTurns 2 400)).trace.whole).reverts = 1 ∧
    (guardedState 3 roomyDrive ownedState ((clients id sampleCtx (guessing [0x50, 0x33])).run
      (guardedEnv 3 roomyDrive ownedState) (takeTurns 2 400)).trace.whole).reverts = 0 := by
  decide +kernel

end Dparm
