import Verif.Lemmas.Refine
import Verif.Spec.LinuxSystem
import Verif.Props.Factory
import Verif.Props.Nvme
import Verif.Props.Sg
/-!
# The Linux factory with its drivers
-/
namespace Dparm
open Spec

theorem _root_.Dparm.OutT.Chunks.split {Q R Q' R' : Type} {f : Q → OutT Q' R' R} {env : Prog.Env Q' R'} {T₂ : Prog.Trace Q R} :
    ∀ {T₁ : Prog.Trace Q R} {t : Prog.Trace Q' R'}, OutT.Chunks f env (T₁ ++ T₂) t →
    ∃ t₁ t₂, t = t₁ ++ t₂ ∧ OutT.Chunks f env T₁ t₁ ∧ OutT.Chunks f env T₂ t₂ := by
  intro T₁
  induction T₁ with
  | nil => intro t h; exact ⟨[], t, rfl, .nil, h⟩
  | cons x T₁ ih =>
    intro t h
    cases h with
    | cons hc ht =>
      obtain ⟨t₁, t₂, rfl, h₁, h₂⟩ := ih ht
      exact ⟨_, t₂, by rw [List.append_assoc], .cons hc h₁, h₂⟩

/-- SG ioctls as system calls. -/
inductive SgWire (fd : Nat) : Prog.Trace KReq SgRep → Prog.Trace LReq LRep → Prop
  | nil : SgWire fd [] []
  | io {q : SgReq} {rep : LRep} {T t} (h : SgWire fd T t) : SgWire fd ((.sgIo q, rep.sg) :: T) ((.sgIo fd q, rep) :: t)
  | close {rep : LRep} {T t} (h : SgWire fd T t) : SgWire fd ((.close, {}) :: T) ((.os (.closeFd fd), rep) :: t)

/-- NVMe ioctls as system calls. -/
inductive NvWire (fd : Nat) : Prog.Trace NvReq NvRep → Prog.Trace LReq LRep → Prop
  | nil : NvWire fd [] []
  | cmd {op rec buf} {rep : LRep} {T t} (h : NvWire fd T t) :
      NvWire fd ((.cmd op rec buf, rep.nv) :: T) ((.nvme fd op rec buf, rep) :: t)
  | io {op rec} {rep : LRep} {T t} (h : NvWire fd T t) :
      NvWire fd ((.io op rec, rep.nv) :: T) ((.nvmeIo fd op rec, rep) :: t)
  | close {rep : LRep} {T t} (h : NvWire fd T t) : NvWire fd ((.close, {}) :: T) ((.os (.closeFd fd), rep) :: t)

theorem sgSys_total (fd : Nat) (q : KReq) : OutT.Total (fun _ => True) (sgSys fd q) := by
  cases q <;> exact OutT.total_ask_bind (fun _ => OutT.total_ret trivial)

theorem nvSys_total (fd : Nat) (q : NvReq) : OutT.Total (fun _ => True) (nvSys fd q) := by
  cases q <;> exact OutT.total_ask_bind (fun _ => OutT.total_ret trivial)

theorem sgWire_of_chunks {fd : Nat} {env : Prog.Env LReq LRep} {T : Prog.Trace KReq SgRep} {t : Prog.Trace LReq LRep}
    (h : OutT.Chunks (sgSys fd) env T t) : SgWire fd T t := by
  induction h with
  | nil => exact .nil
  | @cons q r h c T t hc ht ih =>
    cases q with
    | sgIo q =>
      unfold sgSys at hc
      rw [OutT.run_ask_bind] at hc
      simp only [OutT.run_ret, Prod.mk.injEq, Out.ret.injEq] at hc
      obtain ⟨rfl, rfl⟩ := hc
      exact .io ih
    | close =>
      unfold sgSys at hc
      rw [OutT.run_ask_bind] at hc
      simp only [OutT.run_ret, Prod.mk.injEq, Out.ret.injEq] at hc
      obtain ⟨rfl, rfl⟩ := hc
      exact .close ih

theorem nvWire_of_chunks {fd : Nat} {env : Prog.Env LReq LRep} {T : Prog.Trace NvReq NvRep} {t : Prog.Trace LReq LRep}
    (h : OutT.Chunks (nvSys fd) env T t) : NvWire fd T t := by
  induction h with
  | nil => exact .nil
  | @cons q r h c T t hc ht ih =>
    cases q with
    | cmd op rec buf =>
      unfold nvSys at hc
      rw [OutT.run_ask_bind] at hc
      simp only [OutT.run_ret, Prod.mk.injEq, Out.ret.injEq] at hc
      obtain ⟨rfl, rfl⟩ := hc
      exact .cmd ih
    | io op rec =>
      unfold nvSys at hc
      rw [OutT.run_ask_bind] at hc
      simp only [OutT.run_ret, Prod.mk.injEq, Out.ret.injEq] at hc
      obtain ⟨rfl, rfl⟩ := hc
      exact .io ih
    | close =>
      unfold nvSys at hc
      rw [OutT.run_ask_bind] at hc
      simp only [OutT.run_ret, Prod.mk.injEq, Out.ret.injEq] at hc
      obtain ⟨rfl, rfl⟩ := hc
      exact .close ih

/-- An SG program on the system is a run of the SG program. -/
theorem sgSys_run {α : Type} (fd : Nat) (p : SgM α) (env : Prog.Env LReq LRep) (h : Prog.Trace LReq LRep) :
    ∃ env' : Prog.Env KReq SgRep, (OutT.run env h (OutT.interp (sgSys fd) p)).1 = (OutT.run env' [] p).1 ∧
      SgWire fd (OutT.run env' [] p).2 (OutT.run env h (OutT.interp (sgSys fd) p)).2 := by
  obtain ⟨h1, h2⟩ := OutT.interp_chunks (A := fun _ => True) (B := fun _ _ => True) (sgSys fd) env {} h
    (fun q _ h => OutT.total_run (sgSys_total fd q) env h) (p := p) (OutT.within_of_asks (OutT.asks_true p))
  exact ⟨_, h1, sgWire_of_chunks h2⟩

/-- An NVMe program on the system is a run of the NVMe program. -/
theorem nvSys_run {α : Type} (fd : Nat) (p : NvM α) (env : Prog.Env LReq LRep) (h : Prog.Trace LReq LRep) :
    ∃ env' : Prog.Env NvReq NvRep, (OutT.run env h (OutT.interp (nvSys fd) p)).1 = (OutT.run env' [] p).1 ∧
      NvWire fd (OutT.run env' [] p).2 (OutT.run env h (OutT.interp (nvSys fd) p)).2 := by
  obtain ⟨h1, h2⟩ := OutT.interp_chunks (A := fun _ => True) (B := fun _ _ => True) (nvSys fd) env {} h
    (fun q _ h => OutT.total_run (nvSys_total fd q) env h) (p := p) (OutT.within_of_asks (OutT.asks_true p))
  exact ⟨_, h1, nvWire_of_chunks h2⟩

/-- Every SG ioctl on the system is one of the SG program. -/
theorem SgWire.mem {fd : Nat} {T : Prog.Trace KReq SgRep} {t : Prog.Trace LReq LRep} (h : SgWire fd T t) :
    ∀ x ∈ t, (∃ q, x.1 = .sgIo fd q ∧ (KReq.sgIo q, x.2.sg) ∈ T) ∨ (x.1 = .os (.closeFd fd) ∧ (KReq.close, {}) ∈ T) := by
  induction h with
  | nil => intro x hx; simp at hx
  | @io q rep T t h ih =>
    intro x hx
    rcases List.mem_cons.1 hx with rfl | hx
    · exact .inl ⟨q, rfl, by simp⟩
    · rcases ih x hx with ⟨q', h1, h2⟩ | ⟨h1, h2⟩
      · exact .inl ⟨q', h1, List.mem_cons_of_mem _ h2⟩
      · exact .inr ⟨h1, List.mem_cons_of_mem _ h2⟩
  | @close rep T t h ih =>
    intro x hx
    rcases List.mem_cons.1 hx with rfl | hx
    · exact .inr ⟨rfl, by simp⟩
    · rcases ih x hx with ⟨q', h1, h2⟩ | ⟨h1, h2⟩
      · exact .inl ⟨q', h1, List.mem_cons_of_mem _ h2⟩
      · exact .inr ⟨h1, List.mem_cons_of_mem _ h2⟩

/-- The requests of the factory that opening, enumerating and closing drives can make to the two drivers. -/
def DrvOk : Nat → DrvReq → Prop
  | 0, .sec rw dma p c data _ => rw = false ∧ dma = false ∧ p = 1#8 ∧ c = 1#16 ∧ data.length = 2048
  | 1, .sec rw dma p c data _ => rw = false ∧ dma = false ∧ p = 1#8 ∧ c = 1#16 ∧ data.length = 2048
  | 0, .nvmeAdmin c => ∃ buf, c = securityNvme false 1#8 1#16 buf ∧ buf.length = 2048
  | 1, .taskFile rw dma tf data _ => rw = false ∧ dma = false ∧ tf = securityTf false false 1#8 1#16 2048 ∧ data.length = 2048
  | i, .drivingType => i < 2
  | i, .driverName => i < 2
  | i, .close => i < 2
  | _, _ => False

def FOk : FReq → Prop
  | .tryDriver i _ => i < 2
  | .drv i _ q => DrvOk i q
  | .closeFd _ => False
  | _ => True

/-- What the drivers' answers always satisfy. -/
def FRepOk : FReq → FRep → Prop
  | .tryDriver i _, r => r.err = none → r.driver.ata = decide (i = 1) ∧ r.driver.nvme = decide (i = 0)
  | _, _ => True

/-- The handle's driver is the one with index `i`. -/
def DriverOf (i : Nat) (dh : Option Driver) : Prop := ∃ d, dh = some d ∧ i < 2 ∧ d.ata = decide (i = 1) ∧ d.nvme = decide (i = 0)

theorem sec_drvOk {i : Nat} (hi : i < 2) (data : Bytes) (t : Nat) (h : data.length = 2048) :
    DrvOk i (.sec false false 1#8 1#16 data t) := by
  match i, hi with
  | 0, _ => exact ⟨rfl, rfl, rfl, rfl, h⟩
  | 1, _ => exact ⟨rfl, rfl, rfl, rfl, h⟩

theorem plain_drvOk {i : Nat} (hi : i < 2) : DrvOk i .drivingType ∧ DrvOk i .driverName ∧ DrvOk i .close := by
  match i, hi with
  | 0, h => exact ⟨h, h, h⟩
  | 1, h => exact ⟨h, h, h⟩

theorem securityCommand_drvOk {i : Nat} (h : Handle) (hd : DriverOf i h.dh) (buf : Bytes) (t : Nat) (hb : buf.length = 2048) :
    OutT.Asks (DrvOk i) (h.securityCommand false false 0x01 0x0001 buf t) := by
  obtain ⟨d, h1, hi, ha, hn⟩ := hd
  unfold Handle.securityCommand
  rw [h1]
  dsimp only
  refine OutT.asks_bind (OutT.asks_ask (sec_drvOk hi buf t hb)) (fun r => ?_)
  have hb1 : (storeInto buf r.data).length = 2048 := by rw [storeInto_length, hb]
  split
  · exact OutT.asks_ret _
  · match i, hi with
    | 0, _ =>
      rw [ha, hn]
      exact OutT.asks_bind (OutT.asks_ask ⟨_, rfl, hb1⟩) (fun _ => OutT.asks_ret _)
    | 1, _ =>
      rw [ha]
      refine OutT.asks_bind (OutT.asks_ask ⟨rfl, rfl, ?_, hb1⟩) (fun _ => OutT.asks_ret _)
      rw [hb1]
      rfl

theorem tcgDiscovery0_drvOk {i : Nat} (h : Handle) (hd : DriverOf i h.dh) : OutT.Asks (DrvOk i) h.tcgDiscovery0 := by
  unfold Handle.tcgDiscovery0
  refine OutT.asks_bind (securityCommand_drvOk h hd _ _ (zeros_length _)) (fun r => ?_)
  split
  · exact OutT.asks_ret _
  · exact OutT.asks_bind (OutT.asks_lift _) (fun _ => OutT.asks_ret _)

theorem init_drvOk {i : Nat} (h : Handle) (hd : DriverOf i h.dh) : OutT.Asks (DrvOk i) h.init := by
  unfold Handle.init
  refine OutT.asks_bind (OutT.asks_lift _) (fun a => ?_)
  dsimp only
  split
  · exact OutT.asks_ret _
  · refine OutT.asks_bind (OutT.asks_lift _) (fun a => ?_)
    obtain ⟨i2, e2⟩ := a
    dsimp only
    split
    · exact OutT.asks_ret _
    · exact OutT.asks_bind (tcgDiscovery0_drvOk _ hd) (fun _ => OutT.asks_ret _)

theorem onDriver_fOk {α : Type} {i fd : Nat} {p : DrvM α} (hp : OutT.Asks (DrvOk i) p) :
    OutT.Asks FOk (onDriver i fd p) :=
  OutT.asks_mono (by rintro q ⟨d, hd, rfl⟩; exact hd) (onDriver_asks i fd hp)

theorem tryDrivers_within (fd n : Nat) : ∀ i o, i + n ≤ 2 → OutT.Within FOk FRepOk (tryDrivers fd n i o) := by
  induction n with
  | zero => intro i o _; exact OutT.within_ret _
  | succ n ih =>
    intro i o hi
    unfold tryDrivers
    refine OutT.within_ask_bind (show i < 2 by omega) (fun r hr => ?_)
    split
    · exact ih _ _ (by omega)
    · rename_i he
      dsimp only
      have hd : DriverOf i ({ o.handle with dh := some r.driver } : Handle).dh := ⟨_, rfl, by omega, hr he⟩
      refine OutT.within_bind' (OutT.within_of_asks (onDriver_fOk ?_)) (fun t => ?_)
      · exact OutT.asks_bind (OutT.asks_ask (plain_drvOk (show i < 2 by omega)).1) (fun _ => OutT.asks_ret _)
      refine OutT.within_bind' (OutT.within_of_asks (onDriver_fOk ?_)) (fun nm => ?_)
      · exact OutT.asks_bind (OutT.asks_ask (plain_drvOk (show i < 2 by omega)).2.1) (fun _ => OutT.asks_ret _)
      refine OutT.within_bind' (OutT.within_of_asks (onDriver_fOk (init_drvOk _ hd))) (fun x => ?_)
      exact ih _ _ (by omega)

theorem isProbe_fOk (q : FReq) (h : isProbe q) : FOk q := by
  cases q <;> first | trivial | exact absurd h id

theorem openByFd_within (order : List (Bytes × Bytes) → List (Bytes × Bytes)) (fd : Nat) (path : Bytes) :
    OutT.Within FOk FRepOk (openByFd 2 order fd path) := by
  unfold openByFd
  refine OutT.within_bind' (OutT.within_of_asks (OutT.asks_mono isProbe_fOk (readBasicInfo_asks fd path))) (fun b => ?_)
  refine OutT.within_bind' (OutT.within_of_asks (OutT.asks_mono isProbe_fOk (getIdInfo_asks order path))) (fun x => ?_)
  exact OutT.within_bind' (tryDrivers_within fd 2 0 _ (by omega)) (fun _ => OutT.within_ret _)

theorem openByPath_within (order : List (Bytes × Bytes) → List (Bytes × Bytes)) (path : Bytes) :
    OutT.Within FOk FRepOk (openByPath 2 order path) := by
  unfold openByPath
  refine OutT.within_ask_bind trivial (fun r _ => ?_)
  split
  · exact OutT.within_ret _
  · refine OutT.within_bind (openByFd_within order _ _) (openByFd_returns 2 order _ _) (fun x hx => ?_)
    obtain ⟨o, e⟩ := x
    dsimp only at hx ⊢
    subst hx
    exact OutT.within_ret _

/-- A handle made by the factory with two drivers. -/
def TwoDrivers (o : Opened) : Prop := ∀ i fd, o.source = some (i, fd) → i < 2

theorem tryDrivers_two (fd n : Nat) : ∀ i o, i + n ≤ 2 → TwoDrivers o → OutT.Returns TwoDrivers (tryDrivers fd n i o) := by
  induction n with
  | zero => intro i o _ h; exact OutT.returns_ret h
  | succ n ih =>
    intro i o hi ho
    unfold tryDrivers
    refine OutT.returns_bind (OutT.returns_any _) (fun r _ => ?_)
    split
    · exact ih _ _ (by omega) ho
    · dsimp only
      refine OutT.returns_bind (OutT.returns_any _) (fun t _ => ?_)
      refine OutT.returns_bind (OutT.returns_any _) (fun nm _ => ?_)
      refine OutT.returns_bind (OutT.returns_any _) (fun x _ => ?_)
      refine ih _ _ (by omega) ?_
      intro j f hj
      simp only [Option.some.injEq, Prod.mk.injEq] at hj
      omega

theorem openByPath_two (order : List (Bytes × Bytes) → List (Bytes × Bytes)) (path : Bytes) :
    OutT.Returns (fun r => ∀ o, r = Res.ok o → TwoDrivers o) (openByPath 2 order path) := by
  unfold openByPath
  refine OutT.returns_bind (OutT.returns_any _) (fun r _ => ?_)
  split
  · exact OutT.returns_ret (by intro o h; cases h)
  · refine OutT.returns_bind (B := fun x => TwoDrivers x.1) ?_ (fun x hx => ?_)
    · unfold openByFd
      refine OutT.returns_bind (OutT.returns_any _) (fun b _ => ?_)
      refine OutT.returns_bind (OutT.returns_any _) (fun x _ => ?_)
      obtain ⟨id, e⟩ := x
      refine OutT.returns_bind (tryDrivers_two _ 2 0 _ (by omega) ?_) (fun o ho => OutT.returns_ret ho)
      intro i fd h
      have := (basicOpened_fresh path b id).source
      rw [this] at h
      cases h
    · obtain ⟨o, e⟩ := x
      dsimp only
      split
      · exact OutT.returns_ret (by intro o' h; cases h; exact hx)
      · exact OutT.returns_bind (OutT.returns_any _) (fun _ _ => OutT.returns_ret (by intro o h; cases h))

theorem close_asks (o : Opened) (h : TwoDrivers o) : OutT.Asks FOk o.close := by
  have hc : ∀ i, i < 2 → OutT.Asks (DrvOk i) o.handle.close := by
    intro i hi
    unfold Handle.close
    split
    · exact OutT.asks_ret _
    · exact OutT.asks_bind (OutT.asks_ask (plain_drvOk hi).2.2) (fun _ => OutT.asks_ret _)
  unfold Opened.close
  split
  · rename_i i fd hs
    exact OutT.asks_bind (onDriver_fOk (hc i (h i fd hs))) (fun _ => OutT.asks_ret _)
  · exact OutT.asks_bind (onDriver_fOk (hc 0 (by omega))) (fun _ => OutT.asks_ret _)

theorem enumLoop_within (order : List (Bytes × Bytes) → List (Bytes × Bytes)) (names : List Bytes) :
    OutT.Within FOk FRepOk (enumLoop 2 order names) := by
  induction names with
  | nil => exact OutT.within_ret _
  | cons name rest ih =>
    unfold enumLoop
    split
    · exact ih
    · refine OutT.within_ask_bind trivial (fun s _ => ?_)
      split
      · split
        · exact ih
        · refine OutT.within_bind (openByPath_within order _) (openByPath_two order _) (fun x hx => ?_)
          split
          · exact OutT.within_panic
          · exact ih
          · rename_i o
            refine OutT.within_bind' (OutT.within_defer ih ?_) (fun _ => OutT.within_ret _)
            exact OutT.within_of_asks (OutT.asks_bind (close_asks o (hx o rfl)) (fun _ => OutT.asks_ret _))
      · exact ih

theorem enumDrives_within (order : List (Bytes × Bytes) → List (Bytes × Bytes)) :
    OutT.Within FOk FRepOk (enumDrives 2 order) := by
  unfold enumDrives
  refine OutT.within_ask_bind trivial (fun d _ => ?_)
  split
  · exact OutT.within_ret _
  · exact OutT.within_bind' (enumLoop_within order _) (fun _ => OutT.within_ret _)

/-- The descriptors a call closes. -/
def closesOf : FReq → List Nat
  | .drv _ fd .close => [fd]
  | .closeFd fd => [fd]
  | _ => []

/-- The opening a call makes. -/
def opensOf : FReq → FRep → List (Bytes × FRep)
  | .openDev p, r => [(p, r)]
  | _, _ => []

/-- The look at a node a call makes. -/
def statsOf : FReq → FRep → List (Bytes × FRep)
  | .stat p, r => [(p, r)]
  | _, _ => []

/-- What one call of the factory does to the system. -/
structure StepFacts (q : FReq) (r : FRep) (c : Prog.Trace LReq LRep) : Prop where
  repOk : FRepOk q r
  reads : ∀ x ∈ c, ReadsOnly x.1
  closed : fdsClosed c = closesOf q
  opened : fdsOpened c = opensOf q r ∧ nodesStated c = statsOf q r
  nvOther : (∀ fd, q ≠ .tryDriver 0 fd) → nvmeIdentifies c = []
  sgOther : (∀ fd, q ≠ .tryDriver 1 fd) → ataIdentifies c = []
  nv : ∀ fd, q = .tryDriver 0 fd → ∃ a, nvmeIdentifies c = [(fd, a)] ∧ (r.err = none ↔ NvmeAccepts a) ∧
    (r.err = none → r.driver = { ata := false, nvme := true, identity := delivered (zeros 4096) (a.data.take 4096) })
  sg : ∀ fd, q = .tryDriver 1 fd → ∃ a rest, ataIdentifies c = (a :: rest).map (fun x => (fd, x)) ∧
    (a.err = none → rest = []) ∧ (a.err ≠ none → rest.length = 1) ∧ (r.err = none ↔ SgAccepts (a :: rest)) ∧
    (r.err = none → r.driver = { ata := true, nvme := false, identity := delivered (zeros 512) a.data })
  kind : ∀ i fd, q = .drv i fd .drivingType → r.drv.num = if i = 0 then 2 else 1
  name : ∀ i fd, q = .drv i fd .driverName → r.drv.data = if i = 0 then ascii "LinuxNvmeDriver" else ascii "LinuxScsiDriver"

theorem sgWire_only {fd : Nat} {P : SgReq → Prop} {T : Prog.Trace KReq SgRep} {t : Prog.Trace LReq LRep}
    (h : SgWire fd T t) (hT : ∀ k r, (k, r) ∈ T → ∃ q, k = .sgIo q ∧ P q) : ∀ x ∈ t, ∃ q, x.1 = .sgIo fd q ∧ P q := by
  intro x hx
  rcases h.mem x hx with ⟨q, h1, h2⟩ | ⟨-, h2⟩
  · obtain ⟨q', h3, h4⟩ := hT _ _ h2
    cases h3
    exact ⟨q, h1, h4⟩
  · obtain ⟨q', h3, -⟩ := hT _ _ h2
    cases h3

theorem filterMap_none {α β : Type} {g : α → Option β} {l : List α} (h : ∀ x ∈ l, g x = none) : l.filterMap g = [] := by
  rw [List.filterMap_eq_nil_iff]
  exact h

theorem sgOnly_marks {fd : Nat} {t : Prog.Trace LReq LRep} (h : ∀ x ∈ t, ∃ q, x.1 = LReq.sgIo fd q) :
    fdsClosed t = [] ∧ (fdsOpened t = [] ∧ nodesStated t = []) ∧ nvmeIdentifies t = [] := by
  refine ⟨filterMap_none ?_, ⟨filterMap_none ?_, filterMap_none ?_⟩, filterMap_none ?_⟩ <;>
    (intro x hx; obtain ⟨q, hq⟩ := h x hx; rw [hq])

theorem place_marks (r : LRep) (t : Prog.Trace LReq LRep) :
    fdsClosed ((.place, r) :: t) = fdsClosed t ∧ (fdsOpened ((.place, r) :: t) = fdsOpened t ∧
    nodesStated ((.place, r) :: t) = nodesStated t) ∧
    nvmeIdentifies ((.place, r) :: t) = nvmeIdentifies t ∧ ataIdentifies ((.place, r) :: t) = ataIdentifies t :=
  ⟨rfl, ⟨rfl, rfl⟩, rfl, rfl⟩

/-- All ioctls are IDENTIFY DEVICE: the answers. -/
theorem sgWire_identifies {fd : Nat} {T : Prog.Trace KReq SgRep} {t : Prog.Trace LReq LRep} (h : SgWire fd T t)
    (hT : ∀ k r, (k, r) ∈ T → ∃ q, k = .sgIo q ∧ isAtaCommand q.cdb 0xec = true) :
    ataIdentifies t = (T.map (fun x => x.2)).map (fun x => (fd, x)) := by
  induction h with
  | nil => rfl
  | @io q rep T t h ih =>
    obtain ⟨q', h1, h2⟩ := hT _ _ (List.mem_cons_self ..)
    cases h1
    have := ih (fun k r hm => hT k r (List.mem_cons_of_mem _ hm))
    unfold ataIdentifies at this ⊢
    rw [List.filterMap_cons]
    simp only [h2, if_true, List.map_cons]
    rw [this]
  | @close rep T t h ih =>
    obtain ⟨q', h1, h2⟩ := hT _ _ (List.mem_cons_self ..)
    cases h1

theorem run_empty_asks {Q R α : Type} {p : OutT Q R α} (h : OutT.Asks (fun _ => False) p) (env : Prog.Env Q R)
    (hist : Prog.Trace Q R) : (OutT.run env hist p).2 = [] := by
  rw [List.eq_nil_iff_forall_not_mem]
  intro x hx
  exact OutT.asks_run h env hist x hx

/-- The ioctls of opening with the SG driver. -/
theorem sgOpen_reqs (base base' : Nat) (env : Prog.Env KReq SgRep) (hist : Prog.Trace KReq SgRep) (k : KReq) (r : SgRep)
    (hk : (k, r) ∈ (OutT.run env hist (sgOpen base base')).2) :
    ∃ q, k = .sgIo q ∧ q.dir = -3 ∧ satDecode q.cdb = some (satOf identifyTf true false false) := by
  have hne : zeros 512 ≠ [] := by intro h; have := congrArg List.length h; simp at this
  obtain ⟨-, -, -, hb⟩ := newAligned_fits base 512
  unfold sgOpen at hk
  dsimp only at hk
  rw [hb] at hk
  have hall : (k, r) ∈ (OutT.run env hist (sgTaskFile false false identifyTf (some (zeros 512))
      (newAlignedBuffer base 512 512).pointer base' 3)).2 := by
    rw [OutT.run_bind] at hk
    rcases hr : OutT.run env hist (sgTaskFile false false identifyTf (some (zeros 512))
      (newAlignedBuffer base 512 512).pointer base' 3) with ⟨o, t⟩
    rw [hr] at hk
    cases o with
    | panic => exact hk
    | running => exact hk
    | ret x =>
      simp only at hk
      rw [run_empty_asks ?_] at hk
      · simpa using hk
      · obtain ⟨e, tf, d⟩ := x
        dsimp only
        split
        · exact OutT.asks_ret _
        · exact OutT.asks_bind (OutT.asks_lift _) (fun _ => OutT.asks_ret _)
  obtain ⟨q, h1, h2, -, h3, -⟩ := (sg_cdb_faithful false false identifyTf (some (zeros 512))
    (newAlignedBuffer base 512 512).pointer base' 3 env hist).2 (by simpa using hne) k r hall
  exact ⟨q, h1, h3, h2⟩

/-- `OpenByFd` of the SG driver. -/
theorem try_sg_facts (fd : Nat) (env : Prog.Env LReq LRep) (h : Prog.Trace LReq LRep) :
    ∃ r c, OutT.run env h (trySg fd) = (.ret r, c) ∧ StepFacts (.tryDriver 1 fd) r c := by
  obtain ⟨p, hp⟩ : ∃ p, p = env h .place := ⟨_, rfl⟩
  obtain ⟨env', h1, h2⟩ := sgSys_run fd (sgOpen p.base p.base') env (h ++ [(.place, p)])
  obtain ⟨res, q, a, rest, hrun, hdec, -, hr1, hr2, hok, herr⟩ := sgOpen_spec p.base p.base' env' []
  have hall : ∀ k r, (k, r) ∈ (OutT.run env' [] (sgOpen p.base p.base')).2 →
      ∃ q, k = .sgIo q ∧ q.dir = -3 ∧ satDecode q.cdb = some (satOf identifyTf true false false) :=
    fun k r hk => sgOpen_reqs p.base p.base' env' [] k r hk
  have hid : ∀ k r, (k, r) ∈ (OutT.run env' [] (sgOpen p.base p.base')).2 →
      ∃ q, k = .sgIo q ∧ isAtaCommand q.cdb 0xec = true := by
    intro k r hk
    obtain ⟨q, h1, -, h3⟩ := hall k r hk
    refine ⟨q, h1, ?_⟩
    unfold isAtaCommand
    rw [h3]
    rfl
  obtain ⟨t, ht⟩ : ∃ t, t = (OutT.run env (h ++ [(.place, p)]) (OutT.interp (sgSys fd) (sgOpen p.base p.base'))).2 := ⟨_, rfl⟩
  rw [← ht] at h2
  have hfull : OutT.run env (h ++ [(.place, p)]) (OutT.interp (sgSys fd) (sgOpen p.base p.base')) = (.ret res, t) := by
    refine Prod.ext ?_ ht.symm
    rw [h1, hrun]
  have honly : ∀ x ∈ t, ∃ q, x.1 = LReq.sgIo fd q ∧ SgReadsOnly q := by
    refine sgWire_only h2 (fun k r hk => ?_)
    obtain ⟨q, g1, g2, g3⟩ := hall k r hk
    exact ⟨q, g1, g2, .inl ⟨_, g3, rfl, rfl, rfl⟩⟩
  obtain ⟨m1, m2, m3⟩ := sgOnly_marks (fun x hx => let ⟨q, hq, _⟩ := honly x hx; ⟨q, hq⟩)
  have hids : ataIdentifies t = (a :: rest.map (fun x => x.2)).map (fun x => (fd, x)) := by
    rw [sgWire_identifies h2 hid, hrun]
    rfl
  have hacc : (∃ k r', (k, r') ∈ (KReq.sgIo q, a) :: rest ∧ r'.err = none) ↔
      ∃ r ∈ a :: rest.map (fun x => x.2), r.err = none := by
    constructor
    · rintro ⟨k, r', hm, he⟩
      rcases List.mem_cons.1 hm with hm | hm
      · cases hm
        exact ⟨a, by simp, he⟩
      · exact ⟨r', List.mem_cons_of_mem _ (List.mem_map.2 ⟨_, hm, rfl⟩), he⟩
    · rintro ⟨r', hm, he⟩
      rcases List.mem_cons.1 hm with rfl | hm
      · exact ⟨_, _, List.mem_cons_self .., he⟩
      · obtain ⟨⟨k, r⟩, hx, rfl⟩ := List.mem_map.1 hm
        exact ⟨k, r, List.mem_cons_of_mem _ hx, he⟩
  have facts : ∀ r : FRep, FRepOk (.tryDriver 1 fd) r → (r.err = none ↔ SgAccepts (a :: rest.map (fun x => x.2))) →
      (r.err = none → r.driver = { ata := true, nvme := false, identity := delivered (zeros 512) a.data }) →
      StepFacts (.tryDriver 1 fd) r ((.place, p) :: t) := by
    intro r f1 f2 f3
    refine ⟨f1, ?_, ?_, ?_, ?_, ?_, ?_, ?_, ?_, ?_⟩
    · intro x hx
      rcases List.mem_cons.1 hx with rfl | hx
      · exact trivial
      · obtain ⟨q, hq, hr⟩ := honly x hx
        rw [hq]
        exact hr
    · rw [(place_marks p t).1, m1]
      rfl
    · rw [(place_marks p t).2.1.1, (place_marks p t).2.1.2, m2.1, m2.2]
      exact ⟨rfl, rfl⟩
    · intro _
      rw [(place_marks p t).2.2.1, m3]
    · intro hn
      exact absurd rfl (hn fd)
    · intro fd' hq
      cases hq
    · intro fd' hq
      cases hq
      refine ⟨a, rest.map (fun x => x.2), ?_, ?_, ?_, f2, f3⟩
      · rw [(place_marks p t).2.2.2, hids]
      · intro he
        rw [hr1 he]
        rfl
      · intro he
        rw [List.length_map]
        exact hr2 he
    · intro i fd' hq
      cases hq
    · intro i fd' hq
      cases hq
  unfold trySg
  rw [OutT.run_ask_bind, ← hp]
  rw [OutT.run_bind_ret env _ hfull]
  cases res with
  | panic =>
    exfalso
    by_cases hc : (∃ k r', (k, r') ∈ (KReq.sgIo q, a) :: rest ∧ r'.err = none) ∧ fixedKey (senseArea (zeros 32) a.sense) = 0
    · have := hok hc; cases this
    · obtain ⟨e, he⟩ := herr hc; cases he
  | ok id =>
    have hc : (∃ k r', (k, r') ∈ (KReq.sgIo q, a) :: rest ∧ r'.err = none) ∧ fixedKey (senseArea (zeros 32) a.sense) = 0 := by
      refine Classical.byContradiction (fun hn => ?_)
      obtain ⟨e, he⟩ := herr hn
      cases he
    have hidv := hok hc
    simp only [Res.ok.injEq] at hidv
    refine ⟨_, _, rfl, ?_⟩
    simp only [OutT.run_ret, List.append_nil]
    refine facts _ (fun _ => ⟨rfl, rfl⟩) ⟨fun _ => ⟨hacc.1 hc.1, hc.2⟩, fun _ => rfl⟩ (fun _ => ?_)
    rw [hidv]
  | err e =>
    have hc : ¬ ((∃ k r', (k, r') ∈ (KReq.sgIo q, a) :: rest ∧ r'.err = none) ∧
        fixedKey (senseArea (zeros 32) a.sense) = 0) := by
      intro hc
      have := hok hc
      cases this
    refine ⟨_, _, rfl, ?_⟩
    simp only [OutT.run_ret, List.append_nil]
    refine facts _ (fun h => by cases h) ⟨(fun h => by cases h), fun hs => ?_⟩ (fun h => by cases h)
    exact absurd ⟨hacc.2 hs.1, hs.2⟩ hc

/-- `OpenByFd` of the NVMe driver. -/
theorem try_nv_facts (fd : Nat) (env : Prog.Env LReq LRep) (h : Prog.Trace LReq LRep) :
    ∃ r c, OutT.run env h (tryNv fd) = (.ret r, c) ∧ StepFacts (.tryDriver 0 fd) r c := by
  obtain ⟨p, hp⟩ : ∃ p, p = env h .place := ⟨_, rfl⟩
  obtain ⟨env', h1, h2⟩ := nvSys_run fd (nvOpen (BitVec.ofNat 64 p.addr)) env (h ++ [(.place, p)])
  obtain ⟨k, a, -, hop, -, -, -, -, -, hrun⟩ := nvme_open (BitVec.ofNat 64 p.addr) env' []
  obtain ⟨t, ht⟩ : ∃ t, t = (OutT.run env (h ++ [(.place, p)])
    (OutT.interp (nvSys fd) (nvOpen (BitVec.ofNat 64 p.addr)))).2 := ⟨_, rfl⟩
  rw [← ht, hrun] at h2
  rw [hrun] at h1
  have hfull : OutT.run env (h ++ [(.place, p)]) (OutT.interp (nvSys fd) (nvOpen (BitVec.ofNat 64 p.addr))) =
      (.ret (if a.errno ≠ 0 then .err (.errno a.errno) else if a.ret ≠ 0 then .err (.errno a.ret)
          else .ok (delivered (zeros 4096) (a.data.take 4096))), t) := by
    exact Prod.ext h1 ht.symm
  generalize hz : zeros 4096 = z at *
  obtain ⟨rep, ha, htt⟩ : ∃ rep : LRep, a = rep.nv ∧ t = [(.nvme fd 0xC0484E41 k (some z), rep)] := by
    cases h2 with
    | cmd h =>
      cases h
      exact ⟨_, rfl, rfl⟩
  have facts : ∀ r : FRep, FRepOk (.tryDriver 0 fd) r → (r.err = none ↔ NvmeAccepts a) →
      (r.err = none → r.driver = { ata := false, nvme := true, identity := delivered z (a.data.take 4096) }) →
      StepFacts (.tryDriver 0 fd) r ((.place, p) :: t) := by
    intro r f1 f2 f3
    rw [htt]
    refine ⟨f1, ?_, rfl, ⟨rfl, rfl⟩, ?_, fun _ => rfl, ?_, ?_, ?_, ?_⟩
    · intro x hx
      simp only [List.mem_cons, List.not_mem_nil, or_false] at hx
      rcases hx with rfl | rfl
      · exact trivial
      · exact ⟨rfl, .inl hop⟩
    · intro hn
      exact absurd rfl (hn fd)
    · intro fd' hq
      cases hq
      refine ⟨a, ?_, f2, ?_⟩
      · rw [ha]
        unfold nvmeIdentifies
        simp [hop]
      · rw [hz]
        exact f3
    · intro fd' hq
      cases hq
    · intro i fd' hq
      cases hq
    · intro i fd' hq
      cases hq
  unfold tryNv
  rw [OutT.run_ask_bind, ← hp]
  rw [OutT.run_bind_ret env _ hfull]
  by_cases he : a.errno = 0
  · by_cases hr : a.ret = 0
    · rw [if_neg (fun h => h he), if_neg (fun h => h hr)]
      refine ⟨_, _, rfl, ?_⟩
      simp only [OutT.run_ret, List.append_nil]
      exact facts _ (fun _ => ⟨rfl, rfl⟩) ⟨fun _ => ⟨he, hr⟩, fun _ => rfl⟩ (fun _ => rfl)
    · rw [if_neg (fun h => h he), if_pos hr]
      refine ⟨_, _, rfl, ?_⟩
      simp only [OutT.run_ret, List.append_nil]
      exact facts _ (fun h => by cases h) ⟨(fun h => by cases h), fun hs => absurd hs.2 hr⟩ (fun h => by cases h)
  · rw [if_pos he]
    refine ⟨_, _, rfl, ?_⟩
    simp only [OutT.run_ret, List.append_nil]
    exact facts _ (fun h => by cases h) ⟨(fun h => by cases h), fun hs => absurd hs.1 he⟩ (fun h => by cases h)

theorem secIn_not_ata (cdb : Bytes) (h : cdb.take 4 = [0xa2, 1, 0, 1]) (x : Byte) : isAtaCommand cdb x = false := by
  have h0 : cdb.head? = some 0xa2#8 := by
    cases cdb with
    | nil => simp at h
    | cons a l =>
      simp only [List.take_succ_cons, List.cons.injEq] at h
      rw [h.1]
      rfl
  have hn : satDecode cdb = none := by
    unfold satDecode
    split
    · simp only [List.head?_cons, Option.some.injEq] at h0
      subst h0
      rfl
    · simp only [List.head?_cons, Option.some.injEq] at h0
      subst h0
      rfl
    · rfl
  unfold isAtaCommand
  rw [hn]

theorem facts_drvSg {fd : Nat} {d : DrvReq} (hd : d ≠ .close) (p : LRep) (t : Prog.Trace LReq LRep) (r : FRep)
    (honly : ∀ x ∈ t, ∃ q, x.1 = LReq.sgIo fd q ∧ SgReadsOnly q ∧ isAtaCommand q.cdb 0xec = false)
    (hk : d = .drivingType → r.drv.num = 1) (hn : d = .driverName → r.drv.data = ascii "LinuxScsiDriver") :
    StepFacts (.drv 1 fd d) r ((.place, p) :: t) := by
  obtain ⟨m1, m2, m3⟩ := sgOnly_marks (fun x hx => let ⟨q, hq, _⟩ := honly x hx; ⟨q, hq⟩)
  have m4 : ataIdentifies t = [] := by
    refine filterMap_none (fun x hx => ?_)
    obtain ⟨q, hq, -, hi⟩ := honly x hx
    rw [hq]
    simp only [hi]
    rfl
  refine ⟨trivial, ?_, ?_, ?_, ?_, ?_, ?_, ?_, ?_, ?_⟩
  · intro x hx
    rcases List.mem_cons.1 hx with rfl | hx
    · exact trivial
    · obtain ⟨q, hq, hr, -⟩ := honly x hx
      rw [hq]
      exact hr
  · rw [(place_marks p t).1, m1]
    cases d <;> first | rfl | exact absurd rfl hd
  · rw [(place_marks p t).2.1.1, (place_marks p t).2.1.2, m2.1, m2.2]
    exact ⟨rfl, rfl⟩
  · intro _
    rw [(place_marks p t).2.2.1, m3]
  · intro _
    rw [(place_marks p t).2.2.2, m4]
  · intro fd' hq
    cases hq
  · intro fd' hq
    cases hq
  · intro i fd' hq
    cases hq
    exact hk rfl
  · intro i fd' hq
    cases hq
    exact hn rfl

theorem facts_drvNv {fd : Nat} {d : DrvReq} (hd : d ≠ .close) (p : LRep) (t : Prog.Trace LReq LRep) (r : FRep)
    (honly : ∀ x ∈ t, ∃ op rec buf, x.1 = LReq.nvme fd op rec buf ∧ op = 0xC0484E41 ∧ NvmeReadsOnly rec ∧ rec.opcode ≠ 0x06)
    (hk : d = .drivingType → r.drv.num = 2) (hn : d = .driverName → r.drv.data = ascii "LinuxNvmeDriver") :
    StepFacts (.drv 0 fd d) r ((.place, p) :: t) := by
  have marks : fdsClosed t = [] ∧ (fdsOpened t = [] ∧ nodesStated t = []) ∧ nvmeIdentifies t = [] ∧ ataIdentifies t = [] := by
    refine ⟨filterMap_none ?_, ⟨filterMap_none ?_, filterMap_none ?_⟩, filterMap_none ?_, filterMap_none ?_⟩ <;>
      (intro x hx; obtain ⟨op, rec, buf, hq, -, -, hi⟩ := honly x hx; rw [hq]; try exact if_neg hi)
  obtain ⟨m1, m2, m3, m4⟩ := marks
  refine ⟨trivial, ?_, ?_, ?_, ?_, ?_, ?_, ?_, ?_, ?_⟩
  · intro x hx
    rcases List.mem_cons.1 hx with rfl | hx
    · exact trivial
    · obtain ⟨op, rec, buf, hq, ho, hr, -⟩ := honly x hx
      rw [hq]
      exact ⟨ho, hr⟩
  · rw [(place_marks p t).1, m1]
    cases d <;> first | rfl | exact absurd rfl hd
  · rw [(place_marks p t).2.1.1, (place_marks p t).2.1.2, m2.1, m2.2]
    exact ⟨rfl, rfl⟩
  · intro _
    rw [(place_marks p t).2.2.1, m3]
  · intro _
    rw [(place_marks p t).2.2.2, m4]
  · intro fd' hq
    cases hq
  · intro fd' hq
    cases hq
  · intro i fd' hq
    cases hq
    exact hk rfl
  · intro i fd' hq
    cases hq
    exact hn rfl

/-- A driver's `Close`. -/
theorem facts_close {i fd : Nat} (p rep : LRep) (r : FRep) :
    StepFacts (.drv i fd .close) r [(.place, p), (.os (.closeFd fd), rep)] := by
  refine ⟨trivial, ?_, rfl, ⟨rfl, rfl⟩, fun _ => rfl, fun _ => rfl, ?_, ?_, ?_, ?_⟩
  · intro x hx
    simp only [List.mem_cons, List.not_mem_nil, or_false] at hx
    rcases hx with rfl | rfl <;> exact trivial
  · intro fd' hq
    cases hq
  · intro fd' hq
    cases hq
  · intro i fd' hq
    cases hq
  · intro i fd' hq
    cases hq

theorem run_place_bind {α : Type} {β : Type} (env : Prog.Env LReq LRep) (h : Prog.Trace LReq LRep) (f : LRep → LM α)
    (g : α → β) (p : LRep) (hp : p = env h .place) (a : α) (t : Prog.Trace LReq LRep)
    (hr : OutT.run env (h ++ [(.place, p)]) (f p) = (.ret a, t)) :
    OutT.run env h (do
      let p ← OutT.ask .place
      let r ← f p
      OutT.ret (g r)) = (.ret (g a), (.place, p) :: t) := by
  rw [OutT.run_ask_bind, ← hp, OutT.run_bind_ret env _ hr]
  simp

theorem drvSg_facts (fd : Nat) (d : DrvReq) (hd : DrvOk 1 d) (env : Prog.Env LReq LRep) (h : Prog.Trace LReq LRep) :
    ∃ r c, OutT.run env h (drvSg fd d) = (.ret r, c) ∧ StepFacts (.drv 1 fd d) r c := by
  obtain ⟨p, hp⟩ : ∃ p, p = env h .place := ⟨_, rfl⟩
  obtain ⟨env', h1, h2⟩ := sgSys_run fd (sgDriver p.addr p.base p.behind d) env (h ++ [(.place, p)])
  obtain ⟨t, ht⟩ : ∃ t, t = (OutT.run env (h ++ [(.place, p)])
    (OutT.interp (sgSys fd) (sgDriver p.addr p.base p.behind d))).2 := ⟨_, rfl⟩
  rw [← ht] at h2
  have fin : ∀ rep, (OutT.run env' [] (sgDriver p.addr p.base p.behind d)).1 = .ret rep →
      OutT.run env h (drvSg fd d) = (.ret { drv := rep }, (.place, p) :: t) := by
    intro rep hr
    exact run_place_bind env h (fun p => OutT.interp (sgSys fd) (sgDriver p.addr p.base p.behind d))
      (fun r => ({ drv := r } : FRep)) p hp rep t (Prod.ext (by rw [h1, hr]) ht.symm)
  cases d with
  | taskNil rw dma tf to => exact absurd hd id
  | nvmeAdmin c => exact absurd hd id
  | logPage a b c e => exact absurd hd id
  | drivingType =>
    refine ⟨_, _, fin _ rfl, facts_drvSg (by simp) p t _ ?_ (fun _ => rfl) (fun h => by cases h)⟩
    exact sgWire_only h2 (fun k r hk => by cases hk)
  | driverName =>
    refine ⟨_, _, fin _ rfl, facts_drvSg (by simp) p t _ ?_ (fun h => by cases h) (fun _ => by decide +kernel)⟩
    exact sgWire_only h2 (fun k r hk => by cases hk)
  | close =>
    refine ⟨_, _, fin _ rfl, ?_⟩
    have : ∃ rep, t = [(.os (.closeFd fd), rep)] := by
      have h3 : SgWire fd [(KReq.close, env' [] .close)] t := h2
      generalize env' [] KReq.close = rr at h3
      cases h3 with
      | close h => cases h; exact ⟨_, rfl⟩
    obtain ⟨rep, rfl⟩ := this
    exact facts_close p rep _
  | sec rw dma pr c data to =>
    obtain ⟨rfl, rfl, rfl, rfl, hl⟩ := hd
    have hne : data ≠ [] := by intro h; rw [h] at hl; simp at hl
    obtain ⟨e, d', q, r, rest, a, hrun, -⟩ := sgSec_data false 1#8 1#16 data p.addr p.base to env' [] hne (by omega)
    have hfull : OutT.run env' [] (sgDriver p.addr p.base p.behind (.sec false false 1#8 1#16 data to)) =
        (.ret { err := e, data := d', behind := p.behind }, (.sgIo q, r) :: rest) := by
      unfold sgDriver
      dsimp only
      rw [OutT.run_bind_ret env' [] hrun]
      simp
    rw [hfull] at h2
    refine ⟨_, _, fin _ (by rw [hfull]), facts_drvSg (by simp) p t _ ?_ (fun h => by cases h) (fun h => by cases h)⟩
    refine sgWire_only h2 (fun k r' hk => ?_)
    obtain ⟨y, hy⟩ := sgSecurity_reqs false 1#8 1#16 data p.addr p.base to env' [] hne k r' (by rw [hrun]; exact hk)
    have h4 : (sgSecReq false 1#8 1#16 data to y).cdb.take 4 = [0xa2, 1, 0, 1] := rfl
    exact ⟨_, hy, ⟨rfl, .inr (.inr h4)⟩, secIn_not_ata _ h4 _⟩
  | taskFile rw dma tf data to =>
    obtain ⟨rfl, rfl, rfl, hl⟩ := hd
    have hne : data ≠ [] := by intro h; rw [h] at hl; simp at hl
    obtain ⟨tf, htf⟩ : ∃ tf, tf = securityTf false false 1#8 1#16 2048 := ⟨_, rfl⟩
    rw [← htf] at h1 h2 ht fin ⊢
    obtain ⟨e, tf', d', q, r, rest, a, m, hrun, -⟩ := sg_read_buffer false tf data p.addr p.base to env' [] hne (by omega)
    have hfull : OutT.run env' [] (sgDriver p.addr p.base p.behind (.taskFile false false tf data to)) =
        (.ret { err := e, data := d', behind := p.behind, tf := tf' }, (.sgIo q, r) :: rest) := by
      unfold sgDriver
      dsimp only
      rw [OutT.run_bind_ret env' [] hrun]
      simp
    rw [hfull] at h2
    refine ⟨_, _, fin _ (by rw [hfull]), facts_drvSg (by simp) p t _ ?_ (fun h => by cases h) (fun h => by cases h)⟩
    refine sgWire_only h2 (fun k r' hk => ?_)
    obtain ⟨q', hq', hdec, -, hdir, -⟩ := (sg_cdb_faithful false false tf (some data) p.addr p.base to env' []).2
      (by simpa using hne) k r' (by rw [hrun]; exact hk)
    rw [htf] at hdec
    refine ⟨q', hq', ⟨hdir, .inr (.inl ⟨_, hdec, rfl, rfl, rfl, rfl, rfl, rfl⟩)⟩, ?_⟩
    unfold isAtaCommand
    rw [hdec]
    rfl

theorem drvNv_facts (fd : Nat) (d : DrvReq) (hd : DrvOk 0 d) (env : Prog.Env LReq LRep) (h : Prog.Trace LReq LRep) :
    ∃ r c, OutT.run env h (drvNv fd d) = (.ret r, c) ∧ StepFacts (.drv 0 fd d) r c := by
  obtain ⟨p, hp⟩ : ∃ p, p = env h .place := ⟨_, rfl⟩
  obtain ⟨env', h1, h2⟩ := nvSys_run fd (nvDriver (BitVec.ofNat 64 p.addr) p.behind d) env (h ++ [(.place, p)])
  obtain ⟨t, ht⟩ : ∃ t, t = (OutT.run env (h ++ [(.place, p)])
    (OutT.interp (nvSys fd) (nvDriver (BitVec.ofNat 64 p.addr) p.behind d))).2 := ⟨_, rfl⟩
  rw [← ht] at h2
  have fin : ∀ rep, (OutT.run env' [] (nvDriver (BitVec.ofNat 64 p.addr) p.behind d)).1 = .ret rep →
      OutT.run env h (drvNv fd d) = (.ret { drv := rep }, (.place, p) :: t) := by
    intro rep hr
    exact run_place_bind env h (fun p => OutT.interp (nvSys fd) (nvDriver (BitVec.ofNat 64 p.addr) p.behind d))
      (fun r => ({ drv := r } : FRep)) p hp rep t (Prod.ext (by rw [h1, hr]) ht.symm)
  have hnil : ∀ t, NvWire fd [] t → t = [] := by intro t h; cases h; rfl
  cases d with
  | taskFile rw dma tf data to => exact absurd hd id
  | taskNil rw dma tf to => exact absurd hd id
  | logPage a b c e => exact absurd hd id
  | drivingType =>
    refine ⟨_, _, fin _ rfl, facts_drvNv (by simp) p t _ ?_ (fun _ => rfl) (fun h => by cases h)⟩
    rw [hnil t h2]
    intro x hx
    cases hx
  | driverName =>
    refine ⟨_, _, fin _ rfl, facts_drvNv (by simp) p t _ ?_ (fun h => by cases h) (fun _ => by decide +kernel)⟩
    rw [hnil t h2]
    intro x hx
    cases hx
  | sec rw dma pr c data to =>
    refine ⟨_, _, fin _ rfl, facts_drvNv (by simp) p t _ ?_ (fun h => by cases h) (fun h => by cases h)⟩
    rw [hnil t h2]
    intro x hx
    cases hx
  | close =>
    refine ⟨_, _, fin _ rfl, ?_⟩
    have : ∃ rep, t = [(.os (.closeFd fd), rep)] := by
      have h3 : NvWire fd [(NvReq.close, env' [] .close)] t := h2
      generalize env' [] NvReq.close = rr at h3
      cases h3 with
      | close h => cases h; exact ⟨_, rfl⟩
    obtain ⟨rep, rfl⟩ := this
    exact facts_close p rep _
  | nvmeAdmin c =>
    obtain ⟨buf, hc, hl⟩ := hd
    obtain ⟨k, r, -, hop, -, -, -, -, -, -, -, -, hc10, -, -, -, -, -, -, -, -, hrun⟩ :=
      admin_passthru_faithful (BitVec.ofNat 64 p.addr) c env' []
    have hfull := OutT.run_bind_ret (f := fun x : Option GoErr × Option Bytes =>
      (OutT.ret { err := x.1, data := x.2.getD [], behind := p.behind } : NvM DrvRep)) env' [] hrun
    have heq : nvDriver (BitVec.ofNat 64 p.addr) p.behind (.nvmeAdmin c) =
      (nvAdmin (BitVec.ofNat 64 p.addr) c >>= fun x : Option GoErr × Option Bytes =>
        (OutT.ret { err := x.1, data := x.2.getD [], behind := p.behind } : NvM DrvRep)) := rfl
    rw [heq, hfull] at h2
    simp only [OutT.run_ret, List.append_nil] at h2
    refine ⟨_, _, fin _ (by rw [heq, hfull]; rfl), facts_drvNv (by simp) p t _ ?_ (fun h => by cases h) (fun h => by cases h)⟩
    have : ∃ rep, t = [(.nvme fd 0xC0484E41 k c.dataBuffer, rep)] := by
      cases h2 with
      | cmd h => cases h; exact ⟨_, rfl⟩
    obtain ⟨rep, rfl⟩ := this
    intro x hx
    simp only [List.mem_cons, List.not_mem_nil, or_false] at hx
    subst hx
    have ho : k.opcode = 0x82 := by rw [hop, hc]; rfl
    refine ⟨_, _, _, rfl, rfl, .inr ⟨ho, ?_⟩, ?_⟩
    · rw [hc10, hc]
      rfl
    · rw [ho]
      decide

/-- What every call of the factory does to the system; none of them panics. -/
theorem step_facts (q : FReq) (hq : FOk q) (env : Prog.Env LReq LRep) (h : Prog.Trace LReq LRep) :
    ∃ r c, OutT.run env h (linuxStep q) = (.ret r, c) ∧ StepFacts q r c := by
  have os : ∀ q : FReq, (∀ i fd, q ≠ .tryDriver i fd) → (∀ i fd d, q ≠ .drv i fd d) →
      linuxStep q = (do
        let r ← OutT.ask (.os q)
        OutT.ret r.os) →
      ∃ r c, OutT.run env h (linuxStep q) = (.ret r, c) ∧ StepFacts q r c := by
    intro q n1 n2 hs
    rw [hs, OutT.run_ask_bind]
    refine ⟨_, _, rfl, ?_⟩
    refine ⟨?_, ?_, ?_, ?_, ?_, ?_, ?_, ?_, ?_, ?_⟩
    · cases q <;> first | exact trivial | exact absurd rfl (n1 _ _)
    · intro x hx
      simp only [OutT.run_ret, List.mem_cons, List.not_mem_nil, or_false] at hx
      subst hx
      exact trivial
    · cases q <;> first | rfl | exact absurd rfl (n2 _ _ _)
    · cases q <;> first | exact ⟨rfl, rfl⟩ | exact absurd rfl (n2 _ _ _)
    · intro _; rfl
    · intro _; rfl
    · intro fd hq; exact absurd hq (n1 _ _)
    · intro fd hq; exact absurd hq (n1 _ _)
    · intro i fd hq; exact absurd hq (n2 _ _ _)
    · intro i fd hq; exact absurd hq (n2 _ _ _)
  cases q with
  | tryDriver i fd =>
    match i, hq with
    | 0, _ => exact try_nv_facts fd env h
    | 1, _ => exact try_sg_facts fd env h
  | drv i fd d =>
    match i, hq with
    | 0, hq => exact drvNv_facts fd d hq env h
    | 1, hq => exact drvSg_facts fd d hq env h
    | n + 2, hq =>
      exfalso
      cases d <;> first | exact hq | (have : n + 2 < 2 := hq; omega)
  | openDev p => exact os _ (by simp) (by simp) rfl
  | diskfs p => exact os _ (by simp) (by simp) rfl
  | sectorSize p => exact os _ (by simp) (by simp) rfl
  | totalSize p => exact os _ (by simp) (by simp) rfl
  | geometry p => exact os _ (by simp) (by simp) rfl
  | readAt p n => exact os _ (by simp) (by simp) rfl
  | readDir p => exact os _ (by simp) (by simp) rfl
  | evalSymlinks p => exact os _ (by simp) (by simp) rfl
  | readFile p => exact os _ (by simp) (by simp) rfl
  | stat p => exact os _ (by simp) (by simp) rfl
  | closeFd p => exact os _ (by simp) (by simp) rfl

theorem linuxStep_returns (q : FReq) (hq : FOk q) (env : Prog.Env LReq LRep) (h : Prog.Trace LReq LRep) :
    ∃ r, (OutT.run env h (linuxStep q)).1 = .ret r ∧ FRepOk q r := by
  obtain ⟨r, c, h1, h2⟩ := step_facts q hq env h
  exact ⟨r, by rw [h1], h2.repOk⟩

/-- A factory program on the system: the outcome is that of the factory in some environment whose drivers behave like the
two real ones, and the system calls are those of its requests. -/
theorem onLinux_run {α : Type} {p : FM α} (hp : OutT.Within FOk FRepOk p) (env : Prog.Env LReq LRep) (h : Prog.Trace LReq LRep) :
    ∃ env' : Prog.Env FReq FRep, (OutT.run env h (onLinux p)).1 = (OutT.run env' [] p).1 ∧
      OutT.Chunks linuxStep env (OutT.run env' [] p).2 (OutT.run env h (onLinux p)).2 ∧
      ∀ x ∈ (OutT.run env' [] p).2, FOk x.1 ∧ FRepOk x.1 x.2 := by
  obtain ⟨h1, h2⟩ := OutT.interp_chunks linuxStep env {} h (fun q hq h => linuxStep_returns q hq env h) hp
  refine ⟨_, h1, h2, ?_⟩
  exact OutT.within_run _ _ hp (fun q hq H =>
    (OutT.upperEnv_ok linuxStep env {} h (fun q hq h => linuxStep_returns q hq env h) q hq H).2)

/-- A part of a factory program's run on the system is a run of that part on the system. -/
theorem onLinux_parts {α β : Type} {p : FM α} (hp : OutT.Within FOk FRepOk p) (env : Prog.Env LReq LRep)
    (h : Prog.Trace LReq LRep) :
    ∃ env' : Prog.Env FReq FRep, (OutT.run env h (onLinux p)).1 = (OutT.run env' [] p).1 ∧
      OutT.Chunks linuxStep env (OutT.run env' [] p).2 (OutT.run env h (onLinux p)).2 ∧
      (∀ x ∈ (OutT.run env' [] p).2, FOk x.1 ∧ FRepOk x.1 x.2) ∧
      ∀ (q : FM β), OutT.Within FOk FRepOk q → ∀ (T₁ C T₂ : Prog.Trace FReq FRep) (o : Out β),
        (OutT.run env' [] p).2 = T₁ ++ (C ++ T₂) → OutT.run env' T₁ q = (o, C) →
        ∃ t₁ c t₂, (OutT.run env h (onLinux p)).2 = t₁ ++ (c ++ t₂) ∧ OutT.run env (h ++ t₁) (onLinux q) = (o, c) := by
  obtain ⟨h1, h2⟩ := OutT.interp_chunks linuxStep env {} h (fun q hq h => linuxStep_returns q hq env h) hp
  refine ⟨_, h1, h2, ?_, ?_⟩
  · exact OutT.within_run _ _ hp (fun q hq H =>
      (OutT.upperEnv_ok linuxStep env {} h (fun q hq h => linuxStep_returns q hq env h) q hq H).2)
  · intro q hq T₁ C T₂ o hT hc
    exact OutT.interp_part linuxStep env {} h (fun q hq h => linuxStep_returns q hq env h) hp hq hT hc

/-- Every record of the enumeration is what opening the device gave. -/
theorem enumLoop_parts (n : Nat) (order : List (Bytes × Bytes) → List (Bytes × Bytes)) (env : Prog.Env FReq FRep)
    (names : List Bytes) : ∀ (hist t : Prog.Trace FReq FRep) (os : List Opened),
    OutT.run env hist (enumLoop n order names) = (.ret os, t) → ∀ o ∈ os, ∃ name ∈ names, ∃ T₁ C T₂, t = T₁ ++ (C ++ T₂) ∧
      OutT.run env (hist ++ T₁) (openByPath n order (ascii "/dev/" ++ name)) = (.ret (.ok o), C) := by
  induction names with
  | nil =>
    intro hist t os h o ho
    simp only [enumLoop, OutT.run_ret, Prod.mk.injEq, Out.ret.injEq] at h
    rw [← h.1] at ho
    cases ho
  | cons name rest ih =>
    intro hist t os h
    have skip : ∀ (T t' : Prog.Trace FReq FRep) (os' : List Opened), t = T ++ t' → 
        OutT.run env (hist ++ T) (enumLoop n order rest) = (.ret os', t') → ∀ o ∈ os', ∃ nm ∈ name :: rest, ∃ T₁ C T₂,
          t = T₁ ++ (C ++ T₂) ∧ OutT.run env (hist ++ T₁) (openByPath n order (ascii "/dev/" ++ nm)) = (.ret (.ok o), C) := by
      intro T t' os' ht hr o ho
      obtain ⟨nm, hn, T₁, C, T₂, h1, h2⟩ := ih _ _ _ hr o ho
      refine ⟨nm, List.mem_cons_of_mem _ hn, T ++ T₁, C, T₂, by rw [ht, h1, List.append_assoc], ?_⟩
      rw [← List.append_assoc]
      exact h2
    unfold enumLoop at h
    split at h
    · exact skip [] t os rfl (by rw [List.append_nil]; exact h)
    · rw [OutT.run_ask_bind] at h
      obtain ⟨s, hs⟩ : ∃ s, s = env hist (.stat (ascii "/dev/" ++ name)) := ⟨_, rfl⟩
      rw [← hs] at h
      obtain ⟨H, hH⟩ : ∃ H, H = hist ++ [(FReq.stat (ascii "/dev/" ++ name), s)] := ⟨_, rfl⟩
      rw [← hH] at h
      have plain : ((OutT.run env H (enumLoop n order rest)).1,
            (FReq.stat (ascii "/dev/" ++ name), s) :: (OutT.run env H (enumLoop n order rest)).2) = (Out.ret os, t) →
          ∀ o ∈ os, ∃ nm ∈ name :: rest, ∃ T₁ C T₂,
          t = T₁ ++ (C ++ T₂) ∧ OutT.run env (hist ++ T₁) (openByPath n order (ascii "/dev/" ++ nm)) = (.ret (.ok o), C) := by
        intro hh
        obtain ⟨h1, h2⟩ := Prod.mk.inj hh
        exact skip [(FReq.stat (ascii "/dev/" ++ name), s)] _ os h2.symm (by rw [← hH]; exact Prod.ext h1 rfl)
      split at h
      · split at h
        · exact plain h
        · rcases hP : OutT.run env H (openByPath n order (ascii "/dev/" ++ name)) with ⟨y, P⟩
          cases y with
          | running => rw [OutT.run_bind, hP] at h; cases h
          | panic => rw [OutT.run_bind, hP] at h; cases h
          | ret y =>
            rw [OutT.run_bind_ret env H hP] at h
            cases y with
            | panic => cases h
            | err e =>
              obtain ⟨h1, h2⟩ := Prod.mk.inj h
              refine skip ((FReq.stat (ascii "/dev/" ++ name), s) :: P) _ os h2.symm ?_
              rw [show hist ++ (FReq.stat (ascii "/dev/" ++ name), s) :: P = H ++ P by rw [hH]; simp]
              exact Prod.ext h1 rfl
            | ok o =>
              dsimp only at h
              rcases hR : OutT.run env (H ++ P) (enumLoop n order rest) with ⟨z, u⟩
              cases z with
              | running =>
                rw [OutT.run_bind, OutT.run_defer_running env (H ++ P) hR] at h
                cases h
              | panic =>
                exfalso
                rcases hc : OutT.run env (H ++ P ++ u) o.deferredClose with ⟨w, v⟩
                have hd : ∃ w' v', OutT.run env (H ++ P) (OutT.defer (enumLoop n order rest) o.deferredClose) = (w', v') ∧
                    ∀ a, w' ≠ .ret a := OutT.run_defer_of_panic env (H ++ P) hR
                obtain ⟨w', v', hd1, hd2⟩ := hd
                rw [OutT.run_bind, hd1] at h
                cases w' with
                | ret a => exact hd2 a rfl
                | panic => cases h
                | running => cases h
              | ret z =>
                have hd : ∃ w' v', OutT.run env (H ++ P) (OutT.defer (enumLoop n order rest) o.deferredClose) = (w', u ++ v') ∧
                    ∀ a, w' = .ret a → a = z := OutT.run_defer_of_ret env (H ++ P) hR
                obtain ⟨w', v', hd1, hd2⟩ := hd
                rw [OutT.run_bind, hd1] at h
                cases w' with
                | panic => cases h
                | running => cases h
                | ret a =>
                  obtain rfl := hd2 a rfl
                  simp only [OutT.run_ret, List.append_nil, Prod.mk.injEq, Out.ret.injEq] at h
                  obtain ⟨rfl, rfl⟩ := h
                  intro o' ho'
                  rcases List.mem_cons.1 ho' with rfl | ho'
                  · refine ⟨name, by simp, [(FReq.stat (ascii "/dev/" ++ name), s)], P, u ++ v', rfl, ?_⟩
                    rw [← hH]
                    exact hP
                  · obtain ⟨nm, hn, T₁, C, T₂, g1, g2⟩ := ih _ _ _ hR o' ho'
                    refine ⟨nm, List.mem_cons_of_mem _ hn, (FReq.stat (ascii "/dev/" ++ name), s) :: (P ++ T₁), C, T₂ ++ v',
                      by rw [g1]; simp, ?_⟩
                    rw [show hist ++ (FReq.stat (ascii "/dev/" ++ name), s) :: (P ++ T₁) = H ++ P ++ T₁ by rw [hH]; simp]
                    exact g2
      · exact plain h

end Dparm
