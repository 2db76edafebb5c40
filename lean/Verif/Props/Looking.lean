import Verif.Spec.Looking
import Verif.Props.Client
import Verif.Props.HandleSystem
/-!
# Clients that only look do not write (C155)
-/
namespace Dparm
open Spec

/-- Every system call of the program satisfies `A`, wherever it starts. -/
def Does {α : Type} (A : LReq → Prop) (p : LM α) : Prop :=
  ∀ env hist, ∀ x ∈ (OutT.run env hist p).2, A x.1

theorem does_asks {α : Type} {A : LReq → Prop} {p : LM α} (h : OutT.Asks A p) : Does A p :=
  fun env hist => OutT.asks_run h env hist

theorem does_mono {α : Type} {A B : LReq → Prop} (h : ∀ q, A q → B q) {p : LM α} (hp : Does A p) : Does B p :=
  fun env hist x hx => h _ (hp env hist x hx)

theorem does_within {α : Type} {p : FM α} (h : OutT.Within FOk FRepOk p) : Does ReadsOnly (onLinux p) := by
  intro env hist
  obtain ⟨env', -, h2, h3⟩ := onLinux_run h env hist
  exact (stepped_of_chunks h2 (fun x hx => (h3 x hx).1)).reads

theorem SysWire.mem {T : Prog.Trace LReq LRep} {t : Prog.Trace AReq ARep} (h : SysWire T t) :
    ∀ x ∈ t, ∃ y ∈ T, x.1 = .sys y.1 := by
  induction h with
  | nil => intro x hx; cases hx
  | @cons q a T t _ ih =>
    intro x hx
    rcases List.mem_cons.1 hx with rfl | hx
    · exact ⟨_, List.mem_cons_self .., rfl⟩
    · obtain ⟨y, hy, e⟩ := ih x hx
      exact ⟨y, List.mem_cons_of_mem _ hy, e⟩

/-- Every exchange is a system call satisfying `A`. -/
def OnlySys (A : LReq → Prop) (t : Prog.Trace AReq ARep) : Prop := ∀ x ∈ t, ∃ q, x.1 = .sys q ∧ A q

theorem does_sys {α β : Type} {A : LReq → Prop} {p : LM α} (hp : Does A p) (f : α → AM β)
    (hf : ∀ a env hist, OnlySys A (OutT.run env hist (f a)).2) (env : Prog.Env AReq ARep) (hist : Prog.Trace AReq ARep) :
    OnlySys A (OutT.run env hist (OutT.interp sysCall p >>= f)).2 := by
  have h1 : OnlySys A (OutT.run env hist (OutT.interp sysCall p)).2 := by
    obtain ⟨env', -, h⟩ := sysCall_run p env hist
    intro x hx
    obtain ⟨y, hy, e⟩ := h.mem x hx
    exact ⟨_, e, hp env' [] y hy⟩
  rw [OutT.run_bind]
  rcases hr : OutT.run env hist (OutT.interp sysCall p) with ⟨o, t⟩
  rw [hr] at h1
  cases o with
  | panic => exact h1
  | running => exact h1
  | ret a =>
    intro x hx
    rcases List.mem_append.1 hx with hx | hx
    · exact h1 x hx
    · exact hf a env _ x hx

theorem onlySys_ret {β : Type} (A : LReq → Prop) (b : β) (env : Prog.Env AReq ARep) (hist : Prog.Trace AReq ARep) :
    OnlySys A (OutT.run env hist (OutT.ret b : AM β)).2 := by
  intro x hx; cases hx

/-! ## handles -/

/-- A handle as the Linux factory makes it, possibly closed since. -/
structure Made (o : Opened) : Prop where
  two : TwoDrivers o
  drv : o.handle.dh = none ∨ ∃ i fd, o.source = some (i, fd) ∧ DriverOf i o.handle.dh

theorem Made.set {o : Opened} (h : Made o) {h' : Handle} (hd : h'.dh = none ∨ h'.dh = o.handle.dh) :
    Made { o with handle := h' } := by
  refine ⟨h.two, ?_⟩
  rcases hd with hd | hd
  · exact .inl hd
  · rcases h.drv with h1 | ⟨i, fd, h1, h2⟩
    · exact .inl (hd.trans h1)
    · exact .inr ⟨i, fd, h1, by rw [hd]; exact h2⟩

theorem made_open {o : Opened} {fd : Nat} (h : NvmeDrive o fd ∨ ScsiDrive o fd ∨ NoDriver o) : Made o := by
  rcases h with ⟨h1, id, h2⟩ | ⟨h1, id, h2⟩ | ⟨h1, h2⟩
  · exact ⟨(fun i f hi => by rw [h1] at hi; cases hi; omega), .inr ⟨0, fd, h1, _, h2, by omega, rfl, rfl⟩⟩
  · exact ⟨(fun i f hi => by rw [h1] at hi; cases hi; omega), .inr ⟨1, fd, h1, _, h2, by omega, rfl, rfl⟩⟩
  · exact ⟨(fun i f hi => by rw [h1] at hi; cases hi), .inl h2⟩

/-- All handles the client holds are of this kind. -/
def AllMade (st : Held) : Prop := ∀ o ∈ st, Made o

theorem AllMade.add {st : Held} (h : AllMade st) {r : Res Opened} (hr : ∀ o, r = .ok o → Made o) : AllMade (st.add r).held := by
  cases r with
  | ok o =>
    intro x hx
    rcases List.mem_append.1 hx with hx | hx
    · exact h x hx
    · rw [List.mem_singleton.1 hx]; exact hr o rfl
  | err e => exact h
  | panic => exact h

theorem AllMade.set {st : Held} (h : AllMade st) {o : Opened} (i : Nat) (ho : Made o) : AllMade (st.set i o) := by
  intro x hx
  rcases List.mem_or_eq_of_mem_set hx with hx | rfl
  · exact h x hx
  · exact ho

theorem openByPath_made (order : List (Bytes × Bytes) → List (Bytes × Bytes)) (path : Bytes) (env : Prog.Env LReq LRep)
    (hist : Prog.Trace LReq LRep) (o : Opened)
    (h : (OutT.run env hist (onLinux (openByPath 2 order path))).1 = .ret (.ok o)) : Made o :=
  made_open (linux_open_kinds order path env hist o h)

/-! ## methods -/

theorem does_method {α : Type} {o : Opened} (h : Made o) {p : Handle → DrvM α} {A : LReq → Prop}
    (h0 : o.handle.dh = none → OutT.Asks (fun _ => False) (p o.handle))
    (h1 : ∀ i fd, DriverOf i o.handle.dh → Does A (onLinux (onDriver i fd (p o.handle)))) : Does A (o.method p) := by
  rcases h.drv with hd | ⟨i, fd, hs, hd⟩
  · have h2 : ∀ i fd, Does A (onLinux (onDriver i fd (p o.handle))) := fun i fd =>
      does_asks (OutT.asks_interp linuxStep _ (onDriver_asks i fd (h0 hd)) (fun q ⟨_, h, _⟩ => h.elim))
    unfold Opened.method Opened.onHandle
    split <;> exact h2 _ _
  · unfold Opened.method Opened.onHandle
    rw [hs]
    exact h1 i fd hd

theorem does_reads {α : Type} {i fd : Nat} {p : DrvM α} (hp : OutT.Asks (DrvOk i) p) :
    Does LooksOnly (onLinux (onDriver i fd p)) :=
  does_mono (fun _ h => .inl h) (does_within (OutT.within_of_asks (onDriver_fOk hp)))

theorem logPage_drv_asks (nsid logId : BitVec 32) (rae : Bool) (size : Nat) (n offset : Nat) :
    ∀ (buf : Bytes) (last : Option GoErr), size - offset ≤ n →
    OutT.Asks (fun q => ∃ c : NvmeCmd, q = DrvReq.nvmeAdmin c ∧ c.opcode = 0x02) (logPageLoop nsid logId rae size offset buf last) := by
  induction n generalizing offset with
  | zero =>
    intro buf last hn
    unfold logPageLoop
    rw [dif_pos (by omega)]
    exact OutT.asks_ret _
  | succ n ih =>
    intro buf last hn
    unfold logPageLoop
    split
    · exact OutT.asks_ret _
    · refine OutT.asks_bind (OutT.asks_ask ⟨_, rfl, rfl⟩) (fun r => ?_)
      dsimp only
      split
      · exact OutT.asks_ret _
      · exact ih _ _ _ (by omega)

theorem logPage_looks (fd : Nat) (nsid logId : BitVec 32) (rae : Bool) (size : Nat) :
    OutT.Asks LooksOnly (drvNv fd (.logPage nsid logId rae size)) := by
  unfold drvNv
  refine OutT.asks_bind (OutT.asks_ask (.inl trivial)) (fun p => OutT.asks_bind ?_ (fun _ => OutT.asks_ret _))
  refine OutT.asks_interp (A := fun q => ∃ rec buf, q = NvReq.cmd NVME_IOCTL_ADMIN_CMD rec buf ∧ rec.opcode = 0x02) _ _ ?_ ?_
  · unfold nvDriver nvmeLogPage
    dsimp only
    rw [if_neg (by omega)]
    refine OutT.asks_bind (OutT.asks_interp _ _ (logPage_drv_asks nsid logId rae _ size 0 _ _ (by omega)) ?_) (fun _ => OutT.asks_ret _)
    rintro q ⟨c, rfl, hc⟩
    refine OutT.asks_bind ?_ (fun _ => OutT.asks_ret _)
    exact OutT.asks_bind (OutT.asks_ask ⟨_, _, rfl, hc⟩) (fun _ => OutT.asks_ret _)
  · rintro q ⟨rec, buf, rfl, hr⟩
    refine OutT.asks_bind (OutT.asks_ask (.inr ⟨fd, rec, buf, ?_, hr⟩)) (fun _ => OutT.asks_ret _)
    rw [show NVME_IOCTL_ADMIN_CMD = 0xC0484E41 from by decide]

/-! ## outcomes -/

/-- Whatever the program returns satisfies `Q`. -/
def Ends {Q R α : Type} (A : α → Prop) (p : OutT Q R α) : Prop :=
  ∀ env hist a, (OutT.run env hist p).1 = .ret a → A a

theorem ends_ret {Q R α : Type} {A : α → Prop} {a : α} (h : A a) : Ends A (OutT.ret a : OutT Q R α) := by
  intro env hist b hb
  rw [OutT.run_ret] at hb
  cases hb
  exact h

theorem ends_bind {Q R α β : Type} {A : α → Prop} {B : β → Prop} {p : OutT Q R α} {f : α → OutT Q R β} (hp : Ends A p)
    (hf : ∀ a, A a → Ends B (f a)) : Ends B (p >>= f) := by
  intro env hist b hb
  rw [OutT.run_bind] at hb
  rcases hr : OutT.run env hist p with ⟨o, t⟩
  rw [hr] at hb
  cases o with
  | panic => cases hb
  | running => cases hb
  | ret a => exact hf a (hp env hist a (by rw [hr])) env _ b hb

theorem ends_sys {α : Type} {A : α → Prop} {p : LM α} (h : Ends A p) : Ends A (OutT.interp sysCall p) := by
  intro env hist a ha
  obtain ⟨env', h1, -⟩ := sysCall_run p env hist
  exact h env' [] a (by rw [← h1]; exact ha)

theorem ends_any {Q R α : Type} (p : OutT Q R α) : Ends (fun _ => True) p := fun _ _ _ _ => trivial

theorem ends_returns {Q R α : Type} {A : α → Prop} {p : OutT Q R α} (h : OutT.Returns A p) : Ends A p :=
  fun env hist a ha => OutT.returns_run h env hist a ha

/-- What the client holds is as made after the call. -/
theorem call_made (order : List (Bytes × Bytes) → List (Bytes × Bytes)) (ctx : Ctx) (c : LinuxCall) (st : Held)
    (h : AllMade st) : Ends (fun a : Reported => AllMade a.held) (c.prog order ctx st) := by
  have hopen : ∀ path, Ends (fun r : Res Opened => ∀ o, r = .ok o → Made o)
      (OutT.interp sysCall (onLinux (openByPath 2 order path))) := fun path =>
    ends_sys (fun env hist r hr o ho => by subst ho; exact openByPath_made order path env hist o hr)
  have hq : ∀ i {α : Type} (p : Handle → DrvM α), Ends (fun a : Reported => AllMade a.held) (st.query i p) := by
    intro i α p
    unfold Held.query Held.on
    split
    · exact ends_bind (ends_any _) (fun _ _ => ends_ret h)
    · exact ends_ret h
  cases c with
  | openPath path =>
    simp only [LinuxCall.prog]
    exact ends_bind (hopen path) (fun r hr => ends_ret (h.add hr))
  | enumDrives =>
    simp only [LinuxCall.prog]
    refine ends_bind (ends_any _) (fun r _ => ends_ret ?_)
    cases r <;> exact h
  | enumVolumes m =>
    simp only [LinuxCall.prog]
    exact ends_bind (ends_any _) (fun _ _ => ends_ret h)
  | openVolume vols path =>
    simp only [LinuxCall.prog]
    refine ends_bind (A := fun r => ∀ o, r = some (Res.ok o) → Made o) ?_ (fun r hr => ?_)
    · unfold openDriveByVolumePath
      dsimp only
      split
      · exact ends_ret (fun o h => by cases h)
      · split
        · rw [show onLinux (openByPath 2 order (trimSuffix path 0x2f#8) >>= fun o => OutT.ret (some o)) =
              (onLinux (openByPath 2 order (trimSuffix path 0x2f#8)) >>= fun o => OutT.ret (some o)) from OutT.interp_bind ..,
            OutT.interp_bind]
          refine ends_bind (hopen _) (fun r hr => ends_ret ?_)
          intro o ho
          cases ho
          exact hr o rfl
        · exact ends_ret (fun o h => by cases h)
    · cases r with
      | none => exact ends_ret h
      | some r => exact ends_ret (h.add (fun o ho => hr o (by rw [ho])))
  | openPartition p =>
    simp only [LinuxCall.prog]
    exact ends_bind (hopen _) (fun r hr => ends_ret (h.add hr))
  | close i =>
    simp only [LinuxCall.prog]
    unfold Held.on
    split
    · rename_i o ho
      refine ends_bind (A := Made) ?_ (fun o' ho' => ends_ret (h.set i ho'))
      have hm := h o (List.mem_of_getElem? ho)
      have hc : OutT.Returns (fun h' : Handle => h'.dh = none) o.handle.close := by
        unfold Handle.close
        split
        · rename_i hd
          exact OutT.returns_ret hd
        · exact OutT.returns_bind (OutT.returns_any _) (fun _ _ => OutT.returns_ret rfl)
      refine ends_sys (ends_returns (OutT.returns_interp _ _ ?_))
      show OutT.Returns Made o.close
      unfold Opened.close
      split <;>
        exact OutT.returns_bind (onDriver_returns _ _ hc) (fun h' hh => OutT.returns_ret (hm.set (.inl hh)))
    · exact ends_ret h
  | discover i =>
    simp only [LinuxCall.prog]
    unfold Held.on
    split
    · rename_i o ho
      refine ends_bind (A := fun x => x.1.dh = o.handle.dh) ?_ (fun x hx => ends_ret (h.set i ((h o (List.mem_of_getElem? ho)).set (.inr hx))))
      refine ends_sys (ends_returns (OutT.returns_interp _ _ ?_))
      show OutT.Returns (fun x => x.1.dh = o.handle.dh) (o.onHandle o.handle.tcgDiscovery0)
      unfold Opened.onHandle
      split <;> exact onDriver_returns _ _ (discovery_returns _)
    · exact ends_ret h
  | drivingType i => exact hq i _
  | driverName i => exact hq i _
  | ata i rw dma tf data secs =>
    cases data <;> exact hq i _
  | logPage i nsid logId rae size => exact hq i _
  | security i rw dma p c b s => exact hq i _
  | revert i d pw psid adm =>
    simp only [LinuxCall.prog]
    unfold Held.on
    split
    · exact ends_bind (ends_any _) (fun _ _ => ends_ret h)
    · exact ends_ret h
  | tcg i d c =>
    simp only [LinuxCall.prog]
    unfold Held.on
    split
    · exact ends_bind (ends_any _) (fun _ _ => ends_ret h)
    · exact ends_ret h
  | defaultPassword i d =>
    simp only [LinuxCall.prog]
    unfold Held.on
    split
    · exact ends_bind (ends_any _) (fun _ _ => ends_ret h)
    · exact ends_ret h

/-- A call that looks only looks. -/
theorem call_looks (order : List (Bytes × Bytes) → List (Bytes × Bytes)) (ctx : Ctx) (c : LinuxCall) (st : Held)
    (h : AllMade st) (hl : looks c = true) (env : Prog.Env AReq ARep) (hist : Prog.Trace AReq ARep) :
    OnlySys LooksOnly (OutT.run env hist (c.prog order ctx st)).2 := by
  have hopen : ∀ path, Does LooksOnly (onLinux (openByPath 2 order path)) := fun path =>
    does_mono (fun _ h => .inl h) (does_within (openByPath_within order path))
  have hq : ∀ i {α : Type} (p : Handle → DrvM α), (∀ h : Handle, h.dh = none → OutT.Asks (fun _ => False) (p h)) →
      (∀ (h : Handle) i fd, DriverOf i h.dh → Does LooksOnly (onLinux (onDriver i fd (p h)))) →
      OnlySys LooksOnly (OutT.run env hist (st.query i p)).2 := by
    intro i α p h0 h1
    unfold Held.query Held.on
    split
    · rename_i o ho
      exact does_sys (does_method (h o (List.mem_of_getElem? ho)) (h0 _) (fun i fd => h1 _ i fd)) _
        (fun _ _ _ => onlySys_ret _ _ _ _) env hist
    · exact onlySys_ret _ _ _ _
  cases c with
  | openPath path =>
    simp only [LinuxCall.prog]
    exact does_sys (hopen path) _ (fun _ _ _ => onlySys_ret _ _ _ _) env hist
  | enumDrives =>
    simp only [LinuxCall.prog]
    exact does_sys (does_mono (fun _ h => .inl h) (does_within (enumDrives_within order))) _
      (fun _ _ _ => onlySys_ret _ _ _ _) env hist
  | enumVolumes m =>
    simp only [LinuxCall.prog]
    refine does_sys (does_mono (fun _ h => .inl h) (does_within (OutT.within_of_asks (OutT.asks_mono ?_ (enumVolumes_asks m))))) _
      (fun _ _ _ => onlySys_ret _ _ _ _) env hist
    intro q hq
    cases q <;> first | trivial | exact absurd hq id
  | openVolume vols path =>
    simp only [LinuxCall.prog]
    refine does_sys ?_ _ (fun r _ _ => ?_) env hist
    · unfold openDriveByVolumePath
      dsimp only
      split
      · exact does_asks (OutT.asks_ret _)
      · split
        · exact does_mono (fun _ h => .inl h) (does_within (OutT.within_bind' (openByPath_within ..) (fun _ => OutT.within_ret _)))
        · exact does_asks (OutT.asks_ret _)
    · cases r <;> exact onlySys_ret _ _ _ _
  | openPartition p =>
    simp only [LinuxCall.prog]
    exact does_sys (hopen _) _ (fun _ _ _ => onlySys_ret _ _ _ _) env hist
  | close i =>
    simp only [LinuxCall.prog]
    unfold Held.on
    split
    · rename_i o ho
      exact does_sys (does_mono (fun _ h => .inl h) (does_within (OutT.within_of_asks (close_asks o (h o (List.mem_of_getElem? ho)).two)))) _
        (fun _ _ _ => onlySys_ret _ _ _ _) env hist
    · exact onlySys_ret _ _ _ _
  | discover i =>
    simp only [LinuxCall.prog]
    unfold Held.on
    split
    · rename_i o ho
      refine does_sys (does_method (h o (List.mem_of_getElem? ho)) (gentle_discovery _).2 (fun i fd hd => ?_)) _
        (fun _ _ _ => onlySys_ret _ _ _ _) env hist
      exact does_reads (tcgDiscovery0_drvOk _ hd)
    · exact onlySys_ret _ _ _ _
  | drivingType i =>
    refine hq i _ (fun h => (gentle_drivingType h).2) (fun h i fd hd => does_reads ?_)
    obtain ⟨d, hd, hi, -⟩ := hd
    unfold Handle.getDrivingType
    rw [hd]
    exact OutT.asks_bind (OutT.asks_ask (plain_drvOk hi).1) (fun _ => OutT.asks_ret _)
  | driverName i =>
    refine hq i _ (fun h => (gentle_driverName h).2) (fun h i fd hd => does_reads ?_)
    obtain ⟨d, hd, hi, -⟩ := hd
    unfold Handle.getDriverName
    rw [hd]
    exact OutT.asks_bind (OutT.asks_ask (plain_drvOk hi).2.1) (fun _ => OutT.asks_ret _)
  | logPage i nsid logId rae size =>
    refine hq i _ (fun h => (gentle_logPage h nsid logId rae size).2) (fun h i fd hd => ?_)
    obtain ⟨d, hd, hi, ha, hn⟩ := hd
    unfold Handle.nvmeGetLogPage
    rw [hd]
    dsimp only
    rw [hn]
    match i, hi with
    | 0, _ =>
      rw [if_pos (by rfl), onLinux_drvNv]
      exact does_asks (OutT.asks_bind (logPage_looks ..) (fun _ => OutT.asks_ret _))
    | 1, _ => exact does_asks (OutT.asks_ret _)
  | ata => cases hl
  | security => cases hl
  | revert => cases hl
  | defaultPassword => cases hl
  | tcg => cases hl

/-- The calls of a history, one by one. -/
theorem steps_look (order : List (Bytes × Bytes) → List (Bytes × Bytes)) (ctx : Ctx) (env : Prog.Env AReq ARep)
    (calls : List LinuxCall) : ∀ (st : Held) (hist : Prog.Trace AReq ARep), AllMade st →
    ∀ x ∈ calls.zip (clientSteps order ctx env calls st hist), looks x.1 = true → OnlySys LooksOnly x.2 := by
  induction calls with
  | nil => intro st hist _ x hx; cases hx
  | cons c cs ih =>
    intro st hist h x hx hl
    unfold clientSteps at hx
    rw [List.zip_cons_cons] at hx
    rcases List.mem_cons.1 hx with rfl | hx
    · exact call_looks order ctx c st h hl env hist
    · refine ih _ _ ?_ x hx hl
      have hm := call_made order ctx c st h env hist
      generalize (OutT.run env hist (c.prog order ctx st)).1 = o at hm
      cases o with
      | ret a => exact hm a rfl
      | panic => exact h
      | running => exact h

/-! ## The property -/

/-- **C155.** In whatever history: a call that passes no command of the caller to a drive makes system calls only, and each
of them reads — `Identify`, IDENTIFY DEVICE, the level 0 discovery data, a log page — or does not reach a drive at all. -/
theorem looking_reads_only (order : List (Bytes × Bytes) → List (Bytes × Bytes)) (ctx : Ctx) (env : Prog.Env AReq ARep)
    (calls : List LinuxCall) :
    ∀ x ∈ calls.zip (clientSteps order ctx env calls [] []), looks x.1 = true →
      ∀ y ∈ x.2, ∃ q, y.1 = AReq.sys q ∧ LooksOnly q :=
  fun x hx hl => steps_look order ctx env calls [] [] (fun o ho => by cases ho) x hx hl

/-- **C155.** So a client that makes no other calls writes to no drive. -/
theorem looking_client_reads_only (order : List (Bytes × Bytes) → List (Bytes × Bytes)) (ctx : Ctx) (env : Prog.Env AReq ARep)
    (calls : List LinuxCall) (hl : ∀ c ∈ calls, looks c = true) :
    ∀ y ∈ (clientRun order ctx env calls [] []).trace, ∃ q, y.1 = AReq.sys q ∧ LooksOnly q := by
  intro y hy
  rw [← clientSteps_flatten, List.mem_flatten] at hy
  obtain ⟨t, ht, hy⟩ := hy
  obtain ⟨n, hn⟩ := List.getElem?_of_mem ht
  have hlen : ∀ (cs : List LinuxCall) st h, (clientSteps order ctx env cs st h).length = cs.length := by
    intro cs
    induction cs with
    | nil => intro st h; rfl
    | cons c cs ih => intro st h; unfold clientSteps; simp [ih]
  have hn' : n < calls.length := by
    have := (List.getElem?_eq_some_iff.1 hn).1
    rw [hlen] at this
    exact this
  refine looking_reads_only order ctx env calls (calls[n], t) ?_ (hl _ (List.getElem_mem _)) y hy
  refine List.mem_of_getElem? (i := n) ?_
  rw [List.getElem?_zip_eq_some]
  exact ⟨List.getElem?_eq_getElem hn', hn⟩

/-- Listing, opening, a log page (an error on this drive), discovering again, asking for the driver's type, closing. -/
def lookingCalls : List LinuxCall :=
  [.enumDrives, .openPath (ascii "/dev/sda"), .logPage 0 1 2 false 512, .discover 0, .drivingType 0, .close 0]

/-- The sample system of C140 with its one drive: fourteen SG_IO ioctls. -/
example : (∀ c ∈ lookingCalls, looks c = true) ∧
    ((clientRun id sampleCtx sampleClient lookingCalls [] []).trace.filter
      (fun x => match x.1 with | .sys (.sgIo ..) => true | _ => false)).length = 14 := by
  refine ⟨by decide, ?_⟩
  decide +kernel

/-- What a call that looks must not do: SECURITY PROTOCOL OUT through the SCSI generic driver, an NVMe Format (0x80) or
Security Send (0x81), an NVMe I/O command. -/
example (fd : Nat) (q : SgReq) (hq : q.dir = -2) (rec : KNvme) (op : BitVec 64) (buf : Option Bytes)
    (hr : rec.opcode = 0x80 ∨ rec.opcode = 0x81) (io : UserIo) :
    ¬ LooksOnly (.sgIo fd q) ∧ ¬ LooksOnly (.nvme fd op rec buf) ∧ ¬ LooksOnly (.nvmeIo fd op io) := by
  refine ⟨?_, ?_, ?_⟩
  · rintro (⟨h, -⟩ | ⟨fd, rec, buf, h, -⟩)
    · rw [hq] at h; exact absurd h (by decide)
    · cases h
  · rintro (⟨-, h⟩ | ⟨fd, rec, buf, h, h2⟩)
    · rcases hr with hr | hr <;> rcases h with h | ⟨h, -⟩ <;> (rw [hr] at h; exact absurd h (by decide))
    · cases h
      rcases hr with hr | hr <;> (rw [hr] at h2; exact absurd h2 (by decide))
  · rintro (h | ⟨fd, rec, buf, h, -⟩)
    · exact h
    · cases h

end Dparm
