import Verif.Spec.Crash
import Verif.Props.Looking
import Verif.Props.Identity
import Verif.Props.Volume
import Verif.Lemmas.TperOpen
/-!
# When a program can end in a panic
-/
namespace Dparm
open Spec

/-- Two layers at once. -/
theorem OutT.interp_interp {Q R Q' R' Q'' R'' α : Type} (f : Q → OutT Q' R' R) (g : Q' → OutT Q'' R'' R')
    (p : OutT Q R α) : OutT.interp g (OutT.interp f p) = OutT.interp (fun q => OutT.interp g (f q)) p := by
  have : ∀ p : Prog Q R (Out α), OutT.interp g (OutT.interp f p : OutT Q' R' α) = OutT.interp (fun q => OutT.interp g (f q)) p := by
    intro p
    induction p with
    | done o => rfl
    | ask q k ih =>
      show OutT.interp g (f q >>= fun r => OutT.interp f (k r) : OutT Q' R' α) = ((OutT.interp g (f q) : OutT Q'' R'' R) >>= fun r => _)
      rw [OutT.interp_bind]
      congr 1
      funext r
      exact ih r
  exact this p

/-- The program returns something that satisfies `A`, or panics with exchanges that satisfy `C`. -/
def Sane {Q R α : Type} (A : α → Prop) (C : Prog.Trace Q R → Prop) (p : OutT Q R α) : Prop :=
  ∀ env h, (∃ a, (OutT.run env h p).1 = .ret a ∧ A a) ∨ ((OutT.run env h p).1 = .panic ∧ C (OutT.run env h p).2)

/-- Something may have happened before. -/
def Later {Q R : Type} (C : Prog.Trace Q R → Prop) : Prop := ∀ s t, C t → C (s ++ t)

section
variable {Q R α β : Type} {A : α → Prop} {B : β → Prop} {C : Prog.Trace Q R → Prop}

theorem sane_ret {a : α} (h : A a) : Sane A C (OutT.ret a : OutT Q R α) := fun env hist => .inl ⟨a, by rw [OutT.run_ret], h⟩

theorem sane_bind (hC : Later C) {p : OutT Q R α} {f : α → OutT Q R β} (hp : Sane A C p) (hf : ∀ a, A a → Sane B C (f a)) :
    Sane B C (p >>= f) := by
  intro env h
  rw [OutT.run_bind]
  rcases hr : OutT.run env h p with ⟨o, t⟩
  have := hp env h
  rw [hr] at this
  rcases this with ⟨a, ha, hA⟩ | ⟨ha, hc⟩
  · dsimp only at ha
    subst ha
    dsimp only
    rcases hf a hA env (h ++ t) with ⟨b, hb, hB⟩ | ⟨hb, hc⟩
    · exact .inl ⟨b, hb, hB⟩
    · exact .inr ⟨hb, hC _ _ hc⟩
  · dsimp only at ha hc
    subst ha
    exact .inr ⟨rfl, hc⟩

theorem sane_mono {A' : α → Prop} {C' : Prog.Trace Q R → Prop} (hA : ∀ a, A a → A' a) (hC : ∀ t, C t → C' t) {p : OutT Q R α}
    (hp : Sane A C p) : Sane A' C' p := by
  intro env h
  rcases hp env h with ⟨a, h1, h2⟩ | ⟨h1, h2⟩
  · exact .inl ⟨a, h1, hA a h2⟩
  · exact .inr ⟨h1, hC _ h2⟩

theorem sane_total {p : OutT Q R α} (hp : OutT.Total A p) : Sane A C p :=
  fun env h => .inl (OutT.total_run hp env h)

theorem sane_returns {A' : α → Prop} {p : OutT Q R α} (hp : Sane A C p) (hr : OutT.Returns A' p) : Sane (fun a => A a ∧ A' a) C p := by
  intro env h
  rcases hp env h with ⟨a, h1, h2⟩ | h1
  · exact .inl ⟨a, h1, h2, OutT.returns_run hr env h a h1⟩
  · exact .inr h1

theorem sane_never {p : OutT Q R α} (hp : Sane A (fun _ => False) p) : Sane A C p := sane_mono (fun _ h => h) (fun _ h => h.elim) hp
end

/-! ## The factory on the system -/

/-- The exchanges for a request of the factory. -/
def stepA (q : FReq) : AM FRep := OutT.interp sysCall (linuxStep q)

/-- A program of the factory. -/
def sysOn {α : Type} (p : FM α) : AM α := OutT.interp stepA p

theorem sysOn_eq {α : Type} (p : FM α) : OutT.interp sysCall (onLinux p) = sysOn p := OutT.interp_interp linuxStep sysCall p

theorem sysOn_bind {α β : Type} (p : FM α) (f : α → FM β) : sysOn (p >>= f) = (sysOn p >>= fun a => sysOn (f a)) :=
  OutT.interp_bind _ _ _

theorem sysOn_ret {α : Type} (a : α) : sysOn (OutT.ret a) = OutT.ret a := rfl
theorem sysOn_ask {α : Type} (q : FReq) (k : FRep → FM α) : sysOn (OutT.ask q >>= k) = (stepA q >>= fun r => sysOn (k r)) := rfl

theorem stepA_sane (q : FReq) (hq : FOk q) (C : Prog.Trace AReq ARep → Prop) : Sane (FRepOk q) C (stepA q) := by
  intro env h
  obtain ⟨env', h1, -⟩ := sysCall_run (linuxStep q) env h
  obtain ⟨r, h2, h3⟩ := linuxStep_returns q hq env' []
  exact .inl ⟨r, h1.trans h2, h3⟩

/-- A program of the factory that always returns. -/
theorem sysOn_total {α : Type} {A : α → Prop} {p : FM α} (hp : OutT.Total A p) (hw : OutT.Within FOk FRepOk p)
    (C : Prog.Trace AReq ARep → Prop) : Sane A C (sysOn p) := by
  intro env h
  rw [← sysOn_eq]
  obtain ⟨env', h1, -⟩ := sysCall_run (onLinux p) env h
  obtain ⟨env'', h2, -⟩ := onLinux_run hw env' []
  obtain ⟨a, h3, h4⟩ := OutT.total_run hp env'' []
  exact .inl ⟨a, h1.trans (h2.trans h3), h4⟩

/-! ## Reading the discovery data -/

/-- A method of a driver. -/
def drvA {α : Type} (i fd : Nat) (p : DrvM α) : AM α := sysOn (onDriver i fd p)

theorem drvA_bind {α β : Type} (i fd : Nat) (p : DrvM α) (f : α → DrvM β) :
    drvA i fd (p >>= f) = (drvA i fd p >>= fun a => drvA i fd (f a)) := by
  unfold drvA onDriver
  rw [OutT.interp_bind]
  exact sysOn_bind _ _

theorem drvA_ret {α : Type} (i fd : Nat) (a : α) : drvA i fd (OutT.ret a) = OutT.ret a := rfl
theorem drvA_lift {α : Type} (i fd : Nat) (x : P α) : drvA i fd (OutT.lift x) = OutT.lift x := by cases x <;> rfl

theorem discovery_read {i fd : Nat} {h : Handle} (hd : DriverOf i h.dh) (env : Prog.Env AReq ARep) (hist : Prog.Trace AReq ARep) :
    ∃ rep u, OutT.run env hist (drvA i fd (h.securityCommand false false 0x01 0x0001 (zeros Handle.discoverySize) 3)) = (.ret rep, u) ∧
      DiscoveryRead fd u rep ∧ rep.data.length = 2048 := by
  obtain ⟨o, ho⟩ : ∃ o : Opened, o = { devicePath := [], removable := 0, vendorId := [], handle := h, source := some (i, fd) } :=
    ⟨_, rfl⟩
  have hs : o.source = some (i, fd) := by rw [ho]
  have hh : o.handle = h := by rw [ho]
  have hprog : drvA i fd (h.securityCommand false false 0x01 0x0001 (zeros Handle.discoverySize) 3) =
      secOnLinux o (.sec false false 0x01 0x0001 (zeros 2048) 3) := by
    unfold secOnLinux
    dsimp only
    rw [sysOn_eq]
    unfold Opened.onHandle
    rw [hs, hh]
    rfl
  rw [hprog]
  obtain ⟨d, h1, h2, h3, h4⟩ := hd
  have hz : (zeros 2048).length = 2048 := zeros_length _
  match i, h2 with
  | 0, _ =>
    obtain ⟨k, a1, a2, a, hk, hr⟩ := nvme_step hs (id := d.identity)
      (by rw [hh, h1]; cases d; simp only at h3 h4 ⊢; rw [h3, h4]; rfl) false false 1 1 (zeros 2048) 3 (by rw [hz]; omega) env hist
    rw [hz] at hk
    exact ⟨_, _, hr, .nvme hk, by rw [delivered_length, hz]⟩
  | 1, _ =>
    obtain ⟨rep, u, hr, hs, hl⟩ := scsi_step hs (id := d.identity)
      (by rw [hh, h1]; cases d; simp only at h3 h4 ⊢; rw [h3, h4]; rfl) false 1 1 (zeros 2048) 3
      (by intro hx; rw [hx] at hz; cases hz) (by rw [hz]; omega) env hist
    exact ⟨rep, u, hr, .scsi hs, hl.trans hz⟩

/-- Discovery through a driver: outcome and exchanges. -/
theorem discovery_drv {i fd : Nat} {h : Handle} (hd : DriverOf i h.dh) (hm : h.info.level0.made = true)
    (env : Prog.Env AReq ARep) (hist : Prog.Trace AReq ARep) :
    ∃ rep, DiscoveryRead fd (OutT.run env hist (drvA i fd h.tcgDiscovery0)).2 rep ∧
      ((OutT.run env hist (drvA i fd h.tcgDiscovery0)).1 = .panic ↔
        rep.err = none ∧ announcedEnd rep.data ≤ 2048 ∧ Overruns rep.data 32 (announcedEnd rep.data)) ∧
      ((OutT.run env hist (drvA i fd h.tcgDiscovery0)).1 = .panic ∨
        ∃ x, (OutT.run env hist (drvA i fd h.tcgDiscovery0)).1 = .ret x ∧ x.1.dh = h.dh ∧ x.1.info.level0.made = true) := by
  obtain ⟨rep, u, hr, hu, hl⟩ := discovery_read (fd := fd) hd env hist
  refine ⟨rep, ?_⟩
  unfold Handle.tcgDiscovery0
  rw [drvA_bind, OutT.run_bind_ret env hist hr]
  dsimp only
  cases he : rep.err with
  | some e =>
    dsimp only
    rw [drvA_ret, OutT.run_ret]
    dsimp only
    rw [List.append_nil]
    exact ⟨hu, ⟨fun x => by (cases x), fun x => by (cases x.1)⟩, .inr ⟨_, rfl, rfl, hm⟩⟩
  | none =>
    dsimp only
    rw [drvA_bind, drvA_lift]
    rcases parse_spec h.info.level0 rep.data rep.behind hm with ⟨g, hp⟩ | ⟨g, ho, hp⟩ | ⟨g, ds, hc, hp⟩
    · rw [hp]
      have : OutT.run env (hist ++ u) ((OutT.lift (P.ret (h.info.level0, some (GoErr.msg "invalid data: length overflow"))) :
          AM (Level0 × Option GoErr)) >>= fun a => drvA i fd (OutT.ret (({ h with info := Handle.afterParse h.info a.1 } : Handle), a.2))) =
          (.ret (({ h with info := Handle.afterParse h.info h.info.level0 } : Handle), some (GoErr.msg "invalid data: length overflow")), []) := rfl
      rw [this]
      dsimp only
      rw [List.append_nil]
      refine ⟨hu, ⟨fun x => by (cases x), fun x => ?_⟩, .inr ⟨_, rfl, rfl, hm⟩⟩
      omega
    · rw [hp]
      have : OutT.run env (hist ++ u) ((OutT.lift P.panic :
          AM (Level0 × Option GoErr)) >>= fun a => drvA i fd (OutT.ret (({ h with info := Handle.afterParse h.info a.1 } : Handle), a.2))) =
          (.panic, []) := rfl
      rw [this]
      dsimp only
      rw [List.append_nil]
      exact ⟨hu, ⟨fun _ => ⟨rfl, by omega, ho⟩, fun _ => rfl⟩, .inl rfl⟩
    · rw [hp]
      have : OutT.run env (hist ++ u) ((OutT.lift (P.ret (learn rep.data rep.behind 32 h.info.level0 ds, (none : Option GoErr))) :
          AM (Level0 × Option GoErr)) >>= fun a => drvA i fd (OutT.ret (({ h with info := Handle.afterParse h.info a.1 } : Handle), a.2))) =
          (.ret (({ h with info := Handle.afterParse h.info (learn rep.data rep.behind 32 h.info.level0 ds) } : Handle), none), []) := rfl
      rw [this]
      dsimp only
      rw [List.append_nil]
      refine ⟨hu, ⟨fun x => by (cases x), fun x => ?_⟩, .inr ⟨_, rfl, rfl, ?_⟩⟩
      · exact absurd x.2.2 (fun o => cut_not_overruns hc o)
      · show (learn rep.data rep.behind 32 h.info.level0 ds).made = true
        rw [learn_made]
        exact hm

theorem later_malformed : Later EndsMalformed := by
  rintro s t ⟨before, u, fd, rep, rfl, h⟩
  exact ⟨s ++ before, u, fd, rep, by rw [List.append_assoc], h⟩

theorem discovery_sane {i fd : Nat} {h : Handle} (hd : DriverOf i h.dh) (hm : h.info.level0.made = true) :
    Sane (fun x => x.1.dh = h.dh ∧ x.1.info.level0.made = true) EndsMalformed (drvA i fd h.tcgDiscovery0) := by
  intro env hist
  obtain ⟨rep, h1, h2, h3⟩ := discovery_drv (fd := fd) hd hm env hist
  rcases h3 with h3 | h3
  · exact .inr ⟨h3, [], _, fd, rep, rfl, h1, h2.1 h3⟩
  · exact .inl h3

/-! ## Opening -/

/-- The identity block of a driver the factory accepted is complete. -/
def WholeId (r : FRep) : Prop :=
  r.err = none → (r.driver.ata = true → 512 ≤ r.driver.identity.length) ∧ (r.driver.nvme = true → 4096 ≤ r.driver.identity.length)

theorem tryNv_whole (fd : Nat) : OutT.Returns WholeId (tryNv fd) := by
  unfold tryNv
  refine OutT.returns_bind (OutT.returns_any _) (fun p _ => ?_)
  refine OutT.returns_bind (B := fun r => ∀ id, r = Res.ok id → id.length = 4096) (OutT.returns_interp _ _ ?_) (fun r hr => ?_)
  · unfold nvOpen
    refine OutT.returns_bind (OutT.returns_any _) (fun x _ => ?_)
    dsimp only
    split
    · exact OutT.returns_ret (fun id h => by cases h)
    · split
      · exact OutT.returns_ret (fun id h => by cases h)
      · rename_i hn
        exact OutT.returns_ret (fun id h => by cases h; exact Decidable.of_not_not hn)
  · cases r with
    | ok id => exact OutT.returns_ret (fun _ => ⟨(fun h => by cases h), (fun _ => by rw [hr id rfl]; exact Nat.le_refl _)⟩)
    | err e => exact OutT.returns_ret (fun h => by cases h)
    | panic => trivial

theorem trySg_whole (fd : Nat) : OutT.Returns WholeId (trySg fd) := by
  unfold trySg
  refine OutT.returns_bind (OutT.returns_any _) (fun p _ => ?_)
  refine OutT.returns_bind (B := fun r => ∀ id, r = Res.ok id → id.length = 512) (OutT.returns_interp _ _ ?_) (fun r hr => ?_)
  · unfold sgOpen
    dsimp only
    refine OutT.returns_bind (OutT.returns_any _) (fun x _ => ?_)
    split
    · exact OutT.returns_ret (fun id h => by cases h)
    · refine OutT.returns_bind (OutT.returns_any _) (fun y _ => ?_)
      exact OutT.returns_ret (fun id h => by have := Res.ok.inj h; rw [← this, storeInto_length, zeros_length])
  · cases r with
    | ok id => exact OutT.returns_ret (fun _ => ⟨(fun _ => by rw [hr id rfl]; exact Nat.le_refl _), (fun h => by cases h)⟩)
    | err e => exact OutT.returns_ret (fun h => by cases h)
    | panic => trivial

theorem try_sane {i fd : Nat} (hi : i < 2) (C : Prog.Trace AReq ARep → Prop) :
    Sane (fun r => FRepOk (.tryDriver i fd) r ∧ WholeId r) C (stepA (.tryDriver i fd)) := by
  refine sane_returns (stepA_sane (.tryDriver i fd) hi C) (OutT.returns_interp _ _ ?_)
  match i, hi with
  | 0, _ => exact tryNv_whole fd
  | 1, _ => exact trySg_whole fd

theorem init_sane {i fd : Nat} {h : Handle} {d : Driver} (hd : DriverOf i h.dh) (he : h.dh = some d)
    (ha : d.ata = true → 512 ≤ d.identity.length) (hn : d.nvme = true → 4096 ≤ d.identity.length) :
    Sane (fun x => x.1.dh = h.dh ∧ x.1.info.level0.made = true) EndsMalformed (drvA i fd h.init) := by
  obtain ⟨i1, i2, h1, h2, -⟩ := parts_ok h d he ha hn
  have hprog : drvA i fd h.init = (drvA i fd (Handle.tcgDiscovery0 { h with info := Handle.makeMap i2 }) >>= fun x =>
      OutT.ret (x.1, none)) := by
    unfold Handle.init
    rw [h1]
    show drvA i fd (OutT.lift (initNvmePart h.dh i1) >>= _) = _
    rw [h2]
    show drvA i fd (Handle.tcgDiscovery0 { h with info := Handle.makeMap i2 } >>= _) = _
    rw [drvA_bind]
    rfl
  rw [hprog]
  refine sane_bind later_malformed (discovery_sane (h := { h with info := Handle.makeMap i2 }) hd rfl) (fun x hx => sane_ret hx)

/-- A handle as the factory makes it and as its methods leave it: with the driver it was opened with or none; with a driver
it has a feature map. -/
structure Sound (o : Opened) : Prop where
  made : Made o
  map : o.handle.dh ≠ none → o.handle.info.level0.made = true

theorem plain_sane {α : Type} {i fd : Nat} {p : DrvM α} {A : α → Prop} (hp : OutT.Total A p)
    (ha : OutT.Asks (DrvOk i) p) (C : Prog.Trace AReq ARep → Prop) : Sane A C (drvA i fd p) := by
  refine sysOn_total ?_ (OutT.within_of_asks (onDriver_fOk ha)) C
  exact OutT.total_interp _ (fun q => OutT.total_ask_bind (fun r => OutT.total_ret trivial)) hp

theorem plainDrv_sane {i fd : Nat} (hi : i < 2) {h : Handle} {d : Driver} (hd : h.dh = some d) (C : Prog.Trace AReq ARep → Prop) :
    Sane (fun _ => True) C (drvA i fd h.getDrivingType) ∧ Sane (fun _ => True) C (drvA i fd h.getDriverName) := by
  constructor
  · refine plain_sane ?_ ?_ C
    · unfold Handle.getDrivingType
      rw [hd]
      exact OutT.total_ask_bind (fun _ => OutT.total_ret trivial)
    · unfold Handle.getDrivingType
      rw [hd]
      exact OutT.asks_bind (OutT.asks_ask (plain_drvOk hi).1) (fun _ => OutT.asks_ret _)
  · refine plain_sane ?_ ?_ C
    · unfold Handle.getDriverName
      rw [hd]
      exact OutT.total_ask_bind (fun _ => OutT.total_ret trivial)
    · unfold Handle.getDriverName
      rw [hd]
      exact OutT.asks_bind (OutT.asks_ask (plain_drvOk hi).2.1) (fun _ => OutT.asks_ret _)

theorem tryDrivers_sane (fd n : Nat) : ∀ i o, i + n ≤ 2 → Sound o → Sane Sound EndsMalformed (sysOn (tryDrivers fd n i o)) := by
  induction n with
  | zero => intro i o _ h; exact sane_ret h
  | succ n ih =>
    intro i o hi ho
    unfold tryDrivers
    rw [sysOn_ask]
    refine sane_bind later_malformed (try_sane (show i < 2 by omega) _) (fun r hr => ?_)
    split
    · exact ih _ _ (by omega) ho
    · rename_i he
      dsimp only
      have hd : DriverOf i ({ o.handle with dh := some r.driver } : Handle).dh := ⟨_, rfl, by omega, hr.1 he⟩
      obtain ⟨p1, p2⟩ := plainDrv_sane (fd := fd) (show i < 2 by omega) (h := { o.handle with dh := some r.driver }) rfl EndsMalformed
      rw [sysOn_bind]
      refine sane_bind later_malformed p1 (fun t _ => ?_)
      rw [sysOn_bind]
      refine sane_bind later_malformed p2 (fun nm _ => ?_)
      rw [sysOn_bind]
      refine sane_bind later_malformed (init_sane (fd := fd) hd rfl (hr.2 he).1 (hr.2 he).2) (fun x hx => ?_)
      refine ih _ _ (by omega) ⟨⟨?_, ?_⟩, fun _ => hx.2⟩
      · intro j f hj
        cases hj
        omega
      · refine .inr ⟨i, fd, rfl, ?_⟩
        dsimp only
        rw [hx.1]
        exact hd

theorem openByFd_sane (order : List (Bytes × Bytes) → List (Bytes × Bytes)) (fd : Nat) (path : Bytes) :
    Sane (fun x => Sound x.1 ∧ x.2 = none) EndsMalformed (sysOn (openByFd 2 order fd path)) := by
  unfold openByFd
  rw [sysOn_bind]
  refine sane_bind later_malformed (sysOn_total (readBasicInfo_total fd path)
    (OutT.within_of_asks (OutT.asks_mono isProbe_fOk (readBasicInfo_asks fd path))) _) (fun b _ => ?_)
  rw [sysOn_bind]
  refine sane_bind later_malformed (sysOn_total (getIdInfo_total order path)
    (OutT.within_of_asks (OutT.asks_mono isProbe_fOk (getIdInfo_asks order path))) _) (fun x _ => ?_)
  dsimp only
  rw [sysOn_bind]
  have hf := basicOpened_fresh path b x.1
  refine sane_bind later_malformed (tryDrivers_sane fd 2 0 _ (by omega) ?_) (fun o ho => sane_ret ⟨ho, rfl⟩)
  refine ⟨⟨fun i f h => ?_, .inl hf.dh⟩, fun h => absurd hf.dh h⟩
  rw [hf.source] at h
  cases h

theorem openByPath_sane (order : List (Bytes × Bytes) → List (Bytes × Bytes)) (path : Bytes) :
    Sane (fun r => r ≠ .panic ∧ ∀ o, r = Res.ok o → Sound o) EndsMalformed (sysOn (openByPath 2 order path)) := by
  unfold openByPath
  rw [sysOn_ask]
  refine sane_bind later_malformed (stepA_sane (.openDev path) trivial _) (fun r _ => ?_)
  split
  · exact sane_ret ⟨(fun h => by cases h), (fun o h => by cases h)⟩
  · rw [sysOn_bind]
    refine sane_bind later_malformed (openByFd_sane order _ path) (fun x hx => ?_)
    obtain ⟨o, e⟩ := x
    obtain ⟨h1, h2⟩ := hx
    dsimp only at h2
    subst h2
    exact sane_ret ⟨(fun h => by cases h), (fun o' h => by cases h; exact h1)⟩

/-! ## Enumerating -/

section
variable {Q R Q' R' α : Type} {A : Q → Prop} {B : Q → R → Prop}

theorem run_defer_any (env : Prog.Env Q R) (h : Prog.Trace Q R) (p : OutT Q R α) (d : OutT Q R Unit) {o : Out α}
    {t : Prog.Trace Q R} (hp : OutT.run env h p = (o, t)) (ho : o ≠ .running) :
    OutT.run env h (OutT.defer p d) = (OutT.after o (OutT.run env (h ++ t) d).1, t ++ (OutT.run env (h ++ t) d).2) := by
  refine (Prog.run_bind (α := Out α) (β := Out α) env h p _).trans ?_
  unfold OutT.run at hp
  rw [hp]
  cases o with
  | running => exact absurd rfl ho
  | ret a =>
    simp only
    rw [OutT.run_after_any env (h ++ t) (x := (OutT.run env (h ++ t) d).1) (u := (OutT.run env (h ++ t) d).2) rfl]
  | panic =>
    simp only
    rw [OutT.run_after_any env (h ++ t) (x := (OutT.run env (h ++ t) d).1) (u := (OutT.run env (h ++ t) d).2) rfl]

theorem interp_after_run (f : Q → OutT Q' R' R) (env : Prog.Env Q' R')
    (hf : ∀ q, A q → ∀ h, ∃ r, (OutT.run env h (f q)).1 = .ret r ∧ B q r) (o : Out α) (d : OutT Q R Unit)
    (hd : OutT.Within A B d) (h : Prog.Trace Q' R') :
    OutT.run env h (OutT.interp f (Prog.bind d (fun x => .done (OutT.after o x))) : OutT Q' R' α) =
      (OutT.after o (OutT.run env h (OutT.interp f d)).1, (OutT.run env h (OutT.interp f d)).2) := by
  have : ∀ (d : Prog Q R (Out Unit)) (h : Prog.Trace Q' R'), Prog.Within A B d →
      OutT.run env h (OutT.interp f (Prog.bind d (fun x => .done (OutT.after o x))) : OutT Q' R' α) =
        (OutT.after o (OutT.run env h (OutT.interp f d : OutT Q' R' Unit)).1, (OutT.run env h (OutT.interp f d : OutT Q' R' Unit)).2) := by
    intro d
    induction d with
    | done x => intro h _; rfl
    | ask q k ih =>
      intro h hd
      obtain ⟨r, h1, h2⟩ := hf q hd.1 h
      have hr : OutT.run env h (f q) = (.ret r, (OutT.run env h (f q)).2) := Prod.ext h1 rfl
      show OutT.run env h (f q >>= fun r => (OutT.interp f (Prog.bind (k r) (fun x => .done (OutT.after o x))) : OutT Q' R' α)) =
        (OutT.after o (OutT.run env h (f q >>= fun r => (OutT.interp f (k r) : OutT Q' R' Unit))).1,
          (OutT.run env h (f q >>= fun r => (OutT.interp f (k r) : OutT Q' R' Unit))).2)
      rw [OutT.run_bind_ret env h hr, OutT.run_bind_ret env h hr, ih r _ (hd.2 r h2)]
  exact this d h hd

theorem interp_defer_run (f : Q → OutT Q' R' R) (env : Prog.Env Q' R')
    (hf : ∀ q, A q → ∀ h, ∃ r, (OutT.run env h (f q)).1 = .ret r ∧ B q r) (p : OutT Q R α)
    (d : OutT Q R Unit) (hp : OutT.Within A B p) (hd : OutT.Within A B d) (h : Prog.Trace Q' R')
    (hr : (OutT.run env h (OutT.interp f p)).1 ≠ .running) :
    OutT.run env h (OutT.interp f (OutT.defer p d)) =
      (OutT.after (OutT.run env h (OutT.interp f p)).1
          (OutT.run env (h ++ (OutT.run env h (OutT.interp f p)).2) (OutT.interp f d)).1,
        (OutT.run env h (OutT.interp f p)).2 ++ (OutT.run env (h ++ (OutT.run env h (OutT.interp f p)).2) (OutT.interp f d)).2) := by
  have : ∀ (p : Prog Q R (Out α)) (h : Prog.Trace Q' R'), Prog.Within A B p →
      (OutT.run env h (OutT.interp f p : OutT Q' R' α)).1 ≠ .running →
      OutT.run env h (OutT.interp f (OutT.defer (p : OutT Q R α) d)) =
      (OutT.after (OutT.run env h (OutT.interp f p : OutT Q' R' α)).1
          (OutT.run env (h ++ (OutT.run env h (OutT.interp f p : OutT Q' R' α)).2) (OutT.interp f d)).1,
        (OutT.run env h (OutT.interp f p : OutT Q' R' α)).2 ++
          (OutT.run env (h ++ (OutT.run env h (OutT.interp f p : OutT Q' R' α)).2) (OutT.interp f d)).2) := by
    intro p
    induction p with
    | done o =>
      intro h _ hr
      have e : OutT.run env h (OutT.interp f (Prog.done o) : OutT Q' R' α) = (o, []) := rfl
      rw [e] at hr ⊢
      cases o with
      | running => exact absurd rfl hr
      | ret a =>
        refine (interp_after_run f env hf (.ret a) d hd h).trans ?_
        simp
      | panic =>
        refine (interp_after_run f env hf (.panic : Out α) d hd h).trans ?_
        simp
    | ask q k ih =>
      intro h hw hr
      obtain ⟨r, h1, h2⟩ := hf q hw.1 h
      have hq : OutT.run env h (f q) = (.ret r, (OutT.run env h (f q)).2) := Prod.ext h1 rfl
      have e : OutT.run env h (OutT.interp f (Prog.ask q k) : OutT Q' R' α) = _ :=
        OutT.run_bind_ret env h (f := fun r => (OutT.interp f (k r) : OutT Q' R' α)) hq
      rw [e] at hr ⊢
      dsimp only at hr ⊢
      refine (OutT.run_bind_ret env h (f := fun r => (OutT.interp f (OutT.defer (k r : OutT Q R α) d) : OutT Q' R' α)) hq).trans ?_
      rw [ih r _ (hw.2 r h2) hr]
      simp only [List.append_assoc]
  exact this p h hp hr
end

/-- Malformed discovery data, and then only closing. -/
def ClosesMalformed (t : Prog.Trace AReq ARep) : Prop :=
  ∃ s v, t = s ++ v ∧ EndsMalformed s ∧ ∀ x ∈ v, JustCloses x.1

theorem later_closes : Later ClosesMalformed := by
  rintro r t ⟨s, v, rfl, h1, h2⟩
  exact ⟨r ++ s, v, by rw [List.append_assoc], later_malformed r s h1, h2⟩

theorem stepA_returns (env : Prog.Env AReq ARep) : ∀ q, FOk q → ∀ h, ∃ r, (OutT.run env h (stepA q)).1 = .ret r ∧ FRepOk q r := by
  intro q hq h
  rcases stepA_sane q hq (fun _ => False) env h with h | ⟨-, h⟩
  · exact h
  · exact h.elim

theorem defer_sane {α : Type} {A : α → Prop} {p : FM α} {d : FM Unit} (hp : Sane A ClosesMalformed (sysOn p)) (hwp : OutT.Within FOk FRepOk p)
    (hwd : OutT.Within FOk FRepOk d) (hd : Sane (fun _ => True) (fun _ => False) (sysOn d)) (ha : OutT.Asks JustCloses (sysOn d)) :
    Sane A ClosesMalformed (sysOn (OutT.defer p d)) := by
  intro env h
  have hr : (OutT.run env h (sysOn p)).1 ≠ .running := by
    intro hx
    rcases hp env h with ⟨a, h1, -⟩ | ⟨h1, -⟩
    · rw [hx] at h1; cases h1
    · rw [hx] at h1; cases h1
  have e := interp_defer_run stepA env (stepA_returns env) p d hwp hwd h hr
  obtain ⟨u, hu⟩ : ∃ u, OutT.run env (h ++ (OutT.run env h (sysOn p)).2) (sysOn d) = (.ret (), u) := by
    rcases hd env (h ++ (OutT.run env h (sysOn p)).2) with ⟨a, h1, -⟩ | ⟨-, h1⟩
    · exact ⟨_, Prod.ext h1 rfl⟩
    · exact h1.elim
  have hc := OutT.asks_run ha env (h ++ (OutT.run env h (sysOn p)).2)
  rw [hu] at hc
  have e' : OutT.run env h (sysOn (OutT.defer p d)) = ((OutT.run env h (sysOn p)).1, (OutT.run env h (sysOn p)).2 ++ u) := by
    refine e.trans ?_
    show (OutT.after (OutT.run env h (sysOn p)).1 (OutT.run env (h ++ (OutT.run env h (sysOn p)).2) (sysOn d)).1,
      (OutT.run env h (sysOn p)).2 ++ (OutT.run env (h ++ (OutT.run env h (sysOn p)).2) (sysOn d)).2) = _
    rw [hu]
    rfl
  rw [e']
  rcases hp env h with h1 | ⟨h1, s, v, h2, h3, h4⟩
  · exact .inl h1
  · refine .inr ⟨h1, s, v ++ u, by rw [h2, List.append_assoc], h3, fun x hx => ?_⟩
    rcases List.mem_append.1 hx with hx | hx
    · exact h4 x hx
    · exact hc x hx

/-! ### closing -/

theorem closeStep_asks (i fd : Nat) (hi : i < 2) : OutT.Asks JustCloses (stepA (.drv i fd .close)) := by
  have h : OutT.Asks (fun q => q = LReq.place ∨ q = LReq.os (.closeFd fd)) (linuxStep (.drv i fd .close)) := by
    match i, hi with
    | 0, _ => exact ⟨.inl rfl, fun _ => ⟨.inr rfl, fun _ => trivial⟩⟩
    | 1, _ => exact ⟨.inl rfl, fun _ => ⟨.inr rfl, fun _ => trivial⟩⟩
  refine OutT.asks_interp sysCall _ h ?_
  rintro q (rfl | rfl)
  · exact OutT.asks_bind (OutT.asks_ask trivial) (fun _ => OutT.asks_ret _)
  · exact OutT.asks_bind (OutT.asks_ask trivial) (fun _ => OutT.asks_ret _)

theorem close_closes (o : Opened) (h : Sound o) : OutT.Asks JustCloses (sysOn o.close) := by
  have hc : ∀ i fd, (o.handle.dh ≠ none → i < 2) → OutT.Asks JustCloses (drvA i fd o.handle.close) := by
    intro i fd hi
    unfold Handle.close
    cases hd : o.handle.dh with
    | none => exact OutT.asks_ret _
    | some d =>
      rw [drvA_bind]
      refine OutT.asks_bind ?_ (fun _ => OutT.asks_ret _)
      exact OutT.asks_bind (closeStep_asks i fd (hi (by rw [hd]; exact fun x => by cases x))) (fun _ => OutT.asks_ret _)
  unfold Opened.close
  split
  · rename_i i fd hs
    rw [sysOn_bind]
    exact OutT.asks_bind (hc i fd (fun _ => h.made.two i fd hs)) (fun _ => OutT.asks_ret _)
  · rw [sysOn_bind]
    exact OutT.asks_bind (hc 0 0 (fun _ => by omega)) (fun _ => OutT.asks_ret _)

theorem close_total (o : Opened) (h : Sound o) : OutT.Total Sound o.close := by
  have hc : OutT.Total (fun h' : Handle => h'.dh = none ∧ h'.info = o.handle.info) o.handle.close := by
    unfold Handle.close
    cases hd : o.handle.dh with
    | none => exact OutT.total_ret ⟨hd, rfl⟩
    | some d => exact OutT.total_ask_bind (fun _ => OutT.total_ret ⟨rfl, rfl⟩)
  have hs : ∀ h' : Handle, h'.dh = none ∧ h'.info = o.handle.info → Sound { o with handle := h' } := fun h' hh =>
    ⟨h.made.set (.inl hh.1), fun x => absurd hh.1 x⟩
  have hi : ∀ i fd, OutT.Total (fun h' : Handle => h'.dh = none ∧ h'.info = o.handle.info) (onDriver i fd o.handle.close) := fun i fd =>
    OutT.total_interp _ (fun q => OutT.total_ask_bind (fun r => OutT.total_ret trivial)) hc
  unfold Opened.close
  split
  · exact OutT.total_bind (hi _ _) (fun h' hh => OutT.total_ret (hs h' hh))
  · exact OutT.total_bind (hi _ _) (fun h' hh => OutT.total_ret (hs h' hh))

theorem close_sane (o : Opened) (h : Sound o) (C : Prog.Trace AReq ARep → Prop) : Sane Sound C (sysOn o.close) :=
  sysOn_total (close_total o h) (OutT.within_of_asks (close_asks o h.made.two)) C

theorem enumLoop_sane (order : List (Bytes × Bytes) → List (Bytes × Bytes)) (names : List Bytes) :
    Sane (fun _ => True) ClosesMalformed (sysOn (enumLoop 2 order names)) := by
  induction names with
  | nil => exact sane_ret trivial
  | cons name rest ih =>
    unfold enumLoop
    split
    · exact ih
    · rw [sysOn_ask]
      refine sane_bind later_closes (stepA_sane (.stat (ascii "/dev/" ++ name)) trivial _) (fun s _ => ?_)
      split
      · split
        · exact ih
        · rw [sysOn_bind]
          refine sane_bind later_closes (sane_mono (fun _ h => h) (fun t ht => ⟨t, [], by rw [List.append_nil], ht, fun x hx => by cases hx⟩)
            (openByPath_sane order (ascii "/dev/" ++ name))) (fun r hr => ?_)
          cases r with
          | panic => exact absurd rfl hr.1
          | err e => exact ih
          | ok o =>
            have ho := hr.2 o rfl
            dsimp only
            rw [sysOn_bind]
            refine sane_bind later_closes (defer_sane ih (enumLoop_within order rest) ?_ ?_ ?_) (fun _ _ => sane_ret trivial)
            · exact OutT.within_bind' (OutT.within_of_asks (close_asks o ho.made.two)) (fun _ => OutT.within_ret _)
            · unfold Opened.deferredClose
              rw [sysOn_bind]
              exact sane_bind (fun _ _ h => h) (close_sane o ho _) (fun _ _ => sane_ret trivial)
            · unfold Opened.deferredClose
              rw [sysOn_bind]
              exact OutT.asks_bind (close_closes o ho) (fun _ => OutT.asks_ret _)
      · exact ih

theorem enumDrives_sane (order : List (Bytes × Bytes) → List (Bytes × Bytes)) :
    Sane (fun _ => True) ClosesMalformed (sysOn (enumDrives 2 order)) := by
  unfold enumDrives
  rw [sysOn_ask]
  refine sane_bind later_closes (stepA_sane (.readDir (ascii "/sys/block")) trivial _) (fun d _ => ?_)
  split
  · exact sane_ret trivial
  · rw [sysOn_bind]
    exact sane_bind later_closes (enumLoop_sane order _) (fun _ _ => sane_ret trivial)

/-! ## Methods of a handle -/

theorem drvA_ask {α : Type} (i fd : Nat) (q : DrvReq) (k : DrvRep → DrvM α) :
    drvA i fd (OutT.ask q >>= k) = (stepA (.drv i fd q) >>= fun r => drvA i fd (k r.drv)) := rfl

theorem stepA_total {q : FReq} (h : OutT.Total (fun _ => True) (linuxStep q)) : OutT.Total (fun _ => True) (stepA q) :=
  OutT.total_interp _ (fun q => OutT.total_ask_bind (fun r => OutT.total_ret trivial)) h

theorem sgTaskFile_total (rw dma : Bool) (tf : Tf) (data : Option Bytes) (addr base secs : Nat) (hd : data ≠ some []) :
    OutT.Total (fun x => ∀ d, data = some d → ∃ d', x.2.2 = some d' ∧ d'.length = d.length) (sgTaskFile rw dma tf data addr base secs) := by
  unfold sgTaskFile
  have hz : sgZeroOut rw data ≠ some [] := by
    unfold sgZeroOut
    split
    · cases data with
      | none => exact fun h => by cases h
      | some d =>
        intro h
        have h' := congrArg List.length (Option.some.inj h)
        rw [zeros_length] at h'
        exact hd (congrArg some (List.length_eq_zero_iff.1 h'))
    · exact hd
  have hzl : ∀ d, data = some d → ∃ z, sgZeroOut rw data = some z ∧ z.length = d.length := by
    rintro d rfl
    unfold sgZeroOut
    split
    · exact ⟨_, rfl, zeros_length _⟩
    · exact ⟨d, rfl, rfl⟩
  obtain ⟨z, hzz⟩ : ∃ z, z = sgZeroOut rw data := ⟨_, rfl⟩
  rw [← hzz] at hz hzl
  dsimp only
  rw [← hzz]
  obtain ⟨x, ab, hx, ha⟩ : ∃ x ab, sgTaskMem rw z addr base = .ret (x, ab) ∧ ∀ q r, ∃ z', sgTaskAfter rw z ab q r = .ret z' ∧
      ∀ y, z = some y → ∃ y', z' = some y' ∧ y'.length = y.length := by
    cases z with
    | none => exact ⟨_, _, rfl, fun q r => ⟨_, rfl, fun y h => by cases h⟩⟩
    | some d =>
      have hne : d ≠ [] := fun h => hz (by rw [h])
      obtain ⟨a, c, ab, h1, -⟩ := sgFirstMem_spec rw d addr base hne
      refine ⟨_, _, h1, fun q r => ?_⟩
      obtain ⟨d', h2, h3, -⟩ := sgAfterFirst_spec rw d addr base hne q r _ _ h1
      refine ⟨some d', ?_, fun y h => ⟨d', rfl, by rw [h3]; exact congrArg List.length (Option.some.inj h)⟩⟩
      unfold sgTaskAfter
      dsimp only
      rw [h2]
      rfl
  refine OutT.total_bind (C := fun y => y = (x, ab)) (OutT.total_lift hx rfl) ?_
  rintro y rfl
  dsimp only
  refine OutT.total_ask_bind (fun r => ?_)
  obtain ⟨z', hz', hl⟩ := ha (sgTaskReq rw dma tf z secs x) r
  refine OutT.total_bind (C := fun y => y = z') (OutT.total_lift hz' rfl) ?_
  rintro y rfl
  have fin : ∀ d, data = some d → ∃ d', y = some d' ∧ d'.length = d.length := by
    intro d h
    obtain ⟨w, h1, h2⟩ := hzl d h
    obtain ⟨w', h3, h4⟩ := hl w h1
    exact ⟨w', h3, h4.trans h2⟩
  split
  · exact OutT.total_ret fin
  · refine OutT.total_ask_bind (fun r2 => ?_)
    split
    · exact OutT.total_ret fin
    · exact OutT.total_ret fin

theorem sgSecurity_total (rw : Bool) (p : Byte) (c : BitVec 16) (data : Bytes) (addr base secs : Nat) (hd : data ≠ []) :
    OutT.Total (fun x => x.2.length = data.length) (sgSecurity rw p c data addr base secs) := by
  unfold sgSecurity
  obtain ⟨z, hz, hl⟩ : ∃ z, z = (if rw then data else zeros data.length) ∧ z.length = data.length := by
    refine ⟨_, rfl, ?_⟩
    split
    · rfl
    · exact zeros_length _
  have hne : z ≠ [] := by
    intro h
    rw [h] at hl
    exact hd (List.length_eq_zero_iff.1 hl.symm)
  dsimp only
  rw [← hz]
  obtain ⟨a, m, ab, h1, -⟩ := sgFirstMem_spec rw z addr base hne
  refine OutT.total_bind (C := fun y => y = (Dxfer.mem a m, ab)) (OutT.total_lift h1 rfl) ?_
  rintro y rfl
  dsimp only
  refine OutT.total_ask_bind (fun r => ?_)
  obtain ⟨d', h2, h3, -⟩ := sgAfterFirst_spec rw z addr base hne (sgSecReq rw p c z secs (.mem a m)) r _ _ h1
  refine OutT.total_bind (C := fun y => y = d') (OutT.total_lift h2 rfl) ?_
  rintro y rfl
  have fin : y.length = data.length := h3.trans hl
  split
  · exact OutT.total_ret fin
  · refine OutT.total_ask_bind (fun r2 => ?_)
    split
    · exact OutT.total_ret fin
    · exact OutT.total_ret fin

theorem drvSg_total {C : DrvRep → Prop} (fd : Nat) (q : DrvReq) (h : ∀ addr base behind, OutT.Total C (sgDriver addr base behind q)) :
    OutT.Total (fun r => C r.drv) (linuxStep (.drv 1 fd q)) := by
  show OutT.Total _ (drvSg fd q)
  unfold drvSg
  refine OutT.total_ask_bind (fun p => ?_)
  exact OutT.total_bind (OutT.total_interp _ (sgSys_total fd) (h _ _ _)) (fun r hr => OutT.total_ret hr)

theorem drvNv_total {C : DrvRep → Prop} (fd : Nat) (q : DrvReq) (h : ∀ addr behind, OutT.Total C (nvDriver addr behind q)) :
    OutT.Total (fun r => C r.drv) (linuxStep (.drv 0 fd q)) := by
  show OutT.Total _ (drvNv fd q)
  unfold drvNv
  refine OutT.total_ask_bind (fun p => ?_)
  exact OutT.total_bind (OutT.total_interp _ (nvSys_total fd) (h _ _)) (fun r hr => OutT.total_ret hr)

theorem total_any {Q R α : Type} {C : α → Prop} {p : OutT Q R α} (h : OutT.Total C p) : OutT.Total (fun _ => True) p :=
  OutT.total_mono (fun _ _ => trivial) h

theorem ata_total (i fd : Nat) (h : Handle) (hd : h.dh = none ∨ DriverOf i h.dh) (rw dma : Bool) (tf : Tf) (data : Bytes) (secs : Nat)
    (hne : i = 1 → data ≠ []) : OutT.Total (fun _ => True) (drvA i fd (h.ataDoTaskFileCmd rw dma tf data secs)) := by
  unfold Handle.ataDoTaskFileCmd
  rcases hd with hd | ⟨d, hd, hi, ha, -⟩
  · rw [hd]
    exact OutT.total_ret trivial
  · rw [hd]
    dsimp only
    match i, hi with
    | 0, _ =>
      rw [if_neg (by rw [ha]; decide)]
      exact OutT.total_ret trivial
    | 1, _ =>
      rw [if_pos (by rw [ha]; rfl), drvA_ask]
      refine OutT.total_bind (stepA_total (total_any (drvSg_total (C := fun _ => True) fd _ (fun addr base behind => ?_))))
        (fun r _ => OutT.total_ret trivial)
      unfold sgDriver
      exact OutT.total_bind (sgTaskFile_total rw dma tf (some data) addr base secs (fun h => hne rfl (Option.some.inj h)))
        (fun x _ => OutT.total_ret trivial)

theorem ataNil_total (i fd : Nat) (h : Handle) (hd : h.dh = none ∨ DriverOf i h.dh) (rw dma : Bool) (tf : Tf) (secs : Nat) :
    OutT.Total (fun _ => True) (drvA i fd (h.ataDoTaskFileNil rw dma tf secs)) := by
  unfold Handle.ataDoTaskFileNil
  rcases hd with hd | ⟨d, hd, hi, ha, -⟩
  · rw [hd]
    exact OutT.total_ret trivial
  · rw [hd]
    dsimp only
    match i, hi with
    | 0, _ =>
      rw [if_neg (by rw [ha]; decide)]
      exact OutT.total_ret trivial
    | 1, _ =>
      rw [if_pos (by rw [ha]; rfl), drvA_ask]
      refine OutT.total_bind (stepA_total (total_any (drvSg_total (C := fun _ => True) fd _ (fun addr base behind => ?_))))
        (fun r _ => OutT.total_ret trivial)
      unfold sgDriver
      exact OutT.total_bind (sgTaskFile_total rw dma tf none addr base secs (fun h => by cases h))
        (fun x _ => OutT.total_ret trivial)

theorem nvAdmin_total (addr : BitVec 64) (behind : Nat → Byte) (c : NvmeCmd) :
    OutT.Total (fun _ => True) (nvDriver0 addr behind (.nvmeAdmin c)) := fun _ => trivial

theorem logLoop_total (addr : BitVec 64) (behind : Nat → Byte) (nsid logId : BitVec 32) (rae : Bool) (size : Nat) (n offset : Nat) :
    ∀ (buf : Bytes) (last : Option GoErr), size - offset ≤ n →
    OutT.Total (fun _ => True) (OutT.interp (nvDriver0 addr behind) (logPageLoop nsid logId rae size offset buf last)) := by
  induction n generalizing offset with
  | zero =>
    intro buf last hn
    unfold logPageLoop
    rw [dif_pos (by omega)]
    exact OutT.total_ret trivial
  | succ n ih =>
    intro buf last hn
    unfold logPageLoop
    split
    · exact OutT.total_ret trivial
    · rw [OutT.interp_bind]
      refine OutT.total_bind (C := fun _ => True) (fun _ => trivial) (fun r _ => ?_)
      dsimp only
      split
      · exact OutT.total_ret trivial
      · exact ih _ _ _ (by omega)

theorem logPage_total (i fd : Nat) (h : Handle) (hd : h.dh = none ∨ DriverOf i h.dh) (nsid logId : BitVec 32) (rae : Bool) (size : Nat) :
    OutT.Total (fun _ => True) (drvA i fd (h.nvmeGetLogPage nsid logId rae size)) := by
  unfold Handle.nvmeGetLogPage
  rcases hd with hd | ⟨d, hd, hi, -, hn⟩
  · rw [hd]
    exact OutT.total_ret trivial
  · rw [hd]
    dsimp only
    match i, hi with
    | 1, _ =>
      rw [if_neg (by rw [hn]; decide)]
      exact OutT.total_ret trivial
    | 0, _ =>
      rw [if_pos (by rw [hn]; rfl), drvA_ask]
      refine OutT.total_bind (stepA_total (total_any (drvNv_total (C := fun _ => True) fd _ (fun addr behind => ?_))))
        (fun r _ => OutT.total_ret trivial)
      unfold nvDriver nvmeLogPage
      dsimp only
      rw [if_neg (by omega)]
      exact OutT.total_bind (logLoop_total addr behind nsid logId rae _ size 0 _ _ (by omega)) (fun _ _ => OutT.total_ret trivial)

theorem security_total (i fd : Nat) (h : Handle) (hd : h.dh = none ∨ DriverOf i h.dh) (rw dma : Bool) (p : Byte) (c : BitVec 16)
    (buf : Bytes) (secs : Nat) (hne : i = 1 → buf ≠ []) :
    OutT.Total (fun _ => True) (drvA i fd (h.securityCommand rw dma p c buf secs)) := by
  unfold Handle.securityCommand
  rcases hd with hd | ⟨d, hd, hi, ha, hn⟩
  · rw [hd]
    exact OutT.total_ret trivial
  · rw [hd]
    dsimp only
    rw [drvA_ask]
    match i, hi with
    | 0, _ =>
      refine OutT.total_bind (stepA_total (total_any (drvNv_total (C := fun _ => True) fd _ (fun addr behind => OutT.total_ret trivial))))
        (fun r _ => ?_)
      split
      · exact OutT.total_ret trivial
      · rw [if_neg (by rw [ha]; decide), if_pos (by rw [hn]; rfl), drvA_ask]
        exact OutT.total_bind (stepA_total (total_any (drvNv_total (C := fun _ => True) fd _ (fun addr behind => nvAdmin_total addr behind _))))
          (fun r _ => OutT.total_ret trivial)
    | 1, _ =>
      refine OutT.total_bind (stepA_total (total_any (drvSg_total (C := fun _ => True) fd _ (fun addr base behind => ?_))))
        (fun r _ => ?_)
      · unfold sgDriver
        exact OutT.total_bind (sgSecurity_total rw p c buf addr base secs (hne rfl)) (fun x _ => OutT.total_ret trivial)
      · split
        · exact OutT.total_ret trivial
        · rw [if_pos (by rw [ha]; rfl), drvA_ask]
          refine OutT.total_bind (stepA_total (total_any (drvSg_total (C := fun _ => True) fd _ (fun addr base behind => ?_))))
            (fun r _ => OutT.total_ret trivial)
          unfold sgDriver
          refine OutT.total_bind (sgTaskFile_total rw dma _ (some _) addr base secs ?_) (fun x _ => OutT.total_ret trivial)
          intro hx
          have hl := congrArg List.length (Option.some.inj hx)
          rw [storeInto_length] at hl
          exact hne rfl (List.length_eq_zero_iff.1 hl)

end Dparm
