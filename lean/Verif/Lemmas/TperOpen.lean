import Verif.Lemmas.TperLinux
/-!
# Lemmas: the drive the Linux factory returns for a conforming NVMe drive
-/
namespace Dparm
open Spec

/-! ## Discovery -/

theorem announces_device {comId : BitVec 16} {h : Handle} {env : Prog.Env DrvReq DrvRep}
    {hist : Prog.Trace DrvReq DrvRep} {r : SecRep} {t : Prog.Trace DrvReq DrvRep} (hf : Spec.Fresh h.info.level0)
    (hr : discoveryRun h env hist = (.ret r, t)) (he : r.err = none) (ha : AnnouncesOpal comId r.data) :
    ∃ h', (OutT.run env hist h.tcgDiscovery0).1 = .ret (h', none) ∧ ∀ dev,
      dev = newTcgDevice h'.getTcgLevel0InfoAndSerial.1 h'.getTcgLevel0InfoAndSerial.2 →
      (dev.kind = .opal1 ∨ dev.kind = .opal2) ∧ dev.baseComId = comId := by
  obtain ⟨ds, h1, hz, hd, hp, hl, hrep, hall⟩ := ha
  have hne : ds ≠ [] := by
    rintro rfl
    rcases hrep with ⟨d, hd, -⟩ | ⟨d, hd, -⟩ <;> cases hd
  obtain ⟨fr, last, hds⟩ : ∃ fr last, ds = fr ++ [last] := ⟨_, _, (List.dropLast_concat_getLast hne).symm⟩
  obtain ⟨ds', hsub, hcut, hrep'⟩ : ∃ ds', (∀ d ∈ ds', d ∈ ds) ∧ Cut r.data 48 (announcedEnd r.data) ds' ∧
      (Reports ds' 0x200 ∨ Reports ds' 0x203) := by
    subst hds
    obtain ⟨c1, c2⟩ := announced_without_itself hd hp hl
    have hlast := (isDescriptor_length (hd last (by simp))).2
    by_cases h4 : last.length = 4
    · refine ⟨fr, fun d hd => by simp [hd], c2 h4, ?_⟩
      have hnot : ∀ c, c = 0x200 ∨ c = 0x203 → Reports (fr ++ [last]) c → Reports fr c := by
        rintro c hc ⟨d, hdm, hdc⟩
        simp only [List.mem_append, List.mem_singleton] at hdm
        rcases hdm with hdm | rfl
        · exact ⟨d, hdm, hdc⟩
        · have := (hall d (by simp) (by rcases hc with e | e <;> rw [hdc, e] <;> simp)).1
          omega
      rcases hrep with e | e
      · exact .inl (hnot _ (.inl rfl) e)
      · exact .inr (hnot _ (.inr rfl) e)
    · exact ⟨fr ++ [last], fun d hd => hd, c1 (by omega), hrep⟩
  have hann : announcedEnd r.data ≤ 2048 := by
    have := hp.length_le
    rw [List.length_drop, h1] at this
    show beVal (r.data.take 4) ≤ 2048
    omega
  obtain ⟨zs, hzs, hc⟩ := cut_from_32 hz hcut
  obtain ⟨h', e1, k1⟩ := device_kind_of_response hf hr he hann hc
  obtain ⟨h'', e2, k2⟩ := com_ids hf hr he hann hc
  rw [e1] at e2
  simp only [Out.ret.injEq, Prod.mk.injEq, and_true] at e2
  subst e2
  refine ⟨h', e1, fun dev hdev => ?_⟩
  obtain ⟨o1, o2, -, -⟩ := k1 dev hdev
  obtain ⟨-, c2⟩ := k2 dev hdev
  rw [(reports_zeros hzs (by decide)).1] at o1
  rw [(reports_zeros hzs (by decide)).1, (reports_zeros hzs (by decide)).1] at o2
  have fin : ∀ kind code, (kind, code) ∈ [(DevKind.opal1, 0x200), (DevKind.opal2, 0x203), (DevKind.enterprise, 0x100)] →
      (code = 0x200 ∨ code = 0x203) → dev.kind = kind → dev.baseComId = comId := by
    intro kind code hm hcode hk
    obtain ⟨d, hw, hb⟩ := c2 kind code hm hk
    have hcode0 : code ≠ 0 := by rcases hcode with e | e <;> rw [e] <;> decide
    rw [(reports_zeros hzs hcode0).2] at hw
    unfold lastWith at hw
    have hmem := List.mem_filter.1 (List.mem_of_getLast? hw)
    have hdc : descCode d = code := by simpa using hmem.2
    obtain ⟨g1, g2⟩ := hall d (hsub d hmem.1) (by rcases hcode with e | e <;> rw [hdc, e] <;> simp)
    apply BitVec.eq_of_toNat_eq
    rw [(hb g1).1, g2]
  by_cases h200 : Reports ds' 0x200
  · have hk := o1.2 h200
    exact ⟨.inl hk, fin .opal1 0x200 (by simp) (.inl rfl) hk⟩
  · have h203 : Reports ds' 0x203 := by
      rcases hrep' with e | e
      · exact absurd e h200
      · exact e
    have hk := o2.2 ⟨h200, h203⟩
    exact ⟨.inr hk, fin .opal2 0x203 (by simp) (.inr rfl) hk⟩

/-! ## What the factory keeps -/

/-- If the first driver's handle is returned, it is the result of `Init` on it. -/
theorem tryDrivers_first {env : Prog.Env FReq FRep} {H : Prog.Trace FReq FRep} {fd fd' : Nat} {before o : Opened}
    (hb : before.source = none) (h : (OutT.run env H (tryDrivers fd 2 0 before)).1 = .ret o)
    (ho : o.source = some (0, fd')) :
    fd' = fd ∧ ∃ (r : FRep) (H' : Prog.Trace FReq FRep) (e : Option GoErr), o.handle.dh = some r.driver ∧
      (OutT.run env H' (onDriver 0 fd ({ before.handle with dh := some r.driver } : Handle).init)).1 = .ret (o.handle, e) := by
  have hone : ∀ (H : Prog.Trace FReq FRep) (b : Opened), (OutT.run env H (tryDrivers fd 1 1 b)).1 = .ret o →
      o = b := by
    intro H b h
    rw [tryDrivers, OutT.run_ask_bind] at h
    obtain ⟨r, hr⟩ : ∃ r, r = env H (.tryDriver 1 fd) := ⟨_, rfl⟩
    rw [← hr] at h
    cases he : r.err with
    | some e =>
      simp only [he] at h
      simp only [tryDrivers, OutT.run_ret, Out.ret.injEq] at h
      exact h.symm
    | none =>
      simp only [he] at h
      obtain ⟨a1, -, h, -⟩ := OutT.run_bind_cases h
      obtain ⟨a2, -, h, -⟩ := OutT.run_bind_cases h
      obtain ⟨⟨a3, a3'⟩, -, h, -⟩ := OutT.run_bind_cases h
      simp only [tryDrivers, OutT.run_ret, Out.ret.injEq] at h
      rw [← h] at ho
      simp at ho
  rw [tryDrivers, OutT.run_ask_bind] at h
  obtain ⟨r, hr⟩ : ∃ r, r = env H (.tryDriver 0 fd) := ⟨_, rfl⟩
  rw [← hr] at h
  cases he : r.err with
  | some e =>
    simp only [he] at h
    have := hone _ _ h
    rw [this, hb] at ho
    cases ho
  | none =>
    simp only [he] at h
    obtain ⟨a1, -, h, -⟩ := OutT.run_bind_cases h
    obtain ⟨a2, -, h, -⟩ := OutT.run_bind_cases h
    obtain ⟨⟨a3, a3'⟩, h3, h, -⟩ := OutT.run_bind_cases h
    have hh := hone _ _ h
    have hhd : o.handle = a3 := by rw [hh]
    refine ⟨by rw [hh] at ho; simpa using ho.symm, r, _, a3', ?_, by rw [hhd]; exact h3⟩
    rw [hhd]
    exact OutT.returns_run (onDriver_returns 0 fd (init_returns_dh _)) _ _ _ h3

theorem OutT.within_any {Q R α : Type} (p : OutT Q R α) : OutT.Within (fun _ => True) (fun _ _ => True) p := by
  have : ∀ p : Prog Q R (Out α), Prog.Within (fun _ => True) (fun _ _ => True) p := by
    intro p
    induction p with
    | done o => trivial
    | ask q k ih => exact ⟨trivial, fun r _ => ih r⟩
  exact this p

/-- The call a handle on a driver makes. -/
def drvAsk (i fd : Nat) (q : DrvReq) : FM DrvRep := do
  let r ← OutT.ask (.drv i fd q)
  OutT.ret r.drv

theorem onDriver_at {α : Type} (i fd : Nat) (p : DrvM α) (env : Prog.Env FReq FRep) (H : Prog.Trace FReq FRep) :
    (OutT.run env H (onDriver i fd p)).1 = (OutT.run (OutT.upperEnv (drvAsk i fd) env {} H) [] p).1 :=
  (OutT.interp_run (A := fun _ => True) (B := fun _ _ => True) (drvAsk i fd) env {} H
    (fun q _ h => ⟨_, by unfold drvAsk; rw [OutT.run_ask_bind]; rfl, trivial⟩) (p := p)
    (OutT.within_any _)).1

theorem sysCall_at {α : Type} (p : LM α) (env : Prog.Env AReq ARep) (h : Prog.Trace AReq ARep) (H : Prog.Trace LReq LRep) :
    (OutT.run env (OutT.lowered sysCall env h H) (OutT.interp sysCall p)).1 =
      (OutT.run (OutT.upperEnv sysCall env {} h) H p).1 :=
  (OutT.interp_run_at (A := fun _ => True) (B := fun _ _ => True) sysCall env {} h
    (fun q _ h => ⟨_, by unfold sysCall; rw [OutT.run_ask_bind]; rfl, trivial⟩) (p := p)
    (OutT.within_any _) H).1

theorem linuxStep_at {α : Type} (p : FM α) (hp : OutT.Within FOk FRepOk p) (env : Prog.Env LReq LRep)
    (H : Prog.Trace FReq FRep) :
    (OutT.run env (OutT.lowered linuxStep env [] H) (onLinux p)).1 =
      (OutT.run (OutT.upperEnv linuxStep env {} []) H p).1 :=
  (OutT.interp_run_at linuxStep env {} [] (fun q hq h => linuxStep_returns q hq env h) hp H).1

/-- `Init` on the NVMe handle of a conforming drive keeps what discovery announced. -/
theorem init_announced {fd : Nat} {dr : Drive} {W : Nat} {env : Prog.Env AReq ARep} {st : Prog.Trace AReq ARep → DriveState}
    (hc : NvmeConforming fd dr W env st) (h : Prog.Trace AReq ARep) {h0 : Handle} {id : Bytes}
    (hd : h0.dh = some { ata := false, nvme := true, identity := id }) (hid : 4096 ≤ id.length)
    (hl : h0.info.level0 = {}) (H' : Prog.Trace FReq FRep) :
    ∃ h1, (OutT.run (OutT.upperEnv linuxStep (OutT.upperEnv sysCall env {} h) {} []) H' (onDriver 0 fd h0.init)).1 =
      .ret (h1, none) ∧ ∀ dev, dev = newTcgDevice h1.getTcgLevel0InfoAndSerial.1 h1.getTcgLevel0InfoAndSerial.2 →
      (dev.kind = .opal1 ∨ dev.kind = .opal2) ∧ dev.baseComId = dr.comId := by
  obtain ⟨i1, i2, p1, p2, -, a2, b1, -⟩ := parts_ok h0 _ hd (fun x => by simp at x) (fun _ => hid)
  obtain ⟨i, hi2, hf⟩ := initNvme_ok id i1 hid
  have hii : i = i2 := by
    have := b1 rfl
    rw [show ({ ata := false, nvme := true, identity := id } : Driver).identity = id from rfl, hi2] at this
    simpa using this
  subst hii
  have hlev : i.level0 = {} := by rw [hf.keptLevel0, a2 rfl, hl]
  rw [onDriver_at, init_parts _ _ p1 p2]
  obtain ⟨hh, hhh⟩ : ∃ hh : Handle, hh = { h0 with info := Handle.makeMap i } := ⟨_, rfl⟩
  rw [← hhh]
  have hdh : hh.dh = some { ata := false, nvme := true, identity := id } := by rw [hhh]; exact hd
  obtain ⟨E, hE⟩ : ∃ E, E = OutT.upperEnv sysCall env {} h := ⟨_, rfl⟩
  have hsec : ∃ r t, discoveryRun hh (OutT.upperEnv (drvAsk 0 fd) (OutT.upperEnv linuxStep E {} []) {} H') [] = (.ret r, t) ∧
      r.err = none ∧ AnnouncesOpal dr.comId r.data := by
    have hstep := nvme_step (o := { handle := hh, source := some (0, fd) }) rfl hdh false false 1 1
      (zeros Handle.discoverySize) 3 (by rw [zeros_length]; decide) env
      (OutT.lowered sysCall env h (OutT.lowered linuxStep E [] H'))
    obtain ⟨k, a1, a2, a, hk, hrun⟩ := hstep
    have hrun1 := congrArg Prod.fst hrun
    have e3 := OutT.run_answers env _ (OutT.lowered sysCall env h (OutT.lowered linuxStep E [] H'))
      [(.sys .place, a1), (.sys .place, a2)] _ _ _ (show (OutT.run env _ _).2 = _ by rw [hrun]; rfl)
    have hq : (OutT.run env (OutT.lowered sysCall env h (OutT.lowered linuxStep E [] H'))
        (OutT.interp sysCall (onLinux (onDriver 0 fd (hh.securityCommand false false 1 1 (zeros Handle.discoverySize) 3))))).1
        = .ret { err := nvmeVerdict a.sys.nv, data := delivered (zeros Handle.discoverySize) a.sys.nv.data, behind := a2.sys.behind } :=
      hrun1
    rw [sysCall_at, ← hE, linuxStep_at _ (OutT.within_of_asks (onDriver_fOk (securityCommand_drvOk hh
      ⟨_, hdh, by decide, rfl, rfl⟩ _ _ (zeros_length _)))), onDriver_at] at hq
    rw [show zeros Handle.discoverySize = zeros 2048 from rfl] at hk e3
    rw [zeros_length] at hk
    obtain ⟨d1, d2⟩ := hc.discovery (OutT.lowered sysCall env h (OutT.lowered linuxStep E [] H') ++
      [(.sys .place, a1), (.sys .place, a2)]) k hk
    rw [← e3] at d1 d2
    refine ⟨_, _, Prod.ext hq rfl, nvmeVerdict_ok d1, ?_⟩
    have hlen : a.sys.nv.data.length = 2048 := d2.choose_spec.1
    show AnnouncesOpal _ (delivered (zeros 2048) a.sys.nv.data)
    rw [delivered_zeros _ (by omega), hlen, Nat.sub_self, show zeros 0 = [] from rfl, List.append_nil]
    exact d2
  obtain ⟨r, t, hr, he, hann⟩ := hsec
  have hfresh : Spec.Fresh hh.info.level0 := by
    rw [hhh]
    show Spec.Fresh (Handle.makeMap i).level0
    rw [show (Handle.makeMap i).level0 = { i.level0 with raw := fun _ => none, made := true } from rfl, hlev]
    exact ⟨rfl, by decide, fun _ => rfl⟩
  obtain ⟨h', x1, x2⟩ := announces_device hfresh hr he hann
  rw [← hE]
  rcases hdd : OutT.run (OutT.upperEnv (drvAsk 0 fd) (OutT.upperEnv linuxStep E {} []) {} H') [] hh.tcgDiscovery0 with ⟨oo, tt⟩
  rw [hdd] at x1
  simp only at x1
  rw [x1]
  exact ⟨h', rfl, x2⟩

/-- What opening found, when the NVMe driver's handle is the one returned. -/
theorem open_first {env : Prog.Env FReq FRep} {order : List (Bytes × Bytes) → List (Bytes × Bytes)} {path : Bytes}
    {o : Opened} {fd : Nat} (h : (OutT.run env [] (openByPath 2 order path)).1 = .ret (.ok o))
    (ho : o.source = some (0, fd)) :
    ∃ (r : FRep) (H' : Prog.Trace FReq FRep) (e : Option GoErr) (h0 : Handle), h0.dh = some r.driver ∧
      h0.info.level0 = {} ∧ o.handle.dh = some r.driver ∧
      (OutT.run env H' (onDriver 0 fd h0.init)).1 = .ret (o.handle, e) := by
  unfold openByPath at h
  rw [OutT.run_ask_bind] at h
  obtain ⟨r, hr⟩ : ∃ r, r = env [] (.openDev path) := ⟨_, rfl⟩
  rw [← hr] at h
  cases he : r.err with
  | some e => simp only [he] at h; simp at h
  | none =>
    simp only [he] at h
    obtain ⟨⟨o1, e1⟩, h1, h, -⟩ := OutT.run_bind_cases h
    unfold openByFd at h1
    obtain ⟨b, -, h1, -⟩ := OutT.run_bind_cases h1
    obtain ⟨⟨idi, ie⟩, -, h1, -⟩ := OutT.run_bind_cases h1
    obtain ⟨o2, h2, h1, -⟩ := OutT.run_bind_cases h1
    simp only [OutT.run_ret, Out.ret.injEq, Prod.mk.injEq] at h1
    obtain ⟨rfl, rfl⟩ := h1
    simp only [OutT.run_ret, Out.ret.injEq, Res.ok.injEq] at h
    subst h
    have hb : (basicOpened path b idi).source = none := by unfold basicOpened; cases b <;> rfl
    have hlv : (basicOpened path b idi).handle.info.level0 = {} := by unfold basicOpened; cases b <;> rfl
    obtain ⟨rfl, r1, H', e, x1, x2⟩ := tryDrivers_first hb h2 ho
    exact ⟨r1, H', e, { (basicOpened path b idi).handle with dh := some r1.driver }, rfl, hlv, x1, x2⟩

theorem reads_not_tcg {fd : Nat} {comId : BitVec 16} (hne : comId ≠ 1) {q : LReq} (h : ReadsOnly q) :
    ¬ TouchesTcg fd comId (.sys q) := by
  cases q with
  | nvme fd' op k buf =>
    rintro ⟨-, hop, -, hcom⟩
    rcases h.2 with h6 | ⟨-, hcdw⟩
    · rcases hop with e | e <;> rw [h6] at e <;> exact absurd e (by decide)
    · unfold securityOf at hcom
      simp only [hcdw] at hcom
      exact hne (BitVec.eq_of_toNat_eq (by rw [← hcom]; decide))
  | _ => exact fun x => x

/-- Opening a conforming NVMe drive: what the TCG layer then works with; the drive's state is untouched. -/
theorem open_conforming {fd : Nat} {dr : Drive} {W : Nat} {env : Prog.Env AReq ARep} {st : Prog.Trace AReq ARep → DriveState}
    (hc : NvmeConforming fd dr W env st) (order : List (Bytes × Bytes) → List (Bytes × Bytes)) (path : Bytes)
    (h : Prog.Trace AReq ARep) (o : Opened)
    (hr : (OutT.run env h (OutT.interp sysCall (linuxOpenByPath order path))).1 = .ret (.ok o))
    (ho : o.source = some (0, fd)) :
    NvmeDrive o fd ∧ (o.tcgDevice.kind = .opal1 ∨ o.tcgDevice.kind = .opal2) ∧ o.tcgDevice.baseComId = dr.comId ∧
    st (h ++ (OutT.run env h (OutT.interp sysCall (linuxOpenByPath order path))).2) = st h := by
  have hr1 := hr
  have hs := sysCall_at (linuxOpenByPath order path) env h []
  rw [show OutT.lowered sysCall env h [] = h from rfl] at hs
  rw [hs] at hr1
  have hkind : NvmeDrive o fd := by
    rcases linux_open_kinds order path _ [] o hr1 with hk | hk | hk
    · have := hk.1
      rw [ho] at this
      simp only [Option.some.injEq, Prod.mk.injEq, true_and] at this
      rw [this]; exact hk
    · have := hk.1
      rw [ho] at this
      simp at this
    · have := hk.1
      rw [ho] at this
      simp at this
  obtain ⟨-, id, hd⟩ := id hkind
  have hid : 4096 ≤ id.length := by
    obtain ⟨-, -, -, ⟨nv, a, rest, -, -, -, -, c1, c2, c3⟩⟩ := (linux_open order path _ []).2.2 o hr1
    by_cases hsg : SgAccepts (a :: rest)
    · have := (c1 hsg).2.2.1
      rw [hd] at this
      simp at this
    · by_cases hnv : NvmeAccepts nv
      · have := (c2 hsg hnv).2.2.1
        rw [hd] at this
        simp only [Option.some.injEq, Driver.mk.injEq, true_and] at this
        rw [this, delivered_length, zeros_length]
        exact Nat.le_refl _
      · have := (c3 hsg hnv).1
        rw [hd] at this
        simp at this
  have hr2 := linuxStep_at (openByPath 2 order path) (openByPath_within order path) (OutT.upperEnv sysCall env {} h) []
  have hr3 : (OutT.run (OutT.upperEnv linuxStep (OutT.upperEnv sysCall env {} h) {} []) [] (openByPath 2 order path)).1
      = .ret (.ok o) := hr2.symm.trans hr1
  obtain ⟨r, H', e, h0, y1, y2, y3, y4⟩ := open_first hr3 ho
  have hdr : r.driver = { ata := false, nvme := true, identity := id } := by
    rw [hd] at y3
    simpa using y3.symm
  rw [hdr] at y1
  obtain ⟨h1, z0, z⟩ := init_announced hc h y1 hid y2 H'
  rw [y4] at z0
  simp only [Out.ret.injEq, Prod.mk.injEq] at z0
  rw [← z0.1] at z
  obtain ⟨z1, z2⟩ := z o.tcgDevice rfl
  refine ⟨hkind, z1, z2, ?_⟩
  refine OutT.run_quiet (A := fun q => ¬ TouchesTcg fd dr.comId q) (fun h q hq => hc.other h q hq) _ h ?_
  obtain ⟨e1, e2⟩ := OutT.interp_chunks (A := fun _ => True) (B := fun _ _ => True) sysCall env {} h
    (fun q _ h => ⟨_, by unfold sysCall; rw [OutT.run_ask_bind]; rfl, trivial⟩) (p := linuxOpenByPath order path)
    (OutT.within_any _)
  have hro := linux_open_reads_only order path (OutT.upperEnv sysCall env {} h) []
  generalize (OutT.run (OutT.upperEnv sysCall env {} h) [] (linuxOpenByPath order path)).2 = T at e2 hro
  generalize (OutT.run env h (OutT.interp sysCall (linuxOpenByPath order path))).2 = t at e2
  clear e1 hs hr1 hr2 hr3 hr
  induction e2 with
  | nil => intro x hx; cases hx
  | @cons q r hh c T t hcc ht ih =>
    intro x hx
    unfold sysCall at hcc
    rw [OutT.run_ask_bind] at hcc
    simp only [OutT.run_ret, Prod.mk.injEq, Out.ret.injEq] at hcc
    obtain ⟨-, rfl⟩ := hcc
    rcases List.mem_append.1 hx with hx | hx
    · simp only [List.mem_singleton] at hx
      rw [hx]
      exact reads_not_tcg hc.reserved (hro (q, r) List.mem_cons_self)
    · exact ih (fun x hx => hro x (List.mem_cons_of_mem _ hx)) x hx

/-! ## Opening succeeds -/

theorem OutT.run_bind_fst {Q R α β : Type} {env : Prog.Env Q R} {h : Prog.Trace Q R} {p : OutT Q R α} {f : α → OutT Q R β}
    {a : α} (hp : (OutT.run env h p).1 = .ret a) :
    (OutT.run env h (p >>= f)).1 = (OutT.run env (h ++ (OutT.run env h p).2) (f a)).1 := by
  rw [OutT.run_bind_ret env h (Prod.ext hp rfl)]

theorem OutT.run_mem {Q R α : Type} (env : Prog.Env Q R) (p : OutT Q R α) (h : Prog.Trace Q R) (x : Q × R)
    (hx : x ∈ (OutT.run env h p).2) : ∃ h', x.2 = env h' x.1 := by
  obtain ⟨t₁, t₂, ht⟩ := List.append_of_mem hx
  exact ⟨h ++ t₁, OutT.run_answers env p h t₁ t₂ x.1 x.2 ht⟩

theorem readBasicInfo_total (fd : Nat) (path : Bytes) : OutT.Total (fun _ => True) (readBasicInfo fd path) := by
  unfold readBasicInfo
  refine OutT.total_ask_bind (fun d => ?_)
  split
  · exact OutT.total_ret trivial
  · refine OutT.total_ask_bind (fun s => OutT.total_ask_bind (fun z => OutT.total_ask_bind (fun g => ?_)))
    split
    · exact OutT.total_ret trivial
    · refine OutT.total_bind (C := fun _ => True) ?_ (fun b _ => OutT.total_ret trivial)
      unfold basicTable
      split
      · exact OutT.total_ret trivial
      · exact OutT.total_ret trivial
      · refine OutT.total_bind (C := fun _ => True) (OutT.total_interp _ (fun q => OutT.total_ask_bind (fun _ => OutT.total_ret trivial)) ?_) ?_
        · unfold mbrRead
          refine OutT.total_ask_bind (fun r => ?_)
          split
          · exact OutT.total_ret trivial
          · split <;> exact OutT.total_ret trivial
        · intro r _
          split <;> exact OutT.total_ret trivial

theorem idEntries_total (names : List Bytes) : ∀ m, OutT.Total (fun r => r ≠ .panic) (idEntries names m) := by
  induction names with
  | nil => intro m; exact OutT.total_ret (by simp)
  | cons x xs ih =>
    intro m
    unfold idEntries
    split
    · exact ih m
    · refine OutT.total_ask_bind (fun r => ?_)
      split
      · exact OutT.total_ret (by simp)
      · exact ih _

theorem getIdInfo_total (order : List (Bytes × Bytes) → List (Bytes × Bytes)) (path : Bytes) :
    OutT.Total (fun _ => True) (getIdInfo order path) := by
  unfold getIdInfo
  refine OutT.total_ask_bind (fun d => ?_)
  split
  · exact OutT.total_ret trivial
  · refine OutT.total_bind (idEntries_total _ _) (fun r hr => ?_)
    split
    · exact absurd rfl hr
    · exact OutT.total_ret trivial
    · exact OutT.total_ask_bind (fun v => OutT.total_ask_bind (fun r => OutT.total_ret trivial))

/-- The first driver's answer on such a node, and the second's. -/
theorem node_drivers {fd : Nat} {path : Bytes} {env : Prog.Env AReq ARep} (hn : NvmeNode fd path env)
    (h : Prog.Trace AReq ARep) (H : Prog.Trace FReq FRep) :
    (∃ r id, OutT.upperEnv linuxStep (OutT.upperEnv sysCall env {} h) {} [] H (.tryDriver 0 fd) = r ∧ r.err = none ∧
      r.driver = { ata := false, nvme := true, identity := id } ∧ 4096 ≤ id.length) ∧
    (OutT.upperEnv linuxStep (OutT.upperEnv sysCall env {} h) {} [] H (.tryDriver 1 fd)).err ≠ none := by
  obtain ⟨E, hE⟩ : ∃ E, E = OutT.upperEnv sysCall env {} h := ⟨_, rfl⟩
  have hEq : ∀ H q, ∃ h', E H q = (env h' (.sys q)).sys := fun H q => by rw [hE]; exact ⟨_, rfl⟩
  rw [← hE]
  obtain ⟨g, hg⟩ : ∃ g, g = OutT.lowered linuxStep E [] H := ⟨_, rfl⟩
  constructor
  · obtain ⟨r, c, hr, hf⟩ := try_nv_facts fd E g
    have ha : OutT.upperEnv linuxStep E {} [] H (.tryDriver 0 fd) = r := by
      unfold OutT.upperEnv OutT.answer
      rw [← hg, show linuxStep (.tryDriver 0 fd) = tryNv fd from rfl, hr]
    obtain ⟨a, f1, f2, f3⟩ := hf.nv fd rfl
    have hacc : NvmeAccepts a := by
      have hm : (fd, a) ∈ nvmeIdentifies c := by rw [f1]; simp
      unfold nvmeIdentifies at hm
      rw [List.mem_filterMap] at hm
      obtain ⟨⟨q, rep⟩, hx, hy⟩ := hm
      cases q with
      | nvme fd' op k buf =>
        simp only at hy
        split at hy
        · rename_i hop
          cases hy
          obtain ⟨h', hh⟩ := OutT.run_mem E _ g _ (show (LReq.nvme fd op k buf, rep) ∈ (OutT.run E g (tryNv fd)).2 by rw [hr]; exact hx)
          obtain ⟨h'', hh2⟩ := hEq h' (.nvme fd op k buf)
          have := hn.identifies h'' op k buf (by simpa using hop)
          simp only at hh
          rw [hh, hh2]
          exact this
        · cases hy
      | _ => cases hy
    have he := f2.2 hacc
    exact ⟨r, _, ha, he, f3 he, by rw [delivered_length, zeros_length]; exact Nat.le_refl _⟩
  · obtain ⟨r, c, hr, hf⟩ := try_sg_facts fd E g
    have ha : OutT.upperEnv linuxStep E {} [] H (.tryDriver 1 fd) = r := by
      unfold OutT.upperEnv OutT.answer
      rw [← hg, show linuxStep (.tryDriver 1 fd) = trySg fd from rfl, hr]
    rw [ha]
    obtain ⟨a, rest, f1, -, -, f2, -⟩ := hf.sg fd rfl
    intro he
    obtain ⟨⟨x, hx, hxe⟩, -⟩ := f2.1 he
    have hm : (fd, x) ∈ ataIdentifies c := by rw [f1]; exact List.mem_map_of_mem hx
    unfold ataIdentifies at hm
    rw [List.mem_filterMap] at hm
    obtain ⟨⟨q, rep⟩, hx', hy⟩ := hm
    cases q with
    | sgIo fd' k =>
      simp only at hy
      split at hy
      · cases hy
        obtain ⟨h', hh⟩ := OutT.run_mem E _ g _ (show (LReq.sgIo fd k, rep) ∈ (OutT.run E g (trySg fd)).2 by rw [hr]; exact hx')
        obtain ⟨h'', hh2⟩ := hEq h' (.sgIo fd k)
        simp only at hh
        rw [hh, hh2] at hxe
        exact hn.noSg h'' k hxe
      · cases hy
    | _ => cases hy

/-- Opening a conforming NVMe drive succeeds. -/
theorem open_succeeds {fd : Nat} {dr : Drive} {W : Nat} {env : Prog.Env AReq ARep} {st : Prog.Trace AReq ARep → DriveState}
    (hc : NvmeConforming fd dr W env st) {path : Bytes} (hn : NvmeNode fd path env)
    (order : List (Bytes × Bytes) → List (Bytes × Bytes)) (h : Prog.Trace AReq ARep) :
    ∃ o, (OutT.run env h (OutT.interp sysCall (linuxOpenByPath order path))).1 = .ret (.ok o) ∧
      o.source = some (0, fd) := by
  have hs := sysCall_at (linuxOpenByPath order path) env h []
  rw [show OutT.lowered sysCall env h [] = h from rfl] at hs
  have hr2 := linuxStep_at (openByPath 2 order path) (openByPath_within order path) (OutT.upperEnv sysCall env {} h) []
  rw [hs]
  show ∃ o, (OutT.run _ [] (onLinux (openByPath 2 order path))).1 = _ ∧ _
  rw [show OutT.lowered linuxStep (OutT.upperEnv sysCall env {} h) [] [] = [] from rfl] at hr2
  rw [hr2]
  have hd := fun H => node_drivers hn h H
  have hi := fun h0 id a b c H => init_announced (h0 := h0) (id := id) hc h a b c H
  have ho : OutT.upperEnv linuxStep (OutT.upperEnv sysCall env {} h) {} [] [] (.openDev path) =
      (env h (.sys (.os (.openDev path)))).sys.os := rfl
  generalize OutT.upperEnv linuxStep (OutT.upperEnv sysCall env {} h) {} [] = E2 at hd hi ho
  clear hr2 hs
  unfold openByPath
  rw [OutT.run_ask_bind, ho]
  obtain ⟨o1, o2⟩ := hn.opens h
  simp only [o1, o2]
  have hfst : ∀ (H : Prog.Trace FReq FRep), ∃ o, (OutT.run E2 H (openByFd 2 order fd path)).1 = .ret (o, none) ∧
      o.source = some (0, fd) := by
    intro H
    unfold openByFd
    obtain ⟨b, hb, -⟩ := OutT.total_run (readBasicInfo_total fd path) E2 H
    rw [OutT.run_bind_fst hb]
    obtain ⟨⟨idi, ie⟩, hid, -⟩ := OutT.total_run (getIdInfo_total order path) E2 (H ++ (OutT.run E2 H (readBasicInfo fd path)).2)
    rw [OutT.run_bind_fst hid]
    dsimp only
    generalize H ++ (OutT.run E2 H (readBasicInfo fd path)).2 ++ _ = H1
    have hlv : (basicOpened path b idi).handle.info.level0 = {} := by unfold basicOpened; cases b <;> rfl
    generalize basicOpened path b idi = before at hlv
    suffices hh : ∃ o, (OutT.run E2 H1 (tryDrivers fd 2 0 before)).1 = .ret o ∧ o.source = some (0, fd) by
      obtain ⟨o, ho, hsrc⟩ := hh
      rw [OutT.run_bind_fst ho]
      exact ⟨o, rfl, hsrc⟩
    obtain ⟨⟨r, id, d1, d2, d3, d4⟩, -⟩ := hd H1
    rw [tryDrivers, OutT.run_ask_bind, d1]
    simp only [d2]
    generalize H1 ++ [(FReq.tryDriver 0 fd, r)] = H2
    have ht : ∃ n, (OutT.run E2 H2 (onDriver 0 fd ({ before.handle with dh := some r.driver } : Handle).getDrivingType)).1
        = .ret n := by rw [onDriver_at]; exact ⟨_, rfl⟩
    obtain ⟨n, ht⟩ := ht
    rw [OutT.run_bind_fst ht]
    generalize H2 ++ (OutT.run E2 H2 _).2 = H3
    have hm : ∃ n, (OutT.run E2 H3 (onDriver 0 fd ({ before.handle with dh := some r.driver } : Handle).getDriverName)).1
        = .ret n := by rw [onDriver_at]; exact ⟨_, rfl⟩
    obtain ⟨nm, hm⟩ := hm
    rw [OutT.run_bind_fst hm]
    generalize H3 ++ (OutT.run E2 H3 _).2 = H4
    obtain ⟨h1, hi1, -⟩ := hi { before.handle with dh := some r.driver } id (by simp only [d3]) d4 hlv H4
    rw [OutT.run_bind_fst hi1]
    dsimp only
    generalize H4 ++ (OutT.run E2 H4 _).2 = H5
    rw [tryDrivers, OutT.run_ask_bind]
    have := (hd H5).2
    obtain ⟨r1, hr1⟩ : ∃ r1, r1 = E2 H5 (.tryDriver (0 + 1) fd) := ⟨_, rfl⟩
    rw [← hr1]
    cases he : r1.err with
    | none => rw [hr1] at he; exact absurd he this
    | some e =>
      simp only [tryDrivers]
      exact ⟨_, rfl, rfl⟩
  obtain ⟨o, ho, hsrc⟩ := hfst ([] ++ [(.openDev path, (env h (.sys (.os (.openDev path)))).sys.os)])
  rw [OutT.run_bind_fst ho]
  exact ⟨o, rfl, hsrc⟩

end Dparm
