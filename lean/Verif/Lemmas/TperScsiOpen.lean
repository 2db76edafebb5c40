import Verif.Lemmas.TperScsi
/-!
# Lemmas: the drive the Linux factory returns for a conforming SCSI drive
-/
namespace Dparm
open Spec

/-- If the second driver's handle is returned and the first refused, it is the result of `Init` on it. -/
theorem tryDrivers_second {env : Prog.Env FReq FRep} {H : Prog.Trace FReq FRep} {fd fd' : Nat} {before o : Opened}
    (hb : before.source = none) (h : (OutT.run env H (tryDrivers fd 2 0 before)).1 = .ret o)
    (ho : o.source = some (1, fd')) (hno : ∀ H, (env H (.tryDriver 0 fd')).err ≠ none) :
    fd' = fd ∧ ∃ (r : FRep) (H' : Prog.Trace FReq FRep) (e : Option GoErr), o.handle.dh = some r.driver ∧
      (OutT.run env H' (onDriver 1 fd ({ before.handle with dh := some r.driver } : Handle).init)).1 = .ret (o.handle, e) := by
  have hone : ∀ (H : Prog.Trace FReq FRep) (b : Opened), b.source ≠ some (1, fd') →
      (OutT.run env H (tryDrivers fd 1 1 b)).1 = .ret o →
      fd' = fd ∧ ∃ (r : FRep) (H' : Prog.Trace FReq FRep) (e : Option GoErr), o.handle.dh = some r.driver ∧
      (OutT.run env H' (onDriver 1 fd ({ b.handle with dh := some r.driver } : Handle).init)).1 = .ret (o.handle, e) := by
    intro H b hbs h
    rw [tryDrivers, OutT.run_ask_bind] at h
    obtain ⟨r, hr⟩ : ∃ r, r = env H (.tryDriver 1 fd) := ⟨_, rfl⟩
    rw [← hr] at h
    cases he : r.err with
    | some e =>
      simp only [he] at h
      simp only [tryDrivers, OutT.run_ret, Out.ret.injEq] at h
      rw [← h] at ho
      exact absurd ho hbs
    | none =>
      simp only [he] at h
      obtain ⟨a1, -, h, -⟩ := OutT.run_bind_cases h
      obtain ⟨a2, -, h, -⟩ := OutT.run_bind_cases h
      obtain ⟨⟨a3, a3'⟩, h3, h, -⟩ := OutT.run_bind_cases h
      simp only [tryDrivers, OutT.run_ret, Out.ret.injEq] at h
      have hhd : o.handle = a3 := by rw [← h]
      refine ⟨by rw [← h] at ho; simpa using ho.symm, r, _, a3', ?_, by rw [hhd]; exact h3⟩
      rw [hhd]
      exact OutT.returns_run (onDriver_returns 1 fd (init_returns_dh _)) _ _ _ h3
  rw [tryDrivers, OutT.run_ask_bind] at h
  obtain ⟨r, hr⟩ : ∃ r, r = env H (.tryDriver 0 fd) := ⟨_, rfl⟩
  rw [← hr] at h
  cases he : r.err with
  | some e =>
    simp only [he] at h
    exact hone _ _ (by rw [hb]; simp) h
  | none =>
    simp only [he] at h
    obtain ⟨a1, -, h, -⟩ := OutT.run_bind_cases h
    obtain ⟨a2, -, h, -⟩ := OutT.run_bind_cases h
    obtain ⟨⟨a3, a3'⟩, h3, h, -⟩ := OutT.run_bind_cases h
    obtain ⟨hfd, -⟩ := hone _ _ (by simp) h
    rw [hr, ← hfd] at he
    exact absurd he (hno _)

/-- What opening found, when the SCSI driver's handle is the one returned. -/
theorem open_second {env : Prog.Env FReq FRep} {order : List (Bytes × Bytes) → List (Bytes × Bytes)} {path : Bytes}
    {o : Opened} {fd : Nat} (h : (OutT.run env [] (openByPath 2 order path)).1 = .ret (.ok o))
    (ho : o.source = some (1, fd)) (hno : ∀ H, (env H (.tryDriver 0 fd)).err ≠ none) :
    ∃ (r : FRep) (H' : Prog.Trace FReq FRep) (e : Option GoErr) (h0 : Handle), h0.dh = some r.driver ∧
      h0.info.level0 = {} ∧ o.handle.dh = some r.driver ∧
      (OutT.run env H' (onDriver 1 fd h0.init)).1 = .ret (o.handle, e) := by
  unfold openByPath at h
  rw [OutT.run_ask_bind] at h
  obtain ⟨r, hr⟩ : ∃ r, r = env [] (.openDev path) := ⟨_, rfl⟩
  rw [← hr] at h
  cases he : r.err with
  | some e => simp only [he] at h; simp at h
  | none =>
    simp only [he] at h
    obtain ⟨⟨o1, e1⟩, h1, h, -⟩ := OutT.run_bind_cases h
    unfold openByFd at h1
    obtain ⟨b, -, h1, -⟩ := OutT.run_bind_cases h1
    obtain ⟨⟨idi, ie⟩, -, h1, -⟩ := OutT.run_bind_cases h1
    obtain ⟨o2, h2, h1, -⟩ := OutT.run_bind_cases h1
    simp only [OutT.run_ret, Out.ret.injEq, Prod.mk.injEq] at h1
    obtain ⟨rfl, rfl⟩ := h1
    simp only [OutT.run_ret, Out.ret.injEq, Res.ok.injEq] at h
    subst h
    have hb : (basicOpened path b idi).source = none := by unfold basicOpened; cases b <;> rfl
    have hlv : (basicOpened path b idi).handle.info.level0 = {} := by unfold basicOpened; cases b <;> rfl
    obtain ⟨rfl, r1, H', e, x1, x2⟩ := tryDrivers_second hb h2 ho hno
    exact ⟨r1, H', e, { (basicOpened path b idi).handle with dh := some r1.driver }, rfl, hlv, x1, x2⟩

/-- The NVMe driver refuses a descriptor on which NVMe ioctls fail. -/
theorem nvme_refuses {fd : Nat} {env : Prog.Env AReq ARep}
    (hno : ∀ h op k buf, (env h (.sys (.nvme fd op k buf))).sys.nv.errno ≠ 0) (h : Prog.Trace AReq ARep)
    (H : Prog.Trace FReq FRep) :
    (OutT.upperEnv linuxStep (OutT.upperEnv sysCall env {} h) {} [] H (.tryDriver 0 fd)).err ≠ none := by
  obtain ⟨E, hE⟩ : ∃ E, E = OutT.upperEnv sysCall env {} h := ⟨_, rfl⟩
  have hEq : ∀ H q, ∃ h', E H q = (env h' (.sys q)).sys := fun H q => by rw [hE]; exact ⟨_, rfl⟩
  rw [← hE]
  obtain ⟨g, hg⟩ : ∃ g, g = OutT.lowered linuxStep E [] H := ⟨_, rfl⟩
  obtain ⟨r, c, hr, hf⟩ := try_nv_facts fd E g
  have ha : OutT.upperEnv linuxStep E {} [] H (.tryDriver 0 fd) = r := by
    unfold OutT.upperEnv OutT.answer
    rw [← hg, show linuxStep (.tryDriver 0 fd) = tryNv fd from rfl, hr]
  rw [ha]
  obtain ⟨a, f1, f2, f3⟩ := hf.nv fd rfl
  intro he
  have hacc := f2.1 he
  have hm : (fd, a) ∈ nvmeIdentifies c := by rw [f1]; simp
  unfold nvmeIdentifies at hm
  rw [List.mem_filterMap] at hm
  obtain ⟨⟨q, rep⟩, hx, hy⟩ := hm
  cases q with
  | nvme fd' op k buf =>
    simp only at hy
    split at hy
    · cases hy
      obtain ⟨h', hh⟩ := OutT.run_mem E _ g _ (show (LReq.nvme fd op k buf, rep) ∈ (OutT.run E g (tryNv fd)).2 by rw [hr]; exact hx)
      obtain ⟨h'', hh2⟩ := hEq h' (.nvme fd op k buf)
      simp only at hh
      rw [hh, hh2] at hacc
      exact hno h'' op k buf hacc.1
    · cases hy
  | _ => cases hy

/-- `Init` on the SCSI handle of a conforming drive keeps what discovery announced. -/
theorem init_announced_scsi {fd : Nat} {dr : Drive} {W : Nat} {env : Prog.Env AReq ARep}
    {st : Prog.Trace AReq ARep → DriveState} (hc : ScsiConforming fd dr W env st) (h : Prog.Trace AReq ARep) {h0 : Handle}
    {id : Bytes} (hd : h0.dh = some { ata := true, nvme := false, identity := id }) (hid : 512 ≤ id.length)
    (hl : h0.info.level0 = {}) (H' : Prog.Trace FReq FRep) :
    ∃ h1, (OutT.run (OutT.upperEnv linuxStep (OutT.upperEnv sysCall env {} h) {} []) H' (onDriver 1 fd h0.init)).1 =
      .ret (h1, none) ∧ ∀ dev, dev = newTcgDevice h1.getTcgLevel0InfoAndSerial.1 h1.getTcgLevel0InfoAndSerial.2 →
      (dev.kind = .opal1 ∨ dev.kind = .opal2) ∧ dev.baseComId = dr.comId := by
  obtain ⟨i1, i2, p1, p2, a1, -, -, b2⟩ := parts_ok h0 _ hd (fun _ => hid) (fun x => by simp at x)
  obtain ⟨i, hi2, hf, -⟩ := initAta_ok id h0.info hid
  have hii : i = i1 := by
    have := a1 rfl
    rw [show ({ ata := true, nvme := false, identity := id } : Driver).identity = id from rfl, hi2] at this
    simpa using this
  subst hii
  have hi3 : i2 = i := b2 rfl
  subst hi3
  have hlev : i2.level0 = {} := by rw [hf.keptLevel0, hl]
  rw [onDriver_at, init_parts _ _ p1 p2]
  obtain ⟨hh, hhh⟩ : ∃ hh : Handle, hh = { h0 with info := Handle.makeMap i2 } := ⟨_, rfl⟩
  rw [← hhh]
  have hdh : hh.dh = some { ata := true, nvme := false, identity := id } := by rw [hhh]; exact hd
  obtain ⟨E, hE⟩ : ∃ E, E = OutT.upperEnv sysCall env {} h := ⟨_, rfl⟩
  have hsec : ∃ r t, discoveryRun hh (OutT.upperEnv (drvAsk 1 fd) (OutT.upperEnv linuxStep E {} []) {} H') [] = (.ret r, t) ∧
      r.err = none ∧ AnnouncesOpal dr.comId r.data := by
    have hz : zeros Handle.discoverySize ≠ [] := by
      intro hx; have := congrArg List.length hx; rw [zeros_length] at this; cases this
    obtain ⟨rep, q, a1, a, hrun, x1, x2, hq, hm, hk, he, hdat⟩ :=
      scsi_once (o := { handle := hh, source := some (1, fd) }) ⟨rfl, id, hdh⟩ false 1
      (zeros Handle.discoverySize) 3 hz (by rw [zeros_length]; decide) env
      (OutT.lowered sysCall env h (OutT.lowered linuxStep E [] H'))
      (fun q hq hm => by
        rw [show zeros Handle.discoverySize = zeros 2048 from rfl, zeros_length] at hq hm
        exact (hc.discovery _ q hq hm).1)
    have hrun1 := congrArg Prod.fst hrun
    have hqq : (OutT.run env (OutT.lowered sysCall env h (OutT.lowered linuxStep E [] H'))
        (OutT.interp sysCall (onLinux (onDriver 1 fd (hh.securityCommand false false 1 1 (zeros Handle.discoverySize) 3))))).1
        = .ret rep := hrun1
    rw [sysCall_at, ← hE, linuxStep_at _ (OutT.within_of_asks (onDriver_fOk (securityCommand_drvOk hh
      ⟨_, hdh, by decide, rfl, rfl⟩ _ _ (zeros_length _)))), onDriver_at] at hqq
    rw [show zeros Handle.discoverySize = zeros 2048 from rfl, zeros_length] at hq hm hdat
    obtain ⟨-, d2⟩ := hc.discovery _ q hq hm
    rw [← x2] at d2
    refine ⟨_, _, Prod.ext hqq rfl, he, ?_⟩
    have hlen : a.sys.sg.data.length = 2048 := d2.choose_spec.1
    have hdat' : rep.data = delivered (zeros 2048) a.sys.sg.data := hdat
    rw [hdat', delivered_zeros _ (by omega), hlen, Nat.sub_self, show zeros 0 = [] from rfl, List.append_nil]
    exact d2
  obtain ⟨r, t, hr, he, hann⟩ := hsec
  have hfresh : Spec.Fresh hh.info.level0 := by
    rw [hhh]
    show Spec.Fresh (Handle.makeMap i2).level0
    rw [show (Handle.makeMap i2).level0 = { i2.level0 with raw := fun _ => none, made := true } from rfl, hlev]
    exact ⟨rfl, by decide, fun _ => rfl⟩
  obtain ⟨h', x1, x2⟩ := announces_device hfresh hr he hann
  rw [← hE]
  rcases hdd : OutT.run (OutT.upperEnv (drvAsk 1 fd) (OutT.upperEnv linuxStep E {} []) {} H') [] hh.tcgDiscovery0 with ⟨oo, tt⟩
  rw [hdd] at x1
  simp only at x1
  rw [x1]
  exact ⟨h', rfl, x2⟩

theorem satDecode_op {cdb : Bytes} {s : Sat} (hs : satDecode cdb = some s) : cdb[0]? ≠ some 0xa2 ∧ cdb[0]? ≠ some 0xb5 := by
  refine ⟨fun hx => ?_, satDecode_opcode hs⟩
  revert hs
  unfold satDecode
  split
  · have := Option.some.inj hx
    subst this
    simp
  · have := Option.some.inj hx
    subst this
    simp
  · simp

theorem reads_not_tcg_scsi {fd : Nat} {comId : BitVec 16} (hne : comId ≠ 1) {q : LReq} (h : ReadsOnly q) :
    ¬ TouchesTcgScsi fd comId (.sys q) := by
  have hn1 : comId.toNat ≠ 1 := fun e => hne (BitVec.eq_of_toNat_eq e)
  cases q with
  | sgIo fd' q =>
    rintro ⟨-, hop⟩
    have hb5 : ∀ s, satDecode q.cdb = some s → ¬ (q.cdb[0]? = some 0xa2 ∨ q.cdb[0]? = some 0xb5) := by
      rintro s hs (hx | hx)
      · exact (satDecode_op hs).1 hx
      · exact (satDecode_op hs).2 hx
    rcases h.2 with ⟨s, hs, hcmd, -⟩ | ⟨s, hs, hcmd, -, -, hf, hm, hhh⟩ | htk
    · rcases hop with ⟨hx, -⟩ | ⟨s', hs', h1, h2, -⟩
      · exact hb5 s hs hx
      · rw [hs] at hs'; cases hs'
        rw [hcmd] at h2
        exact absurd h2 (by decide)
    · rcases hop with ⟨hx, -⟩ | ⟨s', hs', h1, h2, -, h3⟩
      · exact hb5 s hs hx
      · rw [hs] at hs'; cases hs'
        rw [hm, hhh] at h3
        omega
    · have hdrop : q.cdb = [0xa2, 1, 0, 1] ++ q.cdb.drop 4 := by rw [← htk, List.take_append_drop]
      rcases hop with ⟨-, -, hx⟩ | ⟨s, hs, -⟩
      · rw [hdrop] at hx
        have : beVal (slice ([0xa2, 1, 0, 1] ++ q.cdb.drop 4 : Bytes) 2 2) = 1 := by
          rw [show slice ([0xa2, 1, 0, 1] ++ q.cdb.drop 4 : Bytes) 2 2 = [0, 1] from rfl]; decide
        omega
      · exact hb5 s hs (by rw [hdrop]; exact .inl rfl)
  | _ => exact fun x => x

/-- Opening a conforming SCSI drive: what the TCG layer then works with; the drive's state is untouched. -/
theorem open_conforming' {fd : Nat} {dr : Drive} {W : Nat} {env : Prog.Env AReq ARep} {st : Prog.Trace AReq ARep → DriveState}
    (hc : ScsiConforming fd dr W env st) (order : List (Bytes × Bytes) → List (Bytes × Bytes)) (path : Bytes)
    (h : Prog.Trace AReq ARep) (o : Opened)
    (hr : (OutT.run env h (OutT.interp sysCall (linuxOpenByPath order path))).1 = .ret (.ok o))
    (ho : o.source = some (1, fd)) :
    ScsiDrive o fd ∧ (o.tcgDevice.kind = .opal1 ∨ o.tcgDevice.kind = .opal2) ∧ o.tcgDevice.baseComId = dr.comId ∧
    st (h ++ (OutT.run env h (OutT.interp sysCall (linuxOpenByPath order path))).2) = st h := by
  have hr1 := hr
  have hs := sysCall_at (linuxOpenByPath order path) env h []
  rw [show OutT.lowered sysCall env h [] = h from rfl] at hs
  rw [hs] at hr1
  have hkind : ScsiDrive o fd := by
    rcases linux_open_kinds order path _ [] o hr1 with hk | hk | hk
    · have := hk.1
      rw [ho] at this
      simp at this
    · have := hk.1
      rw [ho] at this
      simp only [Option.some.injEq, Prod.mk.injEq, true_and] at this
      rw [this]; exact hk
    · have := hk.1
      rw [ho] at this
      simp at this
  obtain ⟨-, id, hd⟩ := id hkind
  have hid : 512 ≤ id.length := by
    obtain ⟨-, -, -, ⟨nv, a, rest, -, -, -, -, c1, c2, c3⟩⟩ := (linux_open order path _ []).2.2 o hr1
    by_cases hsg : SgAccepts (a :: rest)
    · have := (c1 hsg).2.2.1
      rw [hd] at this
      simp only [Option.some.injEq, Driver.mk.injEq, true_and] at this
      rw [this, delivered_length, zeros_length]
      exact Nat.le_refl _
    · by_cases hnv : NvmeAccepts nv
      · have := (c2 hsg hnv).2.2.1
        rw [hd] at this
        simp at this
      · have := (c3 hsg hnv).1
        rw [hd] at this
        simp at this
  have hr2 := linuxStep_at (openByPath 2 order path) (openByPath_within order path) (OutT.upperEnv sysCall env {} h) []
  have hr3 : (OutT.run (OutT.upperEnv linuxStep (OutT.upperEnv sysCall env {} h) {} []) [] (openByPath 2 order path)).1
      = .ret (.ok o) := hr2.symm.trans hr1
  obtain ⟨r, H', e, h0, y1, y2, y3, y4⟩ := open_second hr3 ho (nvme_refuses hc.noNvme h)
  have hdr : r.driver = { ata := true, nvme := false, identity := id } := by
    rw [hd] at y3
    simpa using y3.symm
  rw [hdr] at y1
  obtain ⟨h1, z0, z⟩ := init_announced_scsi hc h y1 hid y2 H'
  rw [y4] at z0
  simp only [Out.ret.injEq, Prod.mk.injEq] at z0
  rw [← z0.1] at z
  obtain ⟨z1, z2⟩ := z o.tcgDevice rfl
  refine ⟨hkind, z1, z2, ?_⟩
  refine OutT.run_quiet (A := fun q => ¬ TouchesTcgScsi fd dr.comId q) (fun h q hq => hc.other h q hq) _ h ?_
  obtain ⟨e1, e2⟩ := OutT.interp_chunks (A := fun _ => True) (B := fun _ _ => True) sysCall env {} h
    (fun q _ h => ⟨_, by unfold sysCall; rw [OutT.run_ask_bind]; rfl, trivial⟩) (p := linuxOpenByPath order path)
    (OutT.within_any _)
  have hro := linux_open_reads_only order path (OutT.upperEnv sysCall env {} h) []
  generalize (OutT.run (OutT.upperEnv sysCall env {} h) [] (linuxOpenByPath order path)).2 = T at e2 hro
  generalize (OutT.run env h (OutT.interp sysCall (linuxOpenByPath order path))).2 = t at e2
  clear e1 hs hr1 hr2 hr3 hr
  induction e2 with
  | nil => intro x hx; cases hx
  | @cons q r hh c T t hcc ht ih =>
    intro x hx
    unfold sysCall at hcc
    rw [OutT.run_ask_bind] at hcc
    simp only [OutT.run_ret, Prod.mk.injEq, Out.ret.injEq] at hcc
    obtain ⟨-, rfl⟩ := hcc
    rcases List.mem_append.1 hx with hx | hx
    · simp only [List.mem_singleton] at hx
      rw [hx]
      exact reads_not_tcg_scsi hc.reserved (hro (q, r) List.mem_cons_self)
    · exact ih (fun x hx => hro x (List.mem_cons_of_mem _ hx)) x hx

/-- The second driver accepts such a node. -/
theorem node_accepts {fd : Nat} {path : Bytes} {env : Prog.Env AReq ARep} (hn : ScsiNode fd path env)
    (h : Prog.Trace AReq ARep) (H : Prog.Trace FReq FRep) :
    ∃ r id, OutT.upperEnv linuxStep (OutT.upperEnv sysCall env {} h) {} [] H (.tryDriver 1 fd) = r ∧ r.err = none ∧
      r.driver = { ata := true, nvme := false, identity := id } ∧ 512 ≤ id.length := by
  obtain ⟨E, hE⟩ : ∃ E, E = OutT.upperEnv sysCall env {} h := ⟨_, rfl⟩
  have hEq : ∀ H q, ∃ h', E H q = (env h' (.sys q)).sys := fun H q => by rw [hE]; exact ⟨_, rfl⟩
  rw [← hE]
  obtain ⟨g, hg⟩ : ∃ g, g = OutT.lowered linuxStep E [] H := ⟨_, rfl⟩
  obtain ⟨r, c, hr, hf⟩ := try_sg_facts fd E g
  have ha : OutT.upperEnv linuxStep E {} [] H (.tryDriver 1 fd) = r := by
    unfold OutT.upperEnv OutT.answer
    rw [← hg, show linuxStep (.tryDriver 1 fd) = trySg fd from rfl, hr]
  obtain ⟨a, rest, f1, -, -, f2, f3⟩ := hf.sg fd rfl
  have hacc : a.err = none ∧ a.sense = [] := by
    have hm : (fd, a) ∈ ataIdentifies c := by rw [f1]; simp
    unfold ataIdentifies at hm
    rw [List.mem_filterMap] at hm
    obtain ⟨⟨q, rep⟩, hx', hy⟩ := hm
    cases q with
    | sgIo fd' k =>
      simp only at hy
      split at hy
      · rename_i hat
        cases hy
        obtain ⟨h', hh⟩ := OutT.run_mem E _ g _ (show (LReq.sgIo fd k, rep) ∈ (OutT.run E g (trySg fd)).2 by rw [hr]; exact hx')
        obtain ⟨h'', hh2⟩ := hEq h' (.sgIo fd k)
        simp only at hh
        rw [hh, hh2]
        exact hn.identifies h'' k hat
      · cases hy
    | _ => cases hy
  have he := f2.2 ⟨⟨a, List.mem_cons_self, hacc.1⟩, by rw [hacc.2]; decide⟩
  exact ⟨r, _, ha, he, f3 he, by rw [delivered_length, zeros_length]; exact Nat.le_refl _⟩

/-- Opening a conforming SCSI drive succeeds. -/
theorem open_succeeds' {fd : Nat} {dr : Drive} {W : Nat} {env : Prog.Env AReq ARep} {st : Prog.Trace AReq ARep → DriveState}
    (hc : ScsiConforming fd dr W env st) {path : Bytes} (hn : ScsiNode fd path env)
    (order : List (Bytes × Bytes) → List (Bytes × Bytes)) (h : Prog.Trace AReq ARep) :
    ∃ o, (OutT.run env h (OutT.interp sysCall (linuxOpenByPath order path))).1 = .ret (.ok o) ∧
      o.source = some (1, fd) := by
  have hs := sysCall_at (linuxOpenByPath order path) env h []
  rw [show OutT.lowered sysCall env h [] = h from rfl] at hs
  have hr2 := linuxStep_at (openByPath 2 order path) (openByPath_within order path) (OutT.upperEnv sysCall env {} h) []
  rw [hs]
  show ∃ o, (OutT.run _ [] (onLinux (openByPath 2 order path))).1 = _ ∧ _
  rw [show OutT.lowered linuxStep (OutT.upperEnv sysCall env {} h) [] [] = [] from rfl] at hr2
  rw [hr2]
  have hd := fun H => node_accepts hn h H
  have hrf := fun H => nvme_refuses hc.noNvme h H
  have hi := fun h0 id a b c H => init_announced_scsi (h0 := h0) (id := id) hc h a b c H
  have ho : OutT.upperEnv linuxStep (OutT.upperEnv sysCall env {} h) {} [] [] (.openDev path) =
      (env h (.sys (.os (.openDev path)))).sys.os := rfl
  generalize OutT.upperEnv linuxStep (OutT.upperEnv sysCall env {} h) {} [] = E2 at hd hi ho hrf
  clear hr2 hs
  unfold openByPath
  rw [OutT.run_ask_bind, ho]
  obtain ⟨o1, o2⟩ := hn.opens h
  simp only [o1, o2]
  have hfst : ∀ (H : Prog.Trace FReq FRep), ∃ o, (OutT.run E2 H (openByFd 2 order fd path)).1 = .ret (o, none) ∧
      o.source = some (1, fd) := by
    intro H
    unfold openByFd
    obtain ⟨b, hb, -⟩ := OutT.total_run (readBasicInfo_total fd path) E2 H
    rw [OutT.run_bind_fst hb]
    obtain ⟨⟨idi, ie⟩, hid, -⟩ := OutT.total_run (getIdInfo_total order path) E2 (H ++ (OutT.run E2 H (readBasicInfo fd path)).2)
    rw [OutT.run_bind_fst hid]
    dsimp only
    generalize H ++ (OutT.run E2 H (readBasicInfo fd path)).2 ++ _ = H1
    have hlv : (basicOpened path b idi).handle.info.level0 = {} := by unfold basicOpened; cases b <;> rfl
    generalize basicOpened path b idi = before at hlv
    suffices hh : ∃ o, (OutT.run E2 H1 (tryDrivers fd 2 0 before)).1 = .ret o ∧ o.source = some (1, fd) by
      obtain ⟨o, ho, hsrc⟩ := hh
      rw [OutT.run_bind_fst ho]
      exact ⟨o, rfl, hsrc⟩
    rw [tryDrivers, OutT.run_ask_bind]
    have h0e := hrf H1
    obtain ⟨r0, hr0⟩ : ∃ r0, r0 = E2 H1 (.tryDriver 0 fd) := ⟨_, rfl⟩
    rw [← hr0] at h0e ⊢
    cases he : r0.err with
    | none => exact absurd he h0e
    | some e =>
    simp only
    generalize H1 ++ [(FReq.tryDriver 0 fd, r0)] = H1'
    obtain ⟨r, id, d1, d2, d3, d4⟩ := hd H1'
    rw [tryDrivers, OutT.run_ask_bind, d1]
    simp only [d2]
    generalize H1' ++ [(FReq.tryDriver (0 + 1) fd, r)] = H2
    have ht : ∃ n, (OutT.run E2 H2 (onDriver (0 + 1) fd ({ before.handle with dh := some r.driver } : Handle).getDrivingType)).1
        = .ret n := by rw [onDriver_at]; exact ⟨_, rfl⟩
    obtain ⟨n, ht⟩ := ht
    rw [OutT.run_bind_fst ht]
    generalize H2 ++ (OutT.run E2 H2 _).2 = H3
    have hm : ∃ n, (OutT.run E2 H3 (onDriver (0 + 1) fd ({ before.handle with dh := some r.driver } : Handle).getDriverName)).1
        = .ret n := by rw [onDriver_at]; exact ⟨_, rfl⟩
    obtain ⟨nm, hm⟩ := hm
    rw [OutT.run_bind_fst hm]
    generalize H3 ++ (OutT.run E2 H3 _).2 = H4
    obtain ⟨h1, hi1, -⟩ := hi { before.handle with dh := some r.driver } id (by simp only [d3]) d4 hlv H4
    rw [OutT.run_bind_fst hi1]
    exact ⟨_, rfl, rfl⟩
  obtain ⟨o, ho, hsrc⟩ := hfst ([] ++ [(.openDev path, (env h (.sys (.os (.openDev path)))).sys.os)])
  rw [OutT.run_bind_fst ho]
  exact ⟨o, rfl, hsrc⟩

end Dparm
