import Verif.Lemmas.TperWin
import Verif.Lemmas.TperOpen
import Verif.Lemmas.WinCrash
import Verif.Props.WinSystem
/-!
# Lemmas: opening a conforming drive behind the Windows miniport driver
-/
namespace Dparm
open Spec

/-- The environment a program of Windows calls sees under the whole program. -/
abbrev winEnv (env : Prog.Env WAReq WARep) (h : Prog.Trace WAReq WARep) : Prog.Env WReq WRep := OutT.upperEnv winCall env {} h

theorem winEnv_eq (env : Prog.Env WAReq WARep) (h : Prog.Trace WAReq WARep) (H : Prog.Trace WReq WRep) (q : WReq) :
    winEnv env h H q = (env (OutT.lowered winCall env h H) (.sys q)).sys := by
  unfold winEnv OutT.upperEnv OutT.answer winCall
  rw [OutT.run_ask_bind]
  rfl

/-- Discovery's security command on a miniport handle, in Windows calls. -/
theorem discovery_miniport {hd sh : Nat} {addr base : Nat} {behind : Nat → Byte} {hh : Handle} {id : Bytes}
    (hdh : hh.dh = some { ata := false, nvme := true, identity := id }) (E : Prog.Env WReq WRep) (hist : Prog.Trace WReq WRep) :
    ∃ inb, IsMiniportSecurity false 1 1 (zeros 2048) inb ∧
      (OutT.run E hist (OutT.interp (winDrv (.nvmeWin hd sh) addr base behind)
        (hh.securityCommand false false 0x01 0x0001 (zeros Handle.discoverySize) 3))).1 =
        .ret { err := (E hist (.ioctl sh 0x4d008 inb 4248 none)).err,
               data := miniportGot (zeros 2048) inb (E hist (.ioctl sh 0x4d008 inb 4248 none)), behind := behind } := by
  obtain ⟨cmd, hcmd⟩ : ∃ cmd, cmd = securityNvme false 1 1 (zeros 2048) := ⟨_, rfl⟩
  have hfull : storeInto (zeros 2048) (zeros 2048) = zeros 2048 := storeInto_full _ _ rfl
  have hdl : cmd.dataLen.toNat = 2048 := by
    rw [hcmd]
    show (BitVec.ofNat 32 (zeros 2048).length).toNat = _
    rw [zeros_length]; decide
  have href : miniportData cmd (fun _ => 0#8) = zeros 2048 := by rw [hcmd]; rfl
  obtain ⟨hl, hv⟩ := miniportRecord_view cmd (zeros 2048)
  refine ⟨miniportRecord cmd (zeros 2048), ⟨hl, ?_⟩, ?_⟩
  · rw [hv, hcmd]
    have h10 := securityNvme_cdw10 false 1 1 (zeros 2048)
    have h11 : (securityNvme false 1 1 (zeros 2048)).cdw11.toNat = (zeros 2048).length := by
      show (BitVec.ofNat 32 (zeros 2048).length).toNat = _
      rw [zeros_length]; decide
    rw [h10, h11]
    rfl
  · rw [show zeros Handle.discoverySize = zeros 2048 from rfl]
    have e0 : OutT.interp (winDrv (.nvmeWin hd sh) addr base behind) (hh.securityCommand false false 0x01 0x0001 (zeros 2048) 3) =
        (miniportAdmin sh cmd (fun _ => 0#8) >>= fun x : Option GoErr × Bytes =>
          (OutT.ret ({ err := x.1, data := storeInto (zeros 2048) x.2, behind := behind } : SecRep) : WinM SecRep)) := by
      unfold Handle.securityCommand
      rw [hdh]
      dsimp only
      rw [interp_ask_then]
      have e1 : winDrv (.nvmeWin hd sh) addr base behind (.sec false false 0x01 0x0001 (zeros 2048) 3) =
        (OutT.ret { err := some (.msg "not supported"), data := zeros 2048, behind := behind } : WinM DrvRep) := rfl
      have e2 : ∀ (r : DrvRep) (K : DrvRep → WinM SecRep), (OutT.ret r >>= K : WinM SecRep) = K r := fun _ _ => rfl
      rw [e1, e2]
      dsimp only
      rw [hfull, if_neg (by simp), if_pos rfl, interp_ask_then, hcmd]
      have e3 : winDrv (.nvmeWin hd sh) addr base behind (.nvmeAdmin (securityNvme false 0x01 0x0001 (zeros 2048))) =
        (miniportAdmin sh (securityNvme false 0x01 0x0001 (zeros 2048)) (fun _ => 0#8) >>= fun x : Option GoErr × Bytes =>
          (OutT.ret { err := x.1, data := x.2, behind := behind } : WinM DrvRep)) := rfl
      rw [e3, OutT.bind_assoc']
      rfl
    rw [e0]
    unfold miniportAdmin
    dsimp only
    rw [href, if_neg (by omega), OutT.bind_assoc', OutT.run_ask_bind]
    dsimp only
    show (OutT.run E _ _).1 = _
    unfold miniportGot
    rw [show miniportSize = 4248 from rfl]
    cases he : (E hist (.ioctl sh 0x4d008 (miniportRecord cmd (zeros 2048)) 4248 none)).err with
    | some e =>
      dsimp only
      show Out.ret ({ err := some e, data := storeInto (zeros 2048) (zeros 2048), behind := behind } : SecRep) = _
      rw [hfull, if_neg (by simp)]
    | none =>
      dsimp only
      rw [if_pos rfl]
      show Out.ret ({ err := none, data := storeInto (zeros 2048) (storeInto (zeros 2048) _), behind := behind } : SecRep) = _
      rw [storeInto_full _ _ (storeInto_length _ _), storeInto_delivered, storeInto_delivered, miniportView_data, hdl,
        zeros_length, slice_take_le _ _ _ _ (by omega)]

/-- What the driver answers. -/
theorem winDrv_ok (hd sh addr base : Nat) (behind : Nat → Byte) (q : DrvReq) (hq : DrvOk 0 q) (E : Prog.Env WReq WRep)
    (hist : Prog.Trace WReq WRep) :
    ∃ r, (OutT.run E hist (winDrv (.nvmeWin hd sh) addr base behind q)).1 = .ret r ∧ True := by
  cases q with
  | sec rw dma p c data t0 => exact ⟨_, rfl, trivial⟩
  | nvmeAdmin cmd =>
    have : ∃ y, (OutT.run E hist (miniportAdmin sh cmd (fun _ => 0#8))).1 = .ret y := by
      unfold miniportAdmin
      dsimp only
      split
      · exact ⟨_, rfl⟩
      · rw [OutT.run_ask_bind]
        dsimp only
        split <;> exact ⟨_, rfl⟩
    obtain ⟨y, hy⟩ := this
    unfold winDrv
    dsimp only
    rw [OutT.run_bind]
    rcases hm : OutT.run E hist (miniportAdmin sh cmd (fun _ => 0#8)) with ⟨a, t⟩
    rw [hm] at hy
    simp only at hy
    subst hy
    exact ⟨_, rfl, trivial⟩
  | close =>
    unfold winDrv
    exact ⟨{}, by rw [OutT.run_bind]; rfl, trivial⟩
  | drivingType => exact ⟨_, rfl, trivial⟩
  | driverName => exact ⟨_, rfl, trivial⟩
  | _ => exact absurd hq (fun h => h)

/-- `Init` on the handle of the miniport driver of a conforming drive keeps what discovery announced. -/
theorem win_init_announced {hd sh : Nat} {dr : Drive} {env : Prog.Env WAReq WARep} (ha : MiniportAnnounces sh dr env)
    (h : Prog.Trace WAReq WARep) (addr base : Nat) (behind : Nat → Byte) {h0 : Handle} {id : Bytes}
    (hdh : h0.dh = some { ata := false, nvme := true, identity := id }) (hid : 4096 ≤ id.length)
    (hl : h0.info.level0 = {}) (H : Prog.Trace WReq WRep) :
    ∃ h1, (OutT.run (winEnv env h) H (OutT.interp (winDrv (.nvmeWin hd sh) addr base behind) h0.init)).1 =
      .ret (h1, none) ∧ ∀ dev, dev = newTcgDevice h1.getTcgLevel0InfoAndSerial.1 h1.getTcgLevel0InfoAndSerial.2 →
      (dev.kind = .opal1 ∨ dev.kind = .opal2) ∧ dev.baseComId = dr.comId := by
  obtain ⟨i1, i2, p1, p2, -, a2, b1, -⟩ := parts_ok h0 _ hdh (fun x => by simp at x) (fun _ => hid)
  obtain ⟨i, hi2, hf⟩ := initNvme_ok id i1 hid
  have hii : i = i2 := by
    have := b1 rfl
    rw [show ({ ata := false, nvme := true, identity := id } : Driver).identity = id from rfl, hi2] at this
    simpa using this
  subst hii
  have hlev : i.level0 = {} := by rw [hf.keptLevel0, a2 rfl, hl]
  have hof : ∀ x : Handle, x.dh = some { ata := false, nvme := true, identity := id } → DriverOf 0 x.dh :=
    fun x hx => ⟨_, hx, by decide, rfl, rfl⟩
  have hrun := (OutT.interp_run (A := DrvOk 0) (B := fun _ _ => True) (winDrv (.nvmeWin hd sh) addr base behind)
    (winEnv env h) {} H (fun q hq H' => winDrv_ok hd sh addr base behind q hq _ H') (p := h0.init)
    (OutT.within_of_asks (init_drvOk h0 (hof _ hdh)))).1
  rw [hrun, init_parts _ _ p1 p2]
  obtain ⟨hh, hhh⟩ : ∃ hh : Handle, hh = { h0 with info := Handle.makeMap i } := ⟨_, rfl⟩
  rw [← hhh]
  have hhd : hh.dh = some { ata := false, nvme := true, identity := id } := by rw [hhh]; exact hdh
  obtain ⟨inb, hk, hq⟩ := discovery_miniport (hd := hd) (sh := sh) (addr := addr) (base := base) (behind := behind) hhd
    (winEnv env h) H
  have hq' := (OutT.interp_run (A := DrvOk 0) (B := fun _ _ => True) (winDrv (.nvmeWin hd sh) addr base behind)
    (winEnv env h) {} H (fun q hq H' => winDrv_ok hd sh addr base behind q hq _ H')
    (p := hh.securityCommand false false 0x01 0x0001 (zeros Handle.discoverySize) 3)
    (OutT.within_of_asks (securityCommand_drvOk hh (hof _ hhd) _ _ (zeros_length _)))).1
  rw [hq, winEnv_eq] at hq'
  obtain ⟨d1, d2⟩ := ha.discovery (OutT.lowered winCall env h H) inb hk
  have hfresh : Spec.Fresh hh.info.level0 := by
    rw [hhh]
    show Spec.Fresh (Handle.makeMap i).level0
    rw [show (Handle.makeMap i).level0 = { i.level0 with raw := fun _ => none, made := true } from rfl, hlev]
    exact ⟨rfl, by decide, fun _ => rfl⟩
  have hgot := miniportGot_received (inb := inb) d1
  have hlen : (miniportReceived inb (env (OutT.lowered winCall env h H) (miniportIoctl sh inb))).length = 2048 :=
    d2.choose_spec.1
  rw [delivered_zeros _ (by omega), hlen, Nat.sub_self, show zeros 0 = [] from rfl, List.append_nil] at hgot
  rcases hdr : discoveryRun hh (OutT.upperEnv (winDrv (.nvmeWin hd sh) addr base behind) (winEnv env h) {} H) [] with ⟨o, t⟩
  change _ = (discoveryRun hh _ []).1 at hq'
  rw [hdr] at hq'
  simp only at hq'
  rw [← hq'] at hdr
  obtain ⟨h', x1, x2⟩ := announces_device hfresh hdr d1 (by
    show AnnouncesOpal _ (miniportGot _ _ _)
    rw [hgot]; exact d2)
  rcases hdd : OutT.run (OutT.upperEnv (winDrv (.nvmeWin hd sh) addr base behind) (winEnv env h) {} H) [] hh.tcgDiscovery0
    with ⟨oo, tt⟩
  rw [hdd] at x1
  simp only at x1
  rw [x1]
  exact ⟨h', rfl, x2⟩

theorem reads_not_miniport {sh : Nat} {comId : BitVec 16} (hne : comId ≠ 1) {q : WReq} (h : WinReadsOnly q) :
    ¬ TouchesMiniport sh comId (.sys q) := by
  cases q with
  | ioctl hh code inb n m =>
    rintro ⟨-, rfl, hop, -, hcom⟩
    rcases h with h | h | h | h | h
    · exact absurd h (by decide)
    · exact absurd h.1 (by decide)
    · rcases h.1 with e | e <;> exact absurd e (by decide)
    · rcases h.1 with e | e <;> exact absurd e (by decide)
    · rcases h.2 with h6 | ⟨-, hc⟩
      · rcases hop with e | e <;> rw [h6] at e <;> exact absurd e (by decide)
      · rw [hc] at hcom
        exact hne (BitVec.eq_of_toNat_eq (by rw [← hcom]; decide))
  | _ => exact fun x => x

/-- Opening a conforming drive that the factory gives to the miniport driver. -/
theorem win_open_conforming {sh : Nat} {dr : Drive} {W : Nat} {env : Prog.Env WAReq WARep}
    {st : Prog.Trace WAReq WARep → DriveState} (hc : MiniportConforming sh dr W env st) (ha : MiniportAnnounces sh dr env)
    (w : WinRun) (b b' : Nat) (path : Bytes) (h : Prog.Trace WAReq WARep) (o : WinOpened) (hd : Nat)
    (hr : (OutT.run env h (OutT.interp winCall (winOpenByPath w (winOpeners b b') path))).1 = .ret (.ok o))
    (ho : o.drv = some (.nvmeWin hd sh)) :
    MiniportDrive o sh ∧ (o.tcgDevice.kind = .opal1 ∨ o.tcgDevice.kind = .opal2) ∧ o.tcgDevice.baseComId = dr.comId ∧
    st (h ++ (OutT.run env h (OutT.interp winCall (winOpenByPath w (winOpeners b b') path))).2) = st h := by
  have hcall : ∀ q, True → ∀ h', ∃ r, (OutT.run env h' (winCall q)).1 = .ret r ∧ True :=
    fun q _ h' => ⟨_, by unfold winCall; rw [OutT.run_ask_bind]; rfl, trivial⟩
  obtain ⟨e1, e2⟩ := OutT.interp_chunks (A := fun _ => True) (B := fun _ _ => True) winCall env {} h hcall
    (p := winOpenByPath w (winOpeners b b') path) (OutT.within_any _)
  have hreads := win_open_reads_only w b b' path (winEnv env h) []
  have hquiet : st (h ++ (OutT.run env h (OutT.interp winCall (winOpenByPath w (winOpeners b b') path))).2) = st h := by
    refine OutT.run_quiet (A := fun q => ¬ TouchesMiniport sh dr.comId q) (fun h q hq => hc.other h q hq) _ h ?_
    generalize (OutT.run (OutT.upperEnv winCall env {} h) [] (winOpenByPath w (winOpeners b b') path)).2 = T at e2 hreads
    generalize (OutT.run env h (OutT.interp winCall (winOpenByPath w (winOpeners b b') path))).2 = t at e2
    clear e1 hr
    induction e2 with
    | nil => intro x hx; cases hx
    | @cons q r hh c T t hcc ht ih =>
      intro x hx
      unfold winCall at hcc
      rw [OutT.run_ask_bind] at hcc
      simp only [OutT.run_ret, Prod.mk.injEq, Out.ret.injEq] at hcc
      obtain ⟨-, rfl⟩ := hcc
      rcases List.mem_append.1 hx with hx | hx
      · simp only [List.mem_singleton] at hx
        rw [hx]
        exact reads_not_miniport ha.reserved (hreads (q, r) List.mem_cons_self)
      · exact ih (fun x hx => hreads x (List.mem_cons_of_mem _ hx)) x hx
  rw [e1] at hr
  change (OutT.run (winEnv env h) [] _).1 = _ at hr
  unfold winOpenByPath at hr
  obtain ⟨x, -, hr, -⟩ := OutT.run_bind_cases hr
  cases x with
  | panic => simp at hr
  | err e => simp at hr
  | ok hnd =>
    dsimp only at hr
    obtain ⟨y, hy, hr, -⟩ := OutT.run_bind_cases hr
    simp only [OutT.run_ret, Out.ret.injEq, Res.ok.injEq] at hr
    subst hr
    generalize (OutT.run (winEnv env h) [] (winOpenDevice path)).2 = t0 at hy
    obtain ⟨bi, tb, segs, rest, -, -, -, hcase⟩ := win_open_by_handle w _ hnd path (winEnv env h) _ _ y (Prod.ext hy rfl)
    rcases hcase with ⟨i, x, e, hf, h1, h2, -, -, -, -, -, -, hinit⟩ | ⟨-, h1, -⟩
    · rw [ho] at h1
      simp only [Option.some.injEq] at h1
      obtain ⟨d, seg, hds, -, hrun⟩ := hf.accepted
      have hm : d ∈ winOpeners b b' := List.mem_of_getElem? hds
      have hw : WinWhole x := by
        rcases winOpeners_opens b b' hnd d hm (winEnv env h) _ with ⟨a, q1, q2⟩ | ⟨q1, -⟩
        · rw [hrun] at q1
          simp only [Out.ret.injEq] at q1
          exact q2.2 x q1.symm
        · rw [hrun] at q1
          cases q1
      obtain ⟨k, ⟨ata, nvme, id⟩⟩ := x
      simp only at h1
      subst h1
      obtain ⟨w1, w2, -, w4⟩ := hw
      change ata = false at w1
      change nvme = true at w2
      subst w1 w2
      obtain ⟨h1, z0, z⟩ := win_init_announced (hd := hd) ha h w.addr w.base w.behind
        (h0 := { dh := some { ata := false, nvme := true, identity := id } }) rfl (w4 rfl) rfl _
      rw [hinit] at z0
      simp only [Out.ret.injEq, Prod.mk.injEq] at z0
      rw [← z0.1] at z
      obtain ⟨z1, z2⟩ := z y.tcgDevice rfl
      exact ⟨⟨hd, ho, id, h2⟩, z1, z2, hquiet⟩
    · rw [ho] at h1
      cases h1

/-- The basic information of such a disk can be read. -/
theorem basic_returns {hd sh : Nat} {path : Bytes} {env : Prog.Env WAReq WARep} (hn : MiniportNode hd sh path env)
    (h : Prog.Trace WAReq WARep) (H : Prog.Trace WReq WRep) :
    ∃ b, (OutT.run (winEnv env h) H (winBasicInfo hd)).1 = .ret b := by
  obtain ⟨n, g, t, f, o, hf, hr, hc⟩ := win_basic_info hd (winEnv env h) H
  rw [hr]
  have first : ∀ r t', t = (.ioctl hd 0x70050 [] 4096 none, r) :: t' → ∃ h', r = (env h' (.sys (.ioctl hd 0x70050 [] 4096 none))).sys := by
    intro r t' ht
    have := OutT.run_answers (winEnv env h) (winBasicInfo hd) H [_, _] t' _ r
      (show (OutT.run _ _ _).2 = [_, _] ++ (.ioctl hd 0x70050 [] 4096 none, r) :: t' by rw [hr, ht]; rfl)
    rw [winEnv_eq] at this
    exact ⟨_, this⟩
  have lay : ∀ r t', t = (.ioctl hd 0x70050 [] 4096 none, r) :: t' → r.err = some (.errno 122) → False := by
    intro r t' ht he
    obtain ⟨h', e⟩ := first r t' ht
    rcases hn.layout h' r e with ⟨e', x, y⟩ | ⟨x, -⟩
    · rw [he] at x
      exact y (Option.some.inj x).symm
    · rw [he] at x
      cases x
  cases hf with
  | failed r e he hne => exact ⟨_, hc⟩
  | once r he hk =>
    obtain ⟨h', e⟩ := first r [] rfl
    rcases hn.layout h' r e with ⟨e', x, -⟩ | ⟨-, -, x, y⟩
    · rw [he] at x
      cases x
    · obtain ⟨c1, -, c3⟩ := hc
      cases o with
      | ret b => exact ⟨b, rfl⟩
      | running => exact absurd rfl c3
      | panic =>
        rcases c1.1 rfl with z | z
        · rw [List.length_take, delivered_length, zeros_length] at z
          omega
        · exact absurd z y
  | crashed r hcr =>
    obtain ⟨h', e⟩ := first r [] rfl
    rcases hcr with ⟨z1, z2⟩ | ⟨z1, -⟩
    · rcases hn.layout h' r e with ⟨e', x, -⟩ | ⟨-, x, -⟩
      · rw [z1] at x
        cases x
      · omega
    · exact (lay r [] rfl z1).elim
  | again r r2 he => exact (lay r _ rfl he).elim
  | againFailed r r2 e he => exact (lay r _ rfl he).elim
  | againCrashed r r2 he => exact (lay r _ rfl he).elim

/-- The miniport driver accepts it. -/
theorem nvmeWin_accepts {hd sh : Nat} {path : Bytes} {env : Prog.Env WAReq WARep} (hn : MiniportNode hd sh path env)
    (h : Prog.Trace WAReq WARep) (H : Prog.Trace WReq WRep) :
    ∃ id t, OutT.run (winEnv env h) H (nvmeWinOpen hd) = (.ret (.ok (sh, id)), t) ∧ id.length = 4096 := by
  obtain ⟨r, ⟨e, he, hr⟩ | ⟨-, text, r2, -, hrest⟩⟩ := nvmeWin_open hd (winEnv env h) H
  · have := OutT.run_answers (winEnv env h) (nvmeWinOpen hd) H [] [] _ r (show (OutT.run _ _ _).2 = _ by rw [hr]; rfl)
    rw [winEnv_eq] at this
    rw [this, hn.address] at he
    cases he
  · have open' : ∀ t', (OutT.run (winEnv env h) H (nvmeWinOpen hd)).2 = (.ioctl hd 0x41018 (zeros 8) 8 none, r) ::
        (.openDevice (ascii "\\\\.\\SCSI" ++ text ++ ascii ":"), r2) :: t' → r2.err = none ∧ r2.handle = sh := by
      intro t' ht
      have := OutT.run_answers (winEnv env h) (nvmeWinOpen hd) H [(.ioctl hd 0x41018 (zeros 8) 8 none, r)] t' _ r2 ht
      rw [winEnv_eq] at this
      rw [this]
      exact hn.adapter _ text
    rcases hrest with ⟨e, he, hr⟩ | ⟨-, inb, r3, hl, hv, ⟨-, hr⟩ | ⟨e, r4, he, hr⟩⟩
    · have := (open' [] (by rw [hr])).1
      rw [he] at this
      cases this
    · have hh := (open' _ (by rw [hr])).2
      refine ⟨_, _, by rw [hr, hh], ?_⟩
      rw [miniportView_data, slice, List.length_take, List.length_drop, delivered_length, hl]
      omega
    · have hh := (open' _ (by rw [hr])).2
      have := OutT.run_answers (winEnv env h) (nvmeWinOpen hd) H
        [(.ioctl hd 0x41018 (zeros 8) 8 none, r), (.openDevice (ascii "\\\\.\\SCSI" ++ text ++ ascii ":"), r2)]
        [(.closeHandle r2.handle, r4)] _ r3 (by rw [hr]; rfl)
      rw [winEnv_eq, hh] at this
      rw [this, hn.identifies _ inb hl (by rw [hv]; rfl)] at he
      cases he

/-- Opening such a disk gives a drive of the miniport driver. -/
theorem win_open_succeeds {hd sh : Nat} {dr : Drive} {path : Bytes} {env : Prog.Env WAReq WARep}
    (ha : MiniportAnnounces sh dr env) (hn : MiniportNode hd sh path env) (w : WinRun) (b b' : Nat)
    (h : Prog.Trace WAReq WARep) :
    ∃ o, (OutT.run env h (OutT.interp winCall (winOpenByPath w (winOpeners b b') path))).1 = .ret (.ok o) ∧
      o.drv = some (.nvmeWin hd sh) := by
  have hcall : ∀ q, True → ∀ h', ∃ r, (OutT.run env h' (winCall q)).1 = .ret r ∧ True :=
    fun q _ h' => ⟨_, by unfold winCall; rw [OutT.run_ask_bind]; rfl, trivial⟩
  obtain ⟨e1, -⟩ := OutT.interp_chunks (A := fun _ => True) (B := fun _ _ => True) winCall env {} h hcall
    (p := winOpenByPath w (winOpeners b b') path) (OutT.within_any _)
  rw [e1]
  change ∃ o, (OutT.run (winEnv env h) [] _).1 = _ ∧ _
  have hop : ∃ t, OutT.run (winEnv env h) [] (winOpenDevice path) = (.ret (.ok hd), t) := by
    unfold winOpenDevice
    rw [if_neg (by simpa using hn.text), OutT.run_ask_bind, winEnv_eq]
    simp only [(hn.opens _).1, (hn.opens _).2, OutT.run_ret]
    exact ⟨_, rfl⟩
  obtain ⟨t0, h0⟩ := hop
  unfold winOpenByPath
  rw [OutT.run_bind_ret _ _ h0]
  obtain ⟨H1, hH1⟩ : ∃ H, H = [] ++ t0 := ⟨_, rfl⟩
  rw [← hH1]
  obtain ⟨bi, hb⟩ := basic_returns hn h H1
  rcases hbr : OutT.run (winEnv env h) H1 (winBasicInfo hd) with ⟨ob, t1⟩
  rw [hbr] at hb
  simp only at hb
  subst hb
  obtain ⟨id, t2, h2, hid⟩ := nvmeWin_accepts hn h (H1 ++ t1)
  have hfirst : OutT.run (winEnv env h) (H1 ++ t1) (winFirst (winOpeners b b') hd) =
      (.ret (some (.nvmeWin hd sh, { ata := false, nvme := true, identity := id })), t2) := by
    unfold winOpeners winFirst
    have : OutT.run (winEnv env h) (H1 ++ t1) (asOpener nvmeWinOpen
        (fun h x => (WinDrv.nvmeWin h x.1, { ata := false, nvme := true, identity := x.2 })) hd) =
        (.ret (.ok (.nvmeWin hd sh, { ata := false, nvme := true, identity := id })), t2) := by
      unfold asOpener
      rw [OutT.run_bind_ret _ _ h2]
      simp only [OutT.run_ret, List.append_nil]
    rw [OutT.run_bind_ret _ _ this]
    simp only [OutT.run_ret, List.append_nil]
  have hh : ∃ o t, OutT.run (winEnv env h) H1 (winOpenByHandle w (winOpeners b b') hd path) = (.ret o, t) ∧
      o.drv = some (.nvmeWin hd sh) := by
    unfold winOpenByHandle
    rw [OutT.run_bind_ret _ _ hbr]
    dsimp only
    rw [OutT.run_bind_ret _ _ hfirst]
    dsimp only
    have g1 : ∀ H, OutT.run (winEnv env h) H (OutT.interp (winDrv (.nvmeWin hd sh) w.addr w.base w.behind)
        (Handle.getDrivingType { (winBasicOpened path bi).handle with dh := some { ata := false, nvme := true, identity := id } })) =
        (.ret 2, []) := fun H => rfl
    have g2 : ∀ H, OutT.run (winEnv env h) H (OutT.interp (winDrv (.nvmeWin hd sh) w.addr w.base w.behind)
        (Handle.getDriverName { (winBasicOpened path bi).handle with dh := some { ata := false, nvme := true, identity := id } })) =
        (.ret (WinDrv.nvmeWin hd sh).name, []) := fun H => rfl
    rw [OutT.run_bind_ret _ _ (g1 _)]
    dsimp only
    rw [OutT.run_bind_ret _ _ (g2 _)]
    dsimp only
    obtain ⟨h1, z0, -⟩ := win_init_announced (hd := hd) ha h w.addr w.base w.behind
      (h0 := { (winBasicOpened path bi).handle with dh := some { ata := false, nvme := true, identity := id } })
      rfl (by omega) rfl (H1 ++ t1 ++ t2 ++ [] ++ [])
    rcases hi : OutT.run (winEnv env h) (H1 ++ t1 ++ t2 ++ [] ++ []) (OutT.interp (winDrv (.nvmeWin hd sh) w.addr w.base w.behind)
      (Handle.init { (winBasicOpened path bi).handle with dh := some { ata := false, nvme := true, identity := id } })) with ⟨oi, ti⟩
    rw [hi] at z0
    simp only at z0
    subst z0
    rw [OutT.run_bind_ret _ _ hi]
    exact ⟨_, _, rfl, rfl⟩
  obtain ⟨o, t, hrun, hd'⟩ := hh
  refine ⟨o, ?_, hd'⟩
  dsimp only
  rw [OutT.run_bind_ret _ _ hrun]
  rfl

end Dparm
