import Verif.Props.WinTcg
import Verif.Props.TcgSystem
/-!
# Whole program on Windows: TCG operations through the miniport driver
-/
namespace Dparm
open Spec

theorem miniport_chunk {o : WinOpened} {h' sh : Nat} {identity : Bytes} (hs : o.drv = some (.nvmeWin h' sh))
    (hd : o.handle.dh = some { ata := false, nvme := true, identity := identity }) (rw dma : Bool) (p : Byte)
    (c : BitVec 16) (buf : Bytes) (to : Nat) :
    secOnWindows o (.sec rw dma p c buf to) =
      (OutT.ask .place >>= fun _ => OutT.ask .place >>= fun a₂ : WARep =>
        OutT.interp winCall (miniportAdmin sh (securityNvme rw p c buf) (fun _ => 0#8)) >>= fun x =>
          OutT.ret ({ err := x.1, data := storeInto buf x.2, behind := a₂.behind } : SecRep)) := by
  have hfull : storeInto buf buf = buf := storeInto_full _ _ rfl
  unfold secOnWindows WinOpened.method
  rw [hs]
  dsimp only
  unfold Handle.securityCommand
  rw [hd]
  dsimp only
  rw [interp_ask_then]
  have e1 : winDrvPlaced (.nvmeWin h' sh) (.sec rw dma p c buf to) = (OutT.ask WAReq.place >>= fun pl : WARep =>
      (OutT.ret { err := some (.msg "not supported"), data := buf, behind := pl.behind } : WAM DrvRep)) := rfl
  rw [e1, OutT.bind_assoc']
  congr 1
  funext a₁
  have e2 : ∀ (r : DrvRep) (K : DrvRep → WAM SecRep), (OutT.ret r >>= K : WAM SecRep) = K r := fun _ _ => rfl
  rw [e2]
  dsimp only
  rw [hfull]
  rw [if_neg (by simp), if_pos rfl, interp_ask_then]
  have e3 : winDrvPlaced (.nvmeWin h' sh) (.nvmeAdmin (securityNvme rw p c buf)) =
      (OutT.ask WAReq.place >>= fun pl : WARep => OutT.interp winCall
        (do
          let x ← miniportAdmin sh (securityNvme rw p c buf) (fun _ => 0#8)
          OutT.ret { err := x.1, data := x.2, behind := pl.behind } : WinM DrvRep)) := rfl
  rw [e3, OutT.bind_assoc']
  congr 1
  funext a₂
  rw [OutT.interp_bind, OutT.bind_assoc']
  rfl

/-- One security command through the miniport. -/
theorem miniport_step {o : WinOpened} {h' sh : Nat} {identity : Bytes} (hs : o.drv = some (.nvmeWin h' sh))
    (hd : o.handle.dh = some { ata := false, nvme := true, identity := identity }) (rw dma : Bool) (p : Byte)
    (c : BitVec 16) (buf : Bytes) (to : Nat) (hlen : buf.length < 2 ^ 32) (env : Prog.Env WAReq WARep)
    (h : Prog.Trace WAReq WARep) :
    ∃ a₁ a₂, (buf.length ≤ 4096 → ∃ inb a, IsMiniportSecurity rw p c buf inb ∧
        OutT.run env h (secOnWindows o (.sec rw dma p c buf to)) =
          (.ret { err := a.sys.err, data := miniportGot buf inb a.sys, behind := a₂.behind },
            [(.place, a₁), (.place, a₂), (.sys (.ioctl sh 0x4d008 inb 4248 none), a)])) ∧
      (4096 < buf.length → OutT.run env h (secOnWindows o (.sec rw dma p c buf to)) =
          (.ret { err := some (.msg "too long data"), data := buf, behind := a₂.behind }, [(.place, a₁), (.place, a₂)])) := by
  have hfull : storeInto buf buf = buf := storeInto_full _ _ rfl
  obtain ⟨cmd, hcmd⟩ : ∃ cmd, cmd = securityNvme rw p c buf := ⟨_, rfl⟩
  have hdl : cmd.dataLen.toNat = buf.length := by
    rw [hcmd]
    show (BitVec.ofNat 32 buf.length).toNat = _
    rw [BitVec.toNat_ofNat, Nat.mod_eq_of_lt hlen]
  have href : miniportData cmd (fun _ => 0#8) = buf := by rw [hcmd]; rfl
  obtain ⟨a₁, h1⟩ : ∃ a, a = env h .place := ⟨_, rfl⟩
  obtain ⟨a₂, h2⟩ : ∃ a, a = env (h ++ [(.place, a₁)]) .place := ⟨_, rfl⟩
  refine ⟨a₁, a₂, fun hb => ?_, fun hb => ?_⟩
  · obtain ⟨hl, hv⟩ := miniportRecord_view cmd buf
    refine ⟨miniportRecord cmd buf,
      env (h ++ [(.place, a₁)] ++ [(.place, a₂)]) (.sys (.ioctl sh 0x4d008 (miniportRecord cmd buf) 4248 none)), ⟨hl, ?_⟩, ?_⟩
    · rw [hv, hcmd]
      have h10 := securityNvme_cdw10 rw p c buf
      have h11 : (securityNvme rw p c buf).cdw11.toNat = buf.length := by
        show (BitVec.ofNat 32 buf.length).toNat = _
        rw [BitVec.toNat_ofNat, Nat.mod_eq_of_lt hlen]
      rw [h10, h11]
      cases rw <;> rfl
    · rw [miniport_chunk hs hd, ← hcmd, OutT.run_ask_bind, ← h1, OutT.run_ask_bind, ← h2]
      unfold miniportAdmin
      dsimp only
      rw [href, if_neg (by omega), interp_ask_then]
      have e0 : ∀ q, winCall q = (OutT.ask (.sys q) >>= fun r : WARep => (OutT.ret r.sys : WAM WRep)) := fun _ => rfl
      rw [e0, OutT.bind_assoc', OutT.bind_assoc', OutT.run_ask_bind]
      obtain ⟨a, ha⟩ : ∃ a, a = env (h ++ [(.place, a₁)] ++ [(.place, a₂)])
        (.sys (.ioctl sh 0x4d008 (miniportRecord cmd buf) miniportSize none)) := ⟨_, rfl⟩
      show _ = (_, [_, _, (_, env (h ++ [(.place, a₁)] ++ [(.place, a₂)])
        (.sys (.ioctl sh 0x4d008 (miniportRecord cmd buf) miniportSize none)))])
      rw [← ha]
      have e2 : ∀ (r : WRep) (K : WRep → WAM SecRep), (OutT.ret r >>= K : WAM SecRep) = K r := fun _ _ => rfl
      rw [e2]
      have e3 : ∀ (y : Option GoErr × Bytes), (OutT.interp winCall (OutT.ret y : WinM (Option GoErr × Bytes)) >>= fun x =>
          OutT.ret ({ err := x.1, data := storeInto buf x.2, behind := a₂.behind } : SecRep)) =
          (OutT.ret { err := y.1, data := storeInto buf y.2, behind := a₂.behind } : WAM SecRep) := fun _ => rfl
      unfold miniportGot
      cases he : a.sys.err with
      | some e =>
        dsimp only
        rw [e3, OutT.run_ret, hfull, if_neg (by simp)]
      | none =>
        dsimp only
        rw [e3, OutT.run_ret, if_pos rfl]
        dsimp only
        rw [storeInto_full _ _ (storeInto_length _ _), storeInto_delivered, storeInto_delivered, miniportView_data, hdl,
          slice_take_le _ _ _ _ hb]
  · rw [miniport_chunk hs hd, ← hcmd, OutT.run_ask_bind, ← h1, OutT.run_ask_bind, ← h2]
    unfold miniportAdmin
    dsimp only
    rw [href, if_pos (by omega)]
    show (Out.ret ({ err := some (.msg "too long data"), data := storeInto buf buf, behind := a₂.behind } : SecRep),
      [(WAReq.place, a₁), (WAReq.place, a₂)]) = _
    rw [hfull]

theorem onWinNvme_of_chunks {o : WinOpened} {h' sh : Nat} {identity : Bytes} (hs : o.drv = some (.nvmeWin h' sh))
    (hd : o.handle.dh = some { ata := false, nvme := true, identity := identity }) {env : Prog.Env WAReq WARep}
    {T : Prog.Trace SecReq SecRep} {t : Prog.Trace WAReq WARep} (h : OutT.Chunks (secOnWindows o) env T t)
    (hlen : ∀ out dma p c buf to r, (SecReq.sec out dma p c buf to, r) ∈ T → buf.length < 4294967296) : OnWinNvme sh T t := by
  induction h with
  | nil => exact .nil
  | @cons q r hh c T t hc ht ih =>
    have ih := ih (fun out dma p c buf to r hm => hlen out dma p c buf to r (List.mem_cons_of_mem _ hm))
    cases q with
    | now =>
      unfold secOnWindows at hc
      rw [OutT.run_ask_bind] at hc
      simp only [OutT.run_ret, Prod.mk.injEq, Out.ret.injEq] at hc
      obtain ⟨rfl, rfl⟩ := hc
      exact .now ih
    | sleep ns =>
      unfold secOnWindows at hc
      rw [OutT.run_ask_bind] at hc
      simp only [OutT.run_ret, Prod.mk.injEq, Out.ret.injEq] at hc
      obtain ⟨rfl, rfl⟩ := hc
      exact .sleep ih
    | sec out dma p c' buf to =>
      obtain ⟨a1, a2, k1, k2⟩ := miniport_step hs hd out dma p c' buf to
        (hlen out dma p c' buf to r List.mem_cons_self) env hh
      by_cases hb : buf.length ≤ 4096
      · obtain ⟨inb, a, hk, hr⟩ := k1 hb
        rw [hr] at hc
        simp only [Prod.mk.injEq, Out.ret.injEq] at hc
        obtain ⟨rfl, rfl⟩ := hc
        exact .sec hb hk ih
      · rw [k2 (by omega)] at hc
        simp only [Prod.mk.injEq, Out.ret.injEq] at hc
        obtain ⟨rfl, rfl⟩ := hc
        exact .long (by omega) ih

/-- **C137.** On a drive of the miniport driver: whatever Windows answers, an operation of the TCG layer behaves as in a
conversation with some drive, and each security command of that conversation of up to 4096 bytes is exactly one miniport
request on the adapter's handle, a Security Send or Receive with the same protocol, ComID and bytes; its result and data are
the answer. -/
theorem tcg_on_miniport {α : Type} (o : WinOpened) (sh : Nat) (ho : MiniportDrive o sh) (comId : BitVec 16) (p : TcgM α)
    (hp : OutT.Asks (TcgAsk comId) p) (env : Prog.Env WAReq WARep) (h : Prog.Trace WAReq WARep) :
    ∃ env' : Prog.Env SecReq SecRep, (OutT.run env h (tcgOnWindows o p)).1 = (OutT.run env' [] p).1 ∧
      OnWinNvme sh (OutT.run env' [] p).2 (OutT.run env h (tcgOnWindows o p)).2 := by
  obtain ⟨h', hs, identity, hd⟩ := ho
  have ha := fun e => OutT.asks_run hp e []
  have hq : ∀ q, TcgAsk comId q → ∀ h, ∃ r, (OutT.run env h (secOnWindows o q)).1 = .ret r ∧ True := by
    intro q hq h
    cases q with
    | now => exact ⟨_, by unfold secOnWindows; rw [OutT.run_ask_bind]; rfl, trivial⟩
    | sleep ns => exact ⟨_, by unfold secOnWindows; rw [OutT.run_ask_bind]; rfl, trivial⟩
    | sec rw dma p c buf to =>
      have hb : buf.length < 2 ^ 32 := by
        cases rw with
        | true => have h5 := hq.2.2.2.2.2.1; omega
        | false => rw [show buf = zeros 2048 from hq.2.2.2.2, zeros_length]; omega
      obtain ⟨a1, a2, k1, k2⟩ := miniport_step hs hd rw dma p c buf to hb env h
      by_cases hb : buf.length ≤ 4096
      · obtain ⟨inb, a, hk, hr⟩ := k1 hb
        exact ⟨_, by rw [hr], trivial⟩
      · exact ⟨_, by rw [k2 (by omega)], trivial⟩
  obtain ⟨h1, h2⟩ := OutT.interp_chunks (A := TcgAsk comId) (B := fun _ _ => True) (secOnWindows o) env {} h hq (p := p)
    (OutT.within_of_asks hp)
  refine ⟨_, h1, onWinNvme_of_chunks hs hd h2 ?_⟩
  intro out dma p' c buf to r hm
  have := ha _ _ hm
  cases out with
  | true => have h5 := this.2.2.2.2.2.1; omega
  | false => rw [show buf = zeros 2048 from this.2.2.2.2, zeros_length]; omega

theorem Spec.OnWinNvme.append_inv {sh : Nat} {T₂ : Prog.Trace SecReq SecRep} : ∀ {T₁ : Prog.Trace SecReq SecRep}
    {t : Prog.Trace WAReq WARep}, OnWinNvme sh (T₁ ++ T₂) t →
      ∃ t₁ t₂, t = t₁ ++ t₂ ∧ OnWinNvme sh T₁ t₁ ∧ OnWinNvme sh T₂ t₂ := by
  intro T₁
  induction T₁ with
  | nil => intro t h; exact ⟨[], t, rfl, .nil, h⟩
  | cons x T₁ ih =>
    intro t h
    rw [List.cons_append] at h
    cases h with
    | now rest =>
      obtain ⟨t₁, t₂, rfl, h1, h2⟩ := ih rest
      exact ⟨_ :: t₁, t₂, rfl, .now h1, h2⟩
    | sleep rest =>
      obtain ⟨t₁, t₂, rfl, h1, h2⟩ := ih rest
      exact ⟨_ :: t₁, t₂, rfl, .sleep h1, h2⟩
    | sec short cmd rest =>
      obtain ⟨t₁, t₂, rfl, h1, h2⟩ := ih rest
      exact ⟨_ :: _ :: _ :: t₁, t₂, rfl, .sec short cmd h1, h2⟩
    | long long rest =>
      obtain ⟨t₁, t₂, rfl, h1, h2⟩ := ih rest
      exact ⟨_ :: _ :: t₁, t₂, rfl, .long long h1, h2⟩

theorem Spec.OnWinNvme.sent {sh : Nat} {T : Prog.Trace SecReq SecRep} {t : Prog.Trace WAReq WARep} (h : OnWinNvme sh T t) :
    miniportSent t = (sentData T).filter (fun b => b.length ≤ 4096) := by
  induction h with
  | nil => rfl
  | now rest ih => exact ih
  | sleep rest ih => exact ih
  | @sec out dma p c buf inb to a1 a2 a T t short cmd rest ih =>
    have hv := cmd.record
    have hop : (miniportView inb).opcode = if out then 0x81 else 0x82 := by rw [hv]; rfl
    have hdata : (miniportView inb).data.take (miniportView inb).cdw11 = buf := by
      rw [hv]
      show (delivered (zeros 4096) buf).take buf.length = buf
      unfold delivered
      rw [zeros_length, List.take_of_length_le short, List.take_append_of_le_length (Nat.le_refl _), List.take_length]
    unfold miniportSent at ih ⊢
    cases out with
    | true =>
      have hop' : (miniportView inb).opcode = 0x81 := hop
      simp only [List.filterMap_cons, hop', if_true, hdata, ih]
      show buf :: _ = (buf :: sentData T).filter _
      rw [List.filter_cons_of_pos (by simpa using short)]
    | false =>
      have hop' : ¬ (miniportView inb).opcode = 0x81 := by rw [hop]; decide
      simp only [List.filterMap_cons, if_neg hop', ih]
      rfl
  | @long out dma p c buf to a1 a2 T t long rest ih =>
    unfold miniportSent at ih ⊢
    simp only [List.filterMap_cons, ih]
    cases out with
    | true =>
      show _ = (buf :: sentData T).filter _
      rw [List.filter_cons_of_neg (by simpa using long)]
    | false => rfl

theorem Spec.OnWinNvme.answered {sh : Nat} {T : Prog.Trace SecReq SecRep} {t : Prog.Trace WAReq WARep}
    (h : OnWinNvme sh T t) {r : Resp} (ha : Answered T r) : AnsweredOnMiniport sh t r := by
  obtain ⟨before, p, c, last, rfl, he, hp⟩ := ha
  obtain ⟨t₁, t₂, rfl, h1, h2⟩ := h.append_inv
  obtain ⟨ck, sl, got⟩ := last
  unfold Round.exchanges at h2
  dsimp only at h2 he
  have hz0 : (zeros 2048).length = 2048 := zeros_length _
  generalize hz : zeros 2048 = z at h2
  cases h2 with
  | now r1 =>
    cases r1 with
    | sleep r2 =>
      cases r2 with
      | @long out dma p c buf to a1 a2 T t long rest =>
        rw [← hz, hz0] at long
        omega
      | @sec out dma p c buf inb to a1 a2 a T t short cmd rest =>
        cases rest
        rename_i ak asl
        subst hz
        dsimp only at he
        refine ⟨t₁ ++ [(.now, ak), (.sleep 25000000, asl), (.place, a1)], p, c, inb, a2, a, by simp, cmd, he, ?_⟩
        have hgot : miniportGot (zeros 2048) inb a.sys = (miniportView (delivered inb a.sys.out)).data.take 2048 := by
          unfold miniportGot
          rw [if_pos he, hz0]
          have hl : ((miniportView (delivered inb a.sys.out)).data.take 2048).length = 2048 := by
            rw [miniportView_data, List.length_take]
            unfold slice
            rw [List.length_take, List.length_drop, delivered_length, cmd.length]
            rfl
          have hfull : ∀ d : Bytes, d.length = 2048 → delivered (zeros 2048) d = d := by
            intro d hd
            unfold delivered
            rw [hz0, List.take_of_length_le (by rw [hd]; exact Nat.le_refl _), hd,
              List.drop_eq_nil_of_le (by rw [hz0]; exact Nat.le_refl _), List.append_nil]
          exact hfull _ hl
        have hp' := hp
        unfold Round.parsed Round.response at hp'
        dsimp only at hp'
        rw [hgot] at hp'
        have hl : ((miniportView (delivered inb a.sys.out)).data.take 2048).length = 2048 := by
          rw [miniportView_data, List.length_take]
          unfold slice
          rw [List.length_take, List.length_drop, delivered_length, cmd.length]
          rfl
        rw [List.take_of_length_le (by rw [hl]; exact Nat.le_refl _), hl, Nat.sub_self, show zeros 0 = [] from rfl,
          List.append_nil] at hp'
        exact hp'

theorem wireImage_short (comId : Nat) (tsn hsn payload : Bytes) : (wireImage comId tsn hsn payload).length ≤ 4096 := by
  unfold wireImage
  rw [List.length_take]
  omega

/-- **C137, reverting.** `RevertTPer` on a drive of the miniport driver opened by the factory, for every password and whatever
Windows answers: the payloads sent are the StartSession command and then, only after an accepted answer with both session
numbers, the Revert call in that session; success is reported only if an accepted answer to the Revert call was received. -/
theorem revert_on_miniport (ctx : Ctx) (o : WinOpened) (sh : Nat) (ho : MiniportDrive o sh) (pw : Bytes) (psid adm : Bool)
    (hk : o.tcgDevice.kind = .opal1 ∨ o.tcgDevice.kind = .opal2) (hf : 0 < ctx.fuel)
    (env : Prog.Env WAReq WARep) (h : Prog.Trace WAReq WARep) :
    let out := OutT.run env h (tcgOnWindows o (o.tcgDevice.revertTPer ctx pw psid adm))
    let comId := o.tcgDevice.baseComId
    ∃ t1 t2, out.2 = t1 ++ t2 ∧
      miniportSent t1 = [revertStartBytes ctx.kdf comId.toNat o.handle.info.serial pw psid] ∧
      ((t2 = [] ∧ out.1 ≠ .ret none) ∨
       (∃ r host tper, AnsweredOnMiniport sh t1 r ∧ Accepted r ∧ SessionNumbers r host tper ∧
        miniportSent t2 = [wireImage comId.toNat (beBytes 4 tper) (beBytes 4 host) revertCall] ∧
        (out.1 = .ret none → ∃ r2, AnsweredOnMiniport sh t2 r2 ∧ Accepted r2))) := by
  intro out comId
  obtain ⟨env', h1, h2⟩ := tcg_on_miniport o sh ho comId (o.tcgDevice.revertTPer ctx pw psid adm)
    (revertTPer_asks ctx o.tcgDevice pw psid adm) env h
  obtain ⟨T1, T2, e, -, ⟨sent, hsent⟩, hc⟩ := revert_summary ctx o.tcgDevice pw psid adm hk hf env' []
  rw [e] at h2
  obtain ⟨t1, t2, hT, g1, g2⟩ := h2.append_inv
  have one : ∀ T x s r b, sends T = [(sendOf x b, s)] → b.length ≤ 4096 → r = b →
      (sentData T).filter (fun b => b.length ≤ 4096) = [r] := by
    intro T x s r b hT hb hr
    unfold sentData
    rw [hT, hr]
    show List.filter _ [b] = [b]
    rw [List.filter_cons_of_pos (by simpa using hb)]
    rfl
  refine ⟨t1, t2, hT, ?_, ?_⟩
  · rw [g1.sent]
    exact one T1 _ sent _ _ hsent (wireImage_short ..) rfl
  · have h1' : out.1 = (OutT.run env' [] (o.tcgDevice.revertTPer ctx pw psid adm)).1 := h1
    rcases hc with ⟨rfl, hc⟩ | ⟨r, host, tper, k1, k2, k3, ⟨sent2, k4⟩, k5⟩
    · refine .inl ⟨by cases g2; rfl, ?_⟩
      rw [h1']
      rcases hc with ⟨s, e, -, hc⟩ | ⟨r, -, -, hc⟩ | hc
      · rw [hc]; simp
      · rw [hc]; simp
      · rw [hc]; simp
    · refine .inr ⟨r, host, tper, g1.answered k1, k2, k3, ?_, ?_⟩
      · rw [g2.sent]
        exact one T2 _ sent2 _ _ k4 (wireImage_short ..) rfl
      · intro hok
        rw [h1'] at hok
        rcases k5 with ⟨e, k5⟩ | ⟨r2, -, -, k5⟩ | ⟨r2, k6, k7, -⟩ | k5
        · rw [k5] at hok; cases hok
        · rw [k5] at hok; cases hok
        · exact ⟨r2, g2.answered k6, k7⟩
        · rw [k5] at hok; cases hok

/-- **C137, default password.** `GetDefaultPassword` on such a drive: the anonymous StartSession command on the Admin SP, then
at most the Get of the PIN column of C_PIN_MSID in the session the drive granted; a password is returned only from an
accepted answer to it. -/
theorem default_password_on_miniport (ctx : Ctx) (o : WinOpened) (sh : Nat) (ho : MiniportDrive o sh)
    (hk : o.tcgDevice.kind = .opal1 ∨ o.tcgDevice.kind = .opal2) (hf : 0 < ctx.fuel)
    (env : Prog.Env WAReq WARep) (h : Prog.Trace WAReq WARep) :
    let out := OutT.run env h (tcgOnWindows o (o.tcgDevice.getDefaultPassword ctx))
    let comId := o.tcgDevice.baseComId
    ∃ t1 t2, out.2 = t1 ++ t2 ∧
      miniportSent t1 = [wireImage comId.toNat [0, 0, 0, 0] [0, 0, 0, 0] (startSessionCall adminSP none)] ∧
      ((t2 = [] ∧ ∀ v, out.1 ≠ .ret (v, none)) ∨
       (∃ r host tper, AnsweredOnMiniport sh t1 r ∧ Accepted r ∧ SessionNumbers r host tper ∧
        miniportSent t2 = [wireImage comId.toNat (beBytes 4 tper) (beBytes 4 host) getMsidCall] ∧
        (∀ v, out.1 = .ret (v, none) → ∃ r2, AnsweredOnMiniport sh t2 r2 ∧ Accepted r2 ∧ msidResult r2 = (v, none)))) := by
  intro out comId
  obtain ⟨env', h1, h2⟩ := tcg_on_miniport o sh ho comId (o.tcgDevice.getDefaultPassword ctx)
    (getDefaultPassword_asks ctx o.tcgDevice) env h
  obtain ⟨T1, T2, e, ⟨sent, hsent⟩, hc⟩ := defaultPassword_spec ctx o.tcgDevice hk hf env' []
  rw [e] at h2
  obtain ⟨t1, t2, hT, g1, g2⟩ := h2.append_inv
  have one : ∀ T x s r b, sends T = [(sendOf x b, s)] → b.length ≤ 4096 → r = b →
      (sentData T).filter (fun b => b.length ≤ 4096) = [r] := by
    intro T x s r b hT hb hr
    unfold sentData
    rw [hT, hr]
    show List.filter _ [b] = [b]
    rw [List.filter_cons_of_pos (by simpa using hb)]
    rfl
  refine ⟨t1, t2, hT, ?_, ?_⟩
  · rw [g1.sent]
    exact one T1 _ sent _ _ hsent (wireImage_short ..) rfl
  · have h1' : out.1 = (OutT.run env' [] (o.tcgDevice.getDefaultPassword ctx)).1 := h1
    rw [h1']
    rcases hc with ⟨rfl, hc⟩ | ⟨r, host, tper, k1, k2, k3, ⟨sent2, k4⟩, k5⟩
    · exact .inl ⟨by cases g2; rfl, hc⟩
    · refine .inr ⟨r, host, tper, g1.answered k1, k2, k3, ?_, ?_⟩
      · rw [g2.sent]
        exact one T2 _ sent2 _ _ k4 (wireImage_short ..) rfl
      · intro v hok
        rcases k5 with ⟨r2, k6, k7, k8⟩ | k5
        · refine ⟨r2, g2.answered k6, k7, ?_⟩
          rw [k8] at hok
          simpa using hok
        · exact absurd hok (k5 v)

/-! ### A concrete case -/

/-- A drive of the miniport driver with an Opal 2 security subsystem. -/
def sampleMiniportOpened : WinOpened :=
  { drv := some (.nvmeWin 8 9),
    handle := { dh := some { ata := false, nvme := true, identity := [] },
                info := { level0 := { opalV200 := true, made := true } } } }

/-- A system that delivers the friendly answer into the data area of every miniport record. -/
def miniportFriendly : Prog.Env WAReq WARep := fun _ q => match q with
  | .sys (.ioctl _ 0x4d008 inb _ _) => { sys := { out := inb.take 152 ++ responseOf friendlyPayload } }
  | _ => {}

example : MiniportDrive sampleMiniportOpened 9 ∧ sampleMiniportOpened.tcgDevice.kind = .opal2 ∧ 0 < sampleCtx.fuel :=
  ⟨⟨8, rfl, [], rfl⟩, rfl, by decide⟩

/-- The revert succeeds with two Security Sends. -/
example : (match OutT.run miniportFriendly [] (tcgOnWindows sampleMiniportOpened
      (sampleMiniportOpened.tcgDevice.revertTPer sampleCtx [0x70] false true)) with
    | (.ret none, t) => (miniportSent t).length | _ => 0) = 2 := by decide +kernel

end Dparm
