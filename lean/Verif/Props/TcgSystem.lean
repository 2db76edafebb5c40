import Verif.Lemmas.TcgSystem
import Verif.Props.Revert
import Verif.Props.LinuxSystem
/-!
# Properties: TCG operations on a drive opened by the Linux factory (C124-C126)
-/
namespace Dparm
open Spec

/-! ## NVMe -/

theorem nvmeSecurity_record (rw : Bool) (p : Byte) (c : BitVec 16) (buf : Bytes) (addr : BitVec 64)
    (hlen : buf.length < 4294967296) :
    IsNvmeSecurity rw p c buf.length (adminRecord (securityNvme rw p c buf) addr) := by
  have hdl : (securityNvme rw p c buf).dataLen.toNat = buf.length := by
    show (BitVec.ofNat 32 buf.length).toNat = _
    rw [BitVec.toNat_ofNat, Nat.mod_eq_of_lt (by omega)]
  have h11 : (securityNvme rw p c buf).cdw11.toNat = buf.length := hdl
  refine ⟨by cases rw <;> rfl, ?_, hdl, rfl, rfl⟩
  unfold securityOf
  show Security.mk ((securityNvme rw p c buf).cdw10.toNat / 16777216) ((securityNvme rw p c buf).cdw10.toNat / 256 % 65536)
    ((securityNvme rw p c buf).cdw10.toNat % 256) (securityNvme rw p c buf).cdw11.toNat = _
  rw [h11, securityNvme_cdw10]
  have hp := p.isLt
  have hc := c.isLt
  rw [Security.mk.injEq]
  exact ⟨by omega, by omega, by omega, rfl⟩

/-- One security command on an NVMe drive. -/
theorem nvme_step {o : Opened} {fd : Nat} {id : Bytes} (hs : o.source = some (0, fd))
    (hd : o.handle.dh = some { ata := false, nvme := true, identity := id }) (rw dma : Bool) (p : Byte) (c : BitVec 16)
    (buf : Bytes) (to : Nat) (hlen : buf.length < 4294967296) (env : Prog.Env AReq ARep) (h : Prog.Trace AReq ARep) :
    ∃ k a1 a2 a, IsNvmeSecurity rw p c buf.length k ∧ OutT.run env h (secOnLinux o (.sec rw dma p c buf to)) =
      (.ret { err := nvmeVerdict a.sys.nv, data := delivered buf a.sys.nv.data, behind := a2.sys.behind },
       [(.sys .place, a1), (.sys .place, a2), (.sys (.nvme fd 0xC0484E41 k (some buf)), a)]) := by
  obtain ⟨a1, a2, a, hr⟩ := nvme_chunk hs hd rw dma p c buf to env h
  refine ⟨_, a1, a2, a, nvmeSecurity_record rw p c buf (BitVec.ofNat 64 a2.sys.addr) hlen, ?_⟩
  have hop : NVME_IOCTL_ADMIN_CMD = 0xC0484E41#64 := by decide
  have hdl : (adminRecord (securityNvme rw p c buf) (BitVec.ofNat 64 a2.sys.addr)).dataLen.toNat = buf.length :=
    (nvmeSecurity_record rw p c buf (BitVec.ofNat 64 a2.sys.addr) hlen).length
  have hdata : storeInto buf ((a.sys.nv.stored (securityNvme rw p c buf)
      (adminRecord (securityNvme rw p c buf) (BitVec.ofNat 64 a2.sys.addr))).getD []) = delivered buf a.sys.nv.data := by
    unfold NvRep.stored
    rw [if_neg (fun hx => hx rfl), hdl]
    show storeInto buf (storeInto buf (a.sys.nv.data.take buf.length)) = _
    rw [storeInto_full _ _ (by rw [storeInto_delivered, delivered_length]), storeInto_delivered]
    unfold delivered
    rw [List.take_take, Nat.min_self]
  rw [hr, hop, hdata]
  rfl

theorem onNvme_of_chunks {o : Opened} {fd : Nat} {id : Bytes} (hs : o.source = some (0, fd))
    (hd : o.handle.dh = some { ata := false, nvme := true, identity := id }) {env : Prog.Env AReq ARep}
    {T : Prog.Trace SecReq SecRep} {t : Prog.Trace AReq ARep} (h : OutT.Chunks (secOnLinux o) env T t)
    (hlen : ∀ out dma p c buf to r, (SecReq.sec out dma p c buf to, r) ∈ T → buf.length < 4294967296) : OnNvme fd T t := by
  induction h with
  | nil => exact .nil
  | @cons q r hh c T t hc ht ih =>
    have ih := ih (fun out dma p c buf to r hm => hlen out dma p c buf to r (List.mem_cons_of_mem _ hm))
    cases q with
    | now =>
      unfold secOnLinux at hc
      rw [OutT.run_ask_bind] at hc
      simp only [OutT.run_ret, Prod.mk.injEq, Out.ret.injEq] at hc
      obtain ⟨rfl, rfl⟩ := hc
      exact .now ih
    | sleep ns =>
      unfold secOnLinux at hc
      rw [OutT.run_ask_bind] at hc
      simp only [OutT.run_ret, Prod.mk.injEq, Out.ret.injEq] at hc
      obtain ⟨rfl, rfl⟩ := hc
      exact .sleep ih
    | sec out dma p c' buf to =>
      obtain ⟨k, a1, a2, a, hk, hr⟩ := nvme_step hs hd out dma p c' buf to
        (hlen out dma p c' buf to r List.mem_cons_self) env hh
      rw [hr] at hc
      simp only [Prod.mk.injEq, Out.ret.injEq] at hc
      obtain ⟨rfl, rfl⟩ := hc
      exact .sec hk ih

theorem nvme_total {o : Opened} {fd : Nat} {id : Bytes} (hs : o.source = some (0, fd))
    (hd : o.handle.dh = some { ata := false, nvme := true, identity := id }) (env : Prog.Env AReq ARep) (q : SecReq)
    (h : Prog.Trace AReq ARep) : ∃ r, (OutT.run env h (secOnLinux o q)).1 = .ret r ∧ True := by
  cases q with
  | now => exact ⟨_, by unfold secOnLinux; rw [OutT.run_ask_bind]; rfl, trivial⟩
  | sleep ns => exact ⟨_, by unfold secOnLinux; rw [OutT.run_ask_bind]; rfl, trivial⟩
  | sec rw dma p c buf to =>
    obtain ⟨a1, a2, a, hr⟩ := nvme_chunk hs hd rw dma p c buf to env h
    exact ⟨_, by rw [hr], trivial⟩

/-- **C124.** On an NVMe drive: whatever the kernel answers, an operation of the TCG layer behaves as in a conversation
with some drive, and each security command of that conversation is exactly one NVMe admin ioctl on the drive's own
descriptor, a Security Send or Receive with the same protocol, ComID and buffer; its result and data are the answer. -/
theorem tcg_on_nvme {α : Type} (o : Opened) (fd : Nat) (id : Bytes) (hs : o.source = some (0, fd))
    (hd : o.handle.dh = some { ata := false, nvme := true, identity := id }) (comId : BitVec 16) (p : TcgM α)
    (hp : OutT.Asks (TcgAsk comId) p) (env : Prog.Env AReq ARep) (h : Prog.Trace AReq ARep) :
    ∃ env' : Prog.Env SecReq SecRep, (OutT.run env h (tcgOnLinux o p)).1 = (OutT.run env' [] p).1 ∧
      OnNvme fd (OutT.run env' [] p).2 (OutT.run env h (tcgOnLinux o p)).2 ∧
      ∀ x ∈ (OutT.run env h (tcgOnLinux o p)).2, TcgOnNvmeOnly fd comId x.1 := by
  obtain ⟨h1, h2⟩ := OutT.interp_chunks (A := TcgAsk comId) (B := fun _ _ => True) (secOnLinux o) env {} h
    (fun q _ h => nvme_total hs hd env q h) (p := p) (OutT.within_of_asks hp)
  have ha := OutT.asks_run hp (OutT.upperEnv (secOnLinux o) env {} h) []
  have hlen : ∀ out dma p' c buf to r, (SecReq.sec out dma p' c buf to, r) ∈
      (OutT.run (OutT.upperEnv (secOnLinux o) env {} h) [] p).2 → buf.length < 4294967296 := by
    intro out dma p' c buf to r hm
    have := ha _ hm
    cases out with
    | true => have h5 := this.2.2.2.2.2.1; omega
    | false => rw [show buf = zeros 2048 from this.2.2.2.2, zeros_length]; omega
  have hon := onNvme_of_chunks hs hd h2 hlen
  refine ⟨_, h1, hon, ?_⟩
  generalize (OutT.run (OutT.upperEnv (secOnLinux o) env {} h) [] p).2 = T at hon ha
  unfold tcgOnLinux
  generalize (OutT.run env h (OutT.interp (secOnLinux o) p)).2 = t at hon
  clear h1 h2 hlen
  induction hon with
  | nil => intro x hx; cases hx
  | now rest ih =>
    intro x hx
    rcases List.mem_cons.1 hx with rfl | hx
    · trivial
    · exact ih (fun y hy => ha y (List.mem_cons_of_mem _ hy)) x hx
  | @sleep ns a T t rest ih =>
    intro x hx
    rcases List.mem_cons.1 hx with rfl | hx
    · exact ha _ List.mem_cons_self
    · exact ih (fun y hy => ha y (List.mem_cons_of_mem _ hy)) x hx
  | @sec out dma p' c buf to k a1 a2 a T t cmd rest ih =>
    intro x hx
    have hq := ha _ List.mem_cons_self
    simp only [List.mem_cons] at hx
    rcases hx with rfl | rfl | rfl | hx
    · trivial
    · trivial
    · refine ⟨rfl, rfl, ?_⟩
      cases out with
      | true =>
        obtain ⟨-, rfl, rfl, -⟩ := hq
        exact .inl ⟨buf, rfl, cmd⟩
      | false =>
        obtain ⟨-, rfl, rfl, -, rfl⟩ := hq
        rw [zeros_length] at cmd
        exact .inr ⟨rfl, cmd⟩
    · exact ih (fun y hy => ha y (List.mem_cons_of_mem _ hy)) x hx

/-- **C124, the drives.** Every drive the Linux factory returns is bound to the descriptor opened for it, by the NVMe
driver or by the SCSI generic driver, or has no driver at all. -/
theorem linux_open_kinds (order : List (Bytes × Bytes) → List (Bytes × Bytes)) (path : Bytes)
    (env : Prog.Env LReq LRep) (hist : Prog.Trace LReq LRep) (o : Opened)
    (h : (OutT.run env hist (linuxOpenByPath order path)).1 = .ret (.ok o)) :
    NvmeDrive o (env hist (.os (.openDev path))).os.fd ∨ ScsiDrive o (env hist (.os (.openDev path))).os.fd ∨ NoDriver o := by
  obtain ⟨before, tr, g2, g3, hs, D⟩ := linux_open_upper order path env hist o h
  cases hl : lastAccepted tr with
  | none =>
    exact .inr (.inr ⟨by rw [D.source, hl, g3.source]; rfl, by rw [D.dh, hl, g3.dh]; rfl⟩)
  | some x =>
    obtain ⟨i, f, r⟩ := x
    have h1 : o.source = some (i, f) := by rw [D.source, hl]; rfl
    have h2 : o.handle.dh = some r.driver := by rw [D.dh, hl]; rfl
    have hm := List.mem_filter.1 (List.mem_of_getLast? hl)
    obtain ⟨hi, hi2, hf⟩ := tries_mem_range D.order hm.1
    dsimp only at hi hi2 hf
    have hacc : r.err = none := by
      have := hm.2
      simpa [accepted] using this
    have hmem : (FReq.tryDriver i f, r) ∈ tr := by
      have := hm.1
      unfold tries at this
      rw [List.mem_filterMap] at this
      obtain ⟨⟨q, r'⟩, hx, hy⟩ := this
      cases q <;> simp at hy
      obtain ⟨rfl, rfl, rfl⟩ := hy
      exact hx
    obtain ⟨c, hc⟩ := hs.facts (FReq.tryDriver i f, r) (List.mem_cons_of_mem _ hmem)
    have hr := hc.repOk hacc
    rcases hdr : r.driver with ⟨da, dn, did⟩
    rw [hdr] at hr h2
    subst hf
    match i, hi2 with
    | 0, _ =>
      obtain ⟨ha, hn⟩ := hr
      have ha' : da = false := ha
      have hn' : dn = true := hn
      refine .inl ⟨h1, did, ?_⟩
      rw [h2, ha', hn']
    | 1, _ =>
      obtain ⟨ha, hn⟩ := hr
      have ha' : da = true := ha
      have hn' : dn = false := hn
      refine .inr (.inl ⟨h1, did, ?_⟩)
      rw [h2, ha', hn']

theorem Spec.OnNvme.append_inv {fd : Nat} {T₂ : Prog.Trace SecReq SecRep} : ∀ {T₁ : Prog.Trace SecReq SecRep}
    {t : Prog.Trace AReq ARep}, OnNvme fd (T₁ ++ T₂) t → ∃ t₁ t₂, t = t₁ ++ t₂ ∧ OnNvme fd T₁ t₁ ∧ OnNvme fd T₂ t₂ := by
  intro T₁
  induction T₁ with
  | nil => intro t h; exact ⟨[], t, rfl, .nil, h⟩
  | cons x T₁ ih =>
    intro t h
    rw [List.cons_append] at h
    cases h with
    | now rest =>
      obtain ⟨t₁, t₂, rfl, h1, h2⟩ := ih rest
      exact ⟨_ :: t₁, t₂, rfl, .now h1, h2⟩
    | sleep rest =>
      obtain ⟨t₁, t₂, rfl, h1, h2⟩ := ih rest
      exact ⟨_ :: t₁, t₂, rfl, .sleep h1, h2⟩
    | sec cmd rest =>
      obtain ⟨t₁, t₂, rfl, h1, h2⟩ := ih rest
      exact ⟨_ :: _ :: _ :: t₁, t₂, rfl, .sec cmd h1, h2⟩

/-- The payloads of the sends of a TCG conversation. -/
def sentData (T : Prog.Trace SecReq SecRep) : List Bytes :=
  (sends T).map (fun x => match x.1 with | .sec _ _ _ _ data _ => data | _ => [])

theorem Spec.OnNvme.sent {fd : Nat} {T : Prog.Trace SecReq SecRep} {t : Prog.Trace AReq ARep} (h : OnNvme fd T t) :
    nvmeSent t = sentData T := by
  induction h with
  | nil => rfl
  | now rest ih => exact ih
  | sleep rest ih => exact ih
  | @sec out dma p c buf to k a1 a2 a T t cmd rest ih =>
    have hop := cmd.opcode
    unfold nvmeSent at ih ⊢
    cases out with
    | true =>
      have hop' : k.opcode = 0x81 := hop
      simp only [List.filterMap_cons, hop', if_true, Option.getD_some, ih]
      rfl
    | false =>
      have hop' : ¬ k.opcode = 0x81 := by rw [hop]; decide
      simp only [List.filterMap_cons, if_neg hop', ih]
      rfl

theorem Spec.OnNvme.answered {fd : Nat} {T : Prog.Trace SecReq SecRep} {t : Prog.Trace AReq ARep} (h : OnNvme fd T t)
    {r : Resp} (ha : Answered T r) : AnsweredOnNvme fd t r := by
  obtain ⟨before, p, c, last, rfl, he, hp⟩ := ha
  obtain ⟨t₁, t₂, rfl, h1, h2⟩ := h.append_inv
  obtain ⟨ck, sl, got⟩ := last
  unfold Round.exchanges at h2
  dsimp only at h2 he
  generalize hz : zeros 2048 = z at h2
  cases h2 with
  | now r1 =>
    cases r1 with
    | sleep r2 =>
      cases r2 with
      | @sec out dma p c buf to k a1 a2 a T t cmd rest =>
        cases rest
        rename_i ak asl
        subst hz
        have hv : a.sys.nv.errno = 0 ∧ a.sys.nv.ret = 0 := by
          dsimp only at he
          unfold nvmeVerdict at he
          by_cases h0 : a.sys.nv.errno = 0
          · by_cases h1 : a.sys.nv.ret = 0
            · exact ⟨h0, h1⟩
            · rw [if_neg (fun x => x h0), if_pos h1] at he; cases he
          · rw [if_pos h0] at he; cases he
        rw [zeros_length] at cmd
        refine ⟨t₁ ++ [(.now, ak), (.sleep 25000000, asl), (.sys .place, a1)], p, c, k, a2, a, by simp, cmd, hv.1, hv.2, ?_⟩
        have hp' := hp
        unfold Round.parsed Round.response at hp'
        have hl : (delivered (zeros 2048) a.sys.nv.data).length = 2048 := by rw [delivered_length, zeros_length]
        rw [List.take_of_length_le (by rw [hl]; exact Nat.le_refl _), hl, Nat.sub_self, show zeros 0 = [] from rfl,
          List.append_nil] at hp'
        exact hp'

/-- The StartSession command of a revert: anonymous without a password, else with the password itself under the authority
PSID, or with the derived key under the authority SID. -/
def revertStartBytes (kdf : Kdf) (comId : Nat) (serial pw : Bytes) (psid : Bool) : Bytes :=
  wireImage comId [0, 0, 0, 0] [0, 0, 0, 0] (startSessionCall adminSP
    (if pw = [] then none
     else some (stringArg (if psid then pw else [0xd0, 0x20] ++ kdf.key (pw.take 32) serial),
      0xa8 :: (if psid then psidAuthority else sidAuthority))))

/-- **C125.** `RevertTPer` on an NVMe drive opened by the factory, for every password and whatever the kernel answers:
nothing but Security Send and Security Receive commands of protocol 1 on the drive's base ComID reaches the drive, on its
own descriptor. The payloads sent are the StartSession command and then, only after an accepted answer with both session
numbers, the Revert call in that session; success is reported only if an accepted answer to the Revert call was received. -/
theorem revert_on_nvme (ctx : Ctx) (o : Opened) (fd : Nat) (ho : NvmeDrive o fd) (pw : Bytes) (psid adm : Bool)
    (hk : o.tcgDevice.kind = .opal1 ∨ o.tcgDevice.kind = .opal2) (hf : 0 < ctx.fuel)
    (env : Prog.Env AReq ARep) (h : Prog.Trace AReq ARep) :
    let out := OutT.run env h (tcgOnLinux o (o.tcgDevice.revertTPer ctx pw psid adm))
    let comId := o.tcgDevice.baseComId
    (∀ x ∈ out.2, TcgOnNvmeOnly fd comId x.1) ∧
    ∃ t1 t2, out.2 = t1 ++ t2 ∧
      nvmeSent t1 = [revertStartBytes ctx.kdf comId.toNat o.handle.info.serial pw psid] ∧
      ((t2 = [] ∧ out.1 ≠ .ret none) ∨
       (∃ r host tper, AnsweredOnNvme fd t1 r ∧ Accepted r ∧ SessionNumbers r host tper ∧
        nvmeSent t2 = [wireImage comId.toNat (beBytes 4 tper) (beBytes 4 host) revertCall] ∧
        (out.1 = .ret none → ∃ r2, AnsweredOnNvme fd t2 r2 ∧ Accepted r2))) := by
  obtain ⟨hs, id, hd⟩ := ho
  intro out comId
  obtain ⟨env', h1, h2, h3⟩ := tcg_on_nvme o fd id hs hd comId (o.tcgDevice.revertTPer ctx pw psid adm)
    (revertTPer_asks ctx o.tcgDevice pw psid adm) env h
  refine ⟨h3, ?_⟩
  obtain ⟨T1, T2, e, -, ⟨sent, hsent⟩, hc⟩ := revert_summary ctx o.tcgDevice pw psid adm hk hf env' []
  rw [e] at h2
  obtain ⟨t1, t2, hT, g1, g2⟩ := h2.append_inv
  refine ⟨t1, t2, hT, ?_, ?_⟩
  · rw [g1.sent]
    unfold sentData
    rw [hsent]
    rfl
  · have h1' : out.1 = (OutT.run env' [] (o.tcgDevice.revertTPer ctx pw psid adm)).1 := h1
    rcases hc with ⟨rfl, hc⟩ | ⟨r, host, tper, k1, k2, k3, ⟨sent2, k4⟩, k5⟩
    · refine .inl ⟨by cases g2; rfl, ?_⟩
      rw [h1']
      rcases hc with ⟨s, e, -, hc⟩ | ⟨r, -, -, hc⟩ | hc
      · rw [hc]; simp
      · rw [hc]; simp
      · rw [hc]; simp
    · refine .inr ⟨r, host, tper, g1.answered k1, k2, k3, ?_, ?_⟩
      · rw [g2.sent]
        unfold sentData
        rw [k4]
        rfl
      · intro hok
        rw [h1'] at hok
        rcases k5 with ⟨e, k5⟩ | ⟨r2, -, -, k5⟩ | ⟨r2, k6, k7, -⟩ | k5
        · rw [k5] at hok; cases hok
        · rw [k5] at hok; cases hok
        · exact ⟨r2, g2.answered k6, k7⟩
        · rw [k5] at hok; cases hok

/-- **C125, default password.** `GetDefaultPassword` on an NVMe drive: the anonymous StartSession command on the Admin SP,
then at most the Get of the PIN column of C_PIN_MSID in the session the drive granted; a password is returned only from an
accepted answer to it. -/
theorem default_password_on_nvme (ctx : Ctx) (o : Opened) (fd : Nat) (ho : NvmeDrive o fd)
    (hk : o.tcgDevice.kind = .opal1 ∨ o.tcgDevice.kind = .opal2) (hf : 0 < ctx.fuel)
    (env : Prog.Env AReq ARep) (h : Prog.Trace AReq ARep) :
    let out := OutT.run env h (tcgOnLinux o (o.tcgDevice.getDefaultPassword ctx))
    let comId := o.tcgDevice.baseComId
    (∀ x ∈ out.2, TcgOnNvmeOnly fd comId x.1) ∧
    ∃ t1 t2, out.2 = t1 ++ t2 ∧
      nvmeSent t1 = [wireImage comId.toNat [0, 0, 0, 0] [0, 0, 0, 0] (startSessionCall adminSP none)] ∧
      ((t2 = [] ∧ ∀ v, out.1 ≠ .ret (v, none)) ∨
       (∃ r host tper, AnsweredOnNvme fd t1 r ∧ Accepted r ∧ SessionNumbers r host tper ∧
        nvmeSent t2 = [wireImage comId.toNat (beBytes 4 tper) (beBytes 4 host) getMsidCall] ∧
        (∀ v, out.1 = .ret (v, none) → ∃ r2, AnsweredOnNvme fd t2 r2 ∧ Accepted r2 ∧ msidResult r2 = (v, none)))) := by
  obtain ⟨hs, id, hd⟩ := ho
  intro out comId
  obtain ⟨env', h1, h2, h3⟩ := tcg_on_nvme o fd id hs hd comId (o.tcgDevice.getDefaultPassword ctx)
    (getDefaultPassword_asks ctx o.tcgDevice) env h
  refine ⟨h3, ?_⟩
  obtain ⟨T1, T2, e, ⟨sent, hsent⟩, hc⟩ := defaultPassword_spec ctx o.tcgDevice hk hf env' []
  rw [e] at h2
  obtain ⟨t1, t2, hT, g1, g2⟩ := h2.append_inv
  refine ⟨t1, t2, hT, ?_, ?_⟩
  · rw [g1.sent]
    unfold sentData
    rw [hsent]
    rfl
  · have h1' : out.1 = (OutT.run env' [] (o.tcgDevice.getDefaultPassword ctx)).1 := h1
    rw [h1']
    rcases hc with ⟨rfl, hc⟩ | ⟨r, host, tper, k1, k2, k3, ⟨sent2, k4⟩, k5⟩
    · exact .inl ⟨by cases g2; rfl, hc⟩
    · refine .inr ⟨r, host, tper, g1.answered k1, k2, k3, ?_, ?_⟩
      · rw [g2.sent]
        unfold sentData
        rw [k4]
        rfl
      · intro v hok
        rcases k5 with ⟨r2, k6, k7, k8⟩ | k5
        · refine ⟨r2, g2.answered k6, k7, ?_⟩
          rw [k8] at hok
          simpa using hok
        · exact absurd hok (k5 v)

/-! ## A concrete case -/

/-- An NVMe drive with an Opal 2 security subsystem on descriptor 9. -/
def sampleNvmeOpened : Opened :=
  { source := some (0, 9),
    handle := { dh := some { ata := false, nvme := true, identity := [] },
                info := { level0 := { opalV200 := true, made := true } } } }

/-- The payload of every answer of the friendly drive of `Props/Revert.lean`. -/
def friendlyPayload : Bytes := [0xf8, 0xa1, 0, 0xa1, 0, 0xf0, 0x81, 105, 0x82, 0x10, 7, 0xf1, 0xf9, 0xf0, 0, 0, 0, 0xf1]

/-- A kernel that delivers that answer to every Security Receive. -/
def nvmeFriendly : Prog.Env AReq ARep := fun _ q => match q with
  | .sys (.nvme _ _ k _) => if k.opcode = 0x82 then { sys := { nv := { data := responseOf friendlyPayload } } } else {}
  | _ => {}

example : NvmeDrive sampleNvmeOpened 9 ∧ sampleNvmeOpened.tcgDevice.kind = .opal2 ∧ 0 < sampleCtx.fuel :=
  ⟨⟨rfl, [], rfl⟩, rfl, by decide⟩

/-- The revert succeeds with two Security Sends. -/
example : (match OutT.run nvmeFriendly [] (tcgOnLinux sampleNvmeOpened (sampleNvmeOpened.tcgDevice.revertTPer sampleCtx [0x70] false true)) with
    | (.ret none, t) => (nvmeSent t).length | _ => 0) = 2 := by decide +kernel

/-- If the kernel refuses the ioctl, its error is returned after one. -/
example : (match OutT.run (fun _ _ => { sys := { nv := { errno := 13 } } }) []
      (tcgOnLinux sampleNvmeOpened (sampleNvmeOpened.tcgDevice.revertTPer sampleCtx [0x70] false true)) with
    | (.ret (some e), t) => (some e, (nvmeSent t).length) | _ => (none, 0)) = (some (.errno 13), 1) := by decide +kernel

end Dparm
