import Verif.Lemmas.TcgScsi
import Verif.Props.TcgSystem
/-!
# Properties: TCG operations on a drive opened by the Linux factory, SCSI generic or without driver (C126)
-/
namespace Dparm
open Spec

theorem tcgAsk_sizes {comId : BitVec 16} {out dma : Bool} {p : Byte} {c : BitVec 16} {buf : Bytes} {to : Nat}
    (h : TcgAsk comId (.sec out dma p c buf to)) : dma = false ∧ buf ≠ [] ∧ buf.length < 4294967296 := by
  cases out with
  | true =>
    obtain ⟨h1, -, -, -, h2, h3, -⟩ := h
    exact ⟨h1, fun hx => by rw [hx] at h2; simp at h2, by omega⟩
  | false =>
    obtain ⟨h1, -, -, -, h2⟩ := h
    have hl : buf.length = 2048 := by rw [h2, zeros_length]
    exact ⟨h1, fun hx => by rw [hx] at hl; simp at hl, by omega⟩

/-- One security command on a SCSI generic drive. -/
theorem scsi_step {o : Opened} {fd : Nat} {id : Bytes} (hs : o.source = some (1, fd))
    (hd : o.handle.dh = some { ata := true, nvme := false, identity := id }) (rw : Bool) (p : Byte) (c : BitVec 16)
    (buf : Bytes) (to : Nat) (hne : buf ≠ []) (hlen : buf.length < 4294967296) (env : Prog.Env AReq ARep)
    (h : Prog.Trace AReq ARep) :
    ∃ rep u, OutT.run env h (secOnLinux o (.sec rw false p c buf to)) = (.ret rep, u) ∧ ScsiSecurity fd rw p c buf u rep ∧
      rep.data.length = buf.length := by
  obtain ⟨P, hP⟩ : ∃ P, P = onLinux (o.onHandle (o.handle.securityCommand rw false p c buf to)) := ⟨_, rfl⟩
  unfold secOnLinux
  dsimp only
  rw [← hP]
  obtain ⟨env', h1, h2⟩ := sysCall_run P env h
  suffices key : ∃ rep U, OutT.run env' [] P = (.ret rep, U) ∧ rep.data.length = buf.length ∧
      ∀ t, SysWire U t → ScsiSecurity fd rw p c buf t rep by
    obtain ⟨rep, U, k1, k2, k3⟩ := key
    rw [k1] at h1 h2
    exact ⟨rep, _, Prod.ext h1 rfl, k3 _ h2, k2⟩
  clear h1 h2
  unfold Opened.onHandle at hP
  rw [hs] at hP
  dsimp only at hP
  unfold Handle.securityCommand at hP
  rw [hd] at hP
  dsimp only at hP
  rw [onLinux_drvSg] at hP
  rw [hP]
  obtain ⟨pl, q, r, v, d1, u, ad, m, hrun, hcmd, hmem, hio, hheld, hl1, hsend, hrecv⟩ :=
    drvSg_sec fd rw false p c buf to hne hlen env' []
  rw [OutT.run_bind_ret env' [] hrun]
  have hst : storeInto buf d1 = d1 := storeInto_full _ _ hl1
  dsimp only
  rw [hst]
  cases v with
  | none =>
    refine ⟨{ err := none, data := d1, behind := pl.behind }, (LReq.place, pl) :: u ++ [], rfl, hl1, ?_⟩
    intro t ht
    rw [List.append_nil] at ht
    cases ht with
    | cons h2 =>
      obtain ⟨a, ha, hw⟩ := hio.wire h2
      refine .direct hcmd hmem hheld hw rfl ?_
      cases rw with
      | true => exact hsend rfl
      | false =>
        obtain ⟨k1, k2⟩ := hrecv rfl
        rw [← ha] at k1 k2
        exact ⟨k1, k2⟩
  | some e =>
    dsimp only
    rw [if_pos rfl, onLinux_drvSg]
    have hne1 : d1 ≠ [] := by
      intro hx; rw [hx] at hl1
      exact hne (List.length_eq_zero_iff.1 hl1.symm)
    obtain ⟨pl', q', r', v', w', tf', d2, u', ad', m', hrun', hcmd', hmem', hio', hbad, hl2, hsend', hrecv'⟩ :=
      drvSg_task fd rw p c d1 to hne1 (by omega) env' ([] ++ (LReq.place, pl) :: u)
    rw [OutT.run_bind_ret env' _ hrun']
    have hst2 : storeInto d1 d2 = d2 := storeInto_full _ _ hl2
    dsimp only
    rw [hst2]
    refine ⟨{ err := w', data := d2, behind := pl'.behind }, (LReq.place, pl) :: u ++ ((LReq.place, pl') :: u' ++ []), rfl,
      hl2.trans hl1, ?_⟩
    intro t ht
    rw [List.append_nil] at ht
    obtain ⟨t1, t2, rfl, w1, w2⟩ := ht.append_inv
    cases w1 with
    | cons w1 =>
      cases w2 with
      | cons w2 =>
        obtain ⟨a, ha, hw⟩ := hio.wire w1
        obtain ⟨a', ha', hw'⟩ := hio'.wire w2
        rw [hl1] at hcmd' hsend' hrecv'
        refine .fallback (now := d1) hcmd hmem hheld hw ?_ hcmd' hmem' ?_ hw' hbad ?_
        · cases rw with
          | true => exact hsend rfl
          | false =>
            obtain ⟨k1, k2⟩ := hrecv rfl
            rw [← ha] at k1 k2
            exact ⟨k1, k2⟩
        · cases rw with
          | true => exact (hsend' rfl).1
          | false => exact (hrecv' rfl).1
        · cases rw with
          | true => exact (hsend' rfl).2
          | false =>
            obtain ⟨-, k1, k2⟩ := hrecv' rfl
            rw [← ha'] at k1 k2
            exact ⟨k1, k2⟩

theorem onScsi_of_chunks {o : Opened} {fd : Nat} {id : Bytes} (hs : o.source = some (1, fd))
    (hd : o.handle.dh = some { ata := true, nvme := false, identity := id }) {env : Prog.Env AReq ARep}
    {T : Prog.Trace SecReq SecRep} {t : Prog.Trace AReq ARep} (h : OutT.Chunks (secOnLinux o) env T t)
    (hlen : ∀ out dma p c buf to r, (SecReq.sec out dma p c buf to, r) ∈ T → dma = false ∧ buf ≠ [] ∧ buf.length < 4294967296) :
    OnScsi fd T t ∧ ∀ out dma p c buf to r, (SecReq.sec out dma p c buf to, r) ∈ T → r.data.length = buf.length := by
  induction h with
  | nil => exact ⟨.nil, fun _ _ _ _ _ _ _ hm => by cases hm⟩
  | @cons q r hh c T t hc ht ih =>
    obtain ⟨ih, ihl⟩ := ih (fun out dma p c buf to r hm => hlen out dma p c buf to r (List.mem_cons_of_mem _ hm))
    cases q with
    | now =>
      unfold secOnLinux at hc
      rw [OutT.run_ask_bind] at hc
      simp only [OutT.run_ret, Prod.mk.injEq, Out.ret.injEq] at hc
      obtain ⟨rfl, rfl⟩ := hc
      refine ⟨.now ih, fun out dma p c buf to r hm => ?_⟩
      rcases List.mem_cons.1 hm with hm | hm
      · cases hm
      · exact ihl _ _ _ _ _ _ _ hm
    | sleep ns =>
      unfold secOnLinux at hc
      rw [OutT.run_ask_bind] at hc
      simp only [OutT.run_ret, Prod.mk.injEq, Out.ret.injEq] at hc
      obtain ⟨rfl, rfl⟩ := hc
      refine ⟨.sleep ih, fun out dma p c buf to r hm => ?_⟩
      rcases List.mem_cons.1 hm with hm | hm
      · cases hm
      · exact ihl _ _ _ _ _ _ _ hm
    | sec out dma p c' buf to =>
      obtain ⟨rfl, hne, hl⟩ := hlen out dma p c' buf to r List.mem_cons_self
      obtain ⟨rep, u, hr, hsec, hrl⟩ := scsi_step hs hd out p c' buf to hne hl env hh
      rw [hr] at hc
      simp only [Prod.mk.injEq, Out.ret.injEq] at hc
      obtain ⟨rfl, rfl⟩ := hc
      refine ⟨.sec hsec ih, fun out dma p c buf to r hm => ?_⟩
      rcases List.mem_cons.1 hm with hm | hm
      · cases hm; exact hrl
      · exact ihl _ _ _ _ _ _ _ hm

theorem scsi_total {o : Opened} {fd : Nat} {id : Bytes} (hs : o.source = some (1, fd))
    (hd : o.handle.dh = some { ata := true, nvme := false, identity := id }) (comId : BitVec 16)
    (env : Prog.Env AReq ARep) (q : SecReq) (hq : TcgAsk comId q)
    (h : Prog.Trace AReq ARep) : ∃ r, (OutT.run env h (secOnLinux o q)).1 = .ret r ∧ True := by
  cases q with
  | now => exact ⟨_, by unfold secOnLinux; rw [OutT.run_ask_bind]; rfl, trivial⟩
  | sleep ns => exact ⟨_, by unfold secOnLinux; rw [OutT.run_ask_bind]; rfl, trivial⟩
  | sec rw dma p c buf to =>
    obtain ⟨rfl, hne, hl⟩ := tcgAsk_sizes hq
    obtain ⟨rep, u, hr, -⟩ := scsi_step hs hd rw p c buf to hne hl env h
    exact ⟨_, by rw [hr], trivial⟩

theorem satDecode_opcode {cdb : Bytes} {s : Sat} (h : satDecode cdb = some s) : cdb[0]? ≠ some 0xb5 := by
  unfold satDecode at h
  split at h
  · intro hx
    have hop : _ = (0xb5 : Byte) := Option.some.inj hx
    subst hop
    simp at h
  · intro hx
    have hop : _ = (0xb5 : Byte) := Option.some.inj hx
    subst hop
    simp at h
  · cases h

theorem scsiSent_append (s t : Prog.Trace AReq ARep) : scsiSent (s ++ t) = scsiSent s ++ scsiSent t :=
  List.filterMap_append

theorem scsiIo_sent {fd : Nat} {q : SgReq} {u : Prog.Trace AReq ARep} {a : ARep} {v : Option GoErr} (h : ScsiIo fd q u a v)
    {addr : Nat} {m : Bytes} (hm : q.dxferp = .mem addr m) :
    scsiSent u = if q.cdb[0]? = some 0xb5 then [m] else [] := by
  unfold scsiSent
  cases h with
  | once ok =>
    simp only [List.filterMap_cons, List.filterMap_nil, hm]
    split <;> simp_all
  | twice bad =>
    simp only [List.filterMap_cons, List.filterMap_nil, hm]
    split <;> simp_all

theorem Spec.ScsiSecurity.sent {fd : Nat} {out : Bool} {p : Byte} {c : BitVec 16} {buf : Bytes}
    {u : Prog.Trace AReq ARep} {rep : SecRep} (h : ScsiSecurity fd out p c buf u rep) :
    scsiSent u = if out then [buf] else [] := by
  have hfirst : ∀ {q : SgReq} {u : Prog.Trace AReq ARep} {a : ARep} {v : Option GoErr} {addr : Nat} {m : Bytes} (a₁ : ARep),
      IsSecurityProtocol out p c buf.length q → q.dxferp = .mem addr m → (m = if out then buf else zeros buf.length) →
      ScsiIo fd q u a v → scsiSent ((.sys .place, a₁) :: u) = if out then [buf] else [] := by
    intro q u a v addr m a₁ hc hm hh hio
    show scsiSent u = _
    rw [scsiIo_sent hio hm, hc.opcode, hh]
    cases out
    · rfl
    · rfl
  cases h with
  | direct cmd mem held io ok data => exact hfirst _ cmd mem held io
  | fallback cmd mem held io between cmd' mem' held' io' bad data =>
    rw [scsiSent_append, hfirst _ cmd mem held io]
    obtain ⟨-, -, s, hs, -⟩ := cmd'
    have h2 := scsiIo_sent io' mem'
    rw [if_neg (satDecode_opcode hs)] at h2
    refine Eq.trans (congrArg _ (show scsiSent (_ :: _) = [] from h2)) ?_
    exact List.append_nil _

theorem Spec.OnScsi.sent {fd : Nat} {T : Prog.Trace SecReq SecRep} {t : Prog.Trace AReq ARep} (h : OnScsi fd T t) :
    scsiSent t = sentData T := by
  induction h with
  | nil => rfl
  | now rest ih => exact ih
  | sleep rest ih => exact ih
  | @sec out p c buf to rep u T t cmd rest ih =>
    rw [scsiSent_append, cmd.sent, ih]
    cases out with
    | true => rfl
    | false => rfl

theorem Spec.OnScsi.append_inv {fd : Nat} {T₂ : Prog.Trace SecReq SecRep} : ∀ {T₁ : Prog.Trace SecReq SecRep}
    {t : Prog.Trace AReq ARep}, OnScsi fd (T₁ ++ T₂) t → ∃ t₁ t₂, t = t₁ ++ t₂ ∧ OnScsi fd T₁ t₁ ∧ OnScsi fd T₂ t₂ := by
  intro T₁
  induction T₁ with
  | nil => intro t h; exact ⟨[], t, rfl, .nil, h⟩
  | cons x T₁ ih =>
    intro t h
    rw [List.cons_append] at h
    cases h with
    | now rest =>
      obtain ⟨t₁, t₂, rfl, h1, h2⟩ := ih rest
      exact ⟨_ :: t₁, t₂, rfl, .now h1, h2⟩
    | sleep rest =>
      obtain ⟨t₁, t₂, rfl, h1, h2⟩ := ih rest
      exact ⟨_ :: t₁, t₂, rfl, .sleep h1, h2⟩
    | sec cmd rest =>
      obtain ⟨t₁, t₂, rfl, h1, h2⟩ := ih rest
      exact ⟨_ ++ t₁, t₂, by rw [List.append_assoc], .sec cmd h1, h2⟩

theorem ScsiIo.mem {fd : Nat} {q : SgReq} {u : Prog.Trace AReq ARep} {a : ARep} {v : Option GoErr} (h : ScsiIo fd q u a v) :
    ∀ x ∈ u, x.1 = .sys (.sgIo fd q) ∨ x.1 = .sys (.sgIo fd { q with dxferp := .raw 128 }) := by
  intro x hx
  cases h with
  | once ok =>
    rw [List.mem_singleton] at hx
    exact .inl (by rw [hx])
  | twice bad =>
    simp only [List.mem_cons, List.not_mem_nil, or_false] at hx
    rcases hx with rfl | rfl
    · exact .inl rfl
    · exact .inr rfl

theorem Spec.ScsiSecurity.only {fd : Nat} {out : Bool} {c : BitVec 16} {buf : Bytes} {u : Prog.Trace AReq ARep} {rep : SecRep}
    (h : ScsiSecurity fd out 1 c buf u rep) (hb : out = false → buf = zeros 2048) : ∀ x ∈ u, TcgOnScsiOnly fd c x.1 := by
  have hfirst : ∀ {q : SgReq} {u : Prog.Trace AReq ARep} {a : ARep} {v : Option GoErr},
      IsSecurityProtocol out 1 c buf.length q → ScsiIo fd q u a v → ∀ x ∈ u, TcgOnScsiOnly fd c x.1 := by
    intro q u a v hc hio x hx
    have hc' : IsSecurityProtocol out 1 c buf.length { q with dxferp := .raw 128 } :=
      ⟨hc.1, hc.2, hc.3, hc.4, hc.5, hc.6, hc.7, hc.8⟩
    have fin : ∀ q', IsSecurityProtocol out 1 c buf.length q' → TcgOnScsiOnly fd c (.sys (.sgIo fd q')) := by
      intro q' hq
      refine ⟨rfl, ?_⟩
      cases out with
      | true => exact .inl ⟨_, hq⟩
      | false =>
        rw [hb rfl, zeros_length] at hq
        exact .inr (.inl hq)
    rcases ScsiIo.mem hio x hx with h | h
    · rw [h]; exact fin q hc
    · rw [h]; exact fin _ hc'
  cases h with
  | direct cmd mem held io ok data =>
    intro x hx
    rcases List.mem_cons.1 hx with rfl | hx
    · trivial
    · exact hfirst cmd io x hx
  | @fallback q q' u v a₁ a a₂ a' addr addr' m m' now e w rep cmd mem held io between cmd' mem' held' io' bad data =>
    intro x hx
    rw [List.mem_append] at hx
    rcases hx with hx | hx
    · rcases List.mem_cons.1 hx with rfl | hx
      · trivial
      · exact hfirst cmd io x hx
    · rcases List.mem_cons.1 hx with rfl | hx
      · trivial
      · cases out with
        | true =>
          have held' : m' = zeros buf.length := held'
          rcases ScsiIo.mem io' x hx with h | h
          · rw [h]
            refine ⟨rfl, .inr (.inr (.inl ⟨_, cmd', ?_⟩))⟩
            intro ad mm hmm
            rw [mem'] at hmm
            cases hmm
            exact held'
          · rw [h]
            refine ⟨rfl, .inr (.inr (.inl ⟨_, cmd', ?_⟩))⟩
            intro ad mm hmm
            cases hmm
        | false =>
          have cmd'' := cmd'
          rw [hb rfl, zeros_length] at cmd''
          rcases ScsiIo.mem io' x hx with h | h
          · rw [h]; exact ⟨rfl, .inr (.inr (.inr cmd''))⟩
          · rw [h]; exact ⟨rfl, .inr (.inr (.inr cmd''))⟩

/-- **C126.** On a SCSI generic drive: whatever the kernel answers, an operation of the TCG layer behaves as in a
conversation with some drive, and each security command of that conversation is a SECURITY PROTOCOL OUT or IN command on
the drive's own descriptor with the same protocol, ComID and buffer, repeated once with a data address of 128 if the ioctl
failed, and followed by an ATA TRUSTED SEND or RECEIVE (again up to two ioctls) only if both failed. Nothing else reaches
the drive; the sent payloads are those of the conversation, and a TRUSTED SEND carries only zeros. -/
theorem tcg_on_scsi {α : Type} (o : Opened) (fd : Nat) (id : Bytes) (hs : o.source = some (1, fd))
    (hd : o.handle.dh = some { ata := true, nvme := false, identity := id }) (comId : BitVec 16) (p : TcgM α)
    (hp : OutT.Asks (TcgAsk comId) p) (env : Prog.Env AReq ARep) (h : Prog.Trace AReq ARep) :
    ∃ env' : Prog.Env SecReq SecRep, (OutT.run env h (tcgOnLinux o p)).1 = (OutT.run env' [] p).1 ∧
      OnScsi fd (OutT.run env' [] p).2 (OutT.run env h (tcgOnLinux o p)).2 ∧
      (∀ x ∈ (OutT.run env h (tcgOnLinux o p)).2, TcgOnScsiOnly fd comId x.1) ∧
      scsiSent (OutT.run env h (tcgOnLinux o p)).2 = sentData (OutT.run env' [] p).2 ∧
      ∀ out dma p' c buf to r, (SecReq.sec out dma p' c buf to, r) ∈ (OutT.run env' [] p).2 → r.data.length = buf.length := by
  obtain ⟨h1, h2⟩ := OutT.interp_chunks (A := TcgAsk comId) (B := fun _ _ => True) (secOnLinux o) env {} h
    (fun q hq h => scsi_total hs hd comId env q hq h) (p := p) (OutT.within_of_asks hp)
  have ha := OutT.asks_run hp (OutT.upperEnv (secOnLinux o) env {} h) []
  obtain ⟨hon, hlens⟩ := onScsi_of_chunks hs hd h2 (fun out dma p' c buf to r hm => tcgAsk_sizes (ha _ hm))
  refine ⟨_, h1, hon, ?_, hon.sent, hlens⟩
  generalize (OutT.run (OutT.upperEnv (secOnLinux o) env {} h) [] p).2 = T at hon ha
  unfold tcgOnLinux
  generalize (OutT.run env h (OutT.interp (secOnLinux o) p)).2 = t at hon
  clear h1 h2 hlens
  induction hon with
  | nil => intro x hx; cases hx
  | now rest ih =>
    intro x hx
    rcases List.mem_cons.1 hx with rfl | hx
    · trivial
    · exact ih (fun y hy => ha y (List.mem_cons_of_mem _ hy)) x hx
  | @sleep ns a T t rest ih =>
    intro x hx
    rcases List.mem_cons.1 hx with rfl | hx
    · exact ha _ List.mem_cons_self
    · exact ih (fun y hy => ha y (List.mem_cons_of_mem _ hy)) x hx
  | @sec out p' c buf to rep u T t cmd rest ih =>
    intro x hx
    have hq := ha _ List.mem_cons_self
    rcases List.mem_append.1 hx with hx | hx
    · cases out with
      | true =>
        obtain ⟨-, rfl, rfl, -⟩ := hq
        exact cmd.only (fun h => by cases h) x hx
      | false =>
        obtain ⟨-, rfl, rfl, -, hz⟩ := hq
        exact cmd.only (fun _ => hz) x hx
    · exact ih (fun y hy => ha y (List.mem_cons_of_mem _ hy)) x hx

theorem Spec.OnScsi.answered {fd : Nat} {T : Prog.Trace SecReq SecRep} {t : Prog.Trace AReq ARep} (h : OnScsi fd T t)
    (hl : ∀ out dma p' c buf to r, (SecReq.sec out dma p' c buf to, r) ∈ T → r.data.length = buf.length)
    {r : Resp} (ha : Answered T r) : AnsweredOnScsi fd t r := by
  obtain ⟨before, p, c, last, rfl, he, hp⟩ := ha
  obtain ⟨t₁, t₂, rfl, h1, h2⟩ := h.append_inv
  obtain ⟨ck, sl, got⟩ := last
  have hgl : got.data.length = 2048 := by
    have := hl false false p c (zeros 2048) 5 got (by
      rw [List.mem_append]; right
      unfold Round.exchanges
      simp)
    rw [this, zeros_length]
  unfold Round.exchanges at h2
  dsimp only at h2 he
  generalize hz : zeros 2048 = z at h2
  cases h2 with
  | now r1 =>
    cases r1 with
    | sleep r2 =>
      cases r2 with
      | sec cmd rest =>
        cases rest
        rename_i ak asl u
        subst hz
        refine ⟨t₁ ++ [(.now, ak), (.sleep 25000000, asl)], u, got, _, _, by simp, cmd, he, ?_⟩
        have hp' := hp
        unfold Round.parsed Round.response at hp'
        rw [List.take_of_length_le (by rw [hgl]; exact Nat.le_refl _), hgl, Nat.sub_self, show zeros 0 = [] from rfl,
          List.append_nil] at hp'
        exact hp'

/-- **C126, revert.** `RevertTPer` on a SCSI generic drive: as on an NVMe drive (C125) with SECURITY PROTOCOL commands. -/
theorem revert_on_scsi (ctx : Ctx) (o : Opened) (fd : Nat) (ho : ScsiDrive o fd) (pw : Bytes) (psid adm : Bool)
    (hk : o.tcgDevice.kind = .opal1 ∨ o.tcgDevice.kind = .opal2) (hf : 0 < ctx.fuel)
    (env : Prog.Env AReq ARep) (h : Prog.Trace AReq ARep) :
    let out := OutT.run env h (tcgOnLinux o (o.tcgDevice.revertTPer ctx pw psid adm))
    let comId := o.tcgDevice.baseComId
    (∀ x ∈ out.2, TcgOnScsiOnly fd comId x.1) ∧
    ∃ t1 t2, out.2 = t1 ++ t2 ∧
      scsiSent t1 = [revertStartBytes ctx.kdf comId.toNat o.handle.info.serial pw psid] ∧
      ((t2 = [] ∧ out.1 ≠ .ret none) ∨
       (∃ r host tper, AnsweredOnScsi fd t1 r ∧ Accepted r ∧ SessionNumbers r host tper ∧
        scsiSent t2 = [wireImage comId.toNat (beBytes 4 tper) (beBytes 4 host) revertCall] ∧
        (out.1 = .ret none → ∃ r2, AnsweredOnScsi fd t2 r2 ∧ Accepted r2))) := by
  obtain ⟨hs, id, hd⟩ := ho
  intro out comId
  obtain ⟨env', h1, h2, h3, -, hl⟩ := tcg_on_scsi o fd id hs hd comId (o.tcgDevice.revertTPer ctx pw psid adm)
    (revertTPer_asks ctx o.tcgDevice pw psid adm) env h
  refine ⟨h3, ?_⟩
  obtain ⟨T1, T2, e, -, ⟨sent, hsent⟩, hc⟩ := revert_summary ctx o.tcgDevice pw psid adm hk hf env' []
  rw [e] at h2 hl
  obtain ⟨t1, t2, hT, g1, g2⟩ := h2.append_inv
  have hl1 := fun out dma p' c buf to r hm => hl out dma p' c buf to r (List.mem_append_left _ hm)
  have hl2 := fun out dma p' c buf to r hm => hl out dma p' c buf to r (List.mem_append_right _ hm)
  refine ⟨t1, t2, hT, ?_, ?_⟩
  · rw [g1.sent]
    unfold sentData
    rw [hsent]
    rfl
  · have h1' : out.1 = (OutT.run env' [] (o.tcgDevice.revertTPer ctx pw psid adm)).1 := h1
    rcases hc with ⟨rfl, hc⟩ | ⟨r, host, tper, k1, k2, k3, ⟨sent2, k4⟩, k5⟩
    · refine .inl ⟨by cases g2; rfl, ?_⟩
      rw [h1']
      rcases hc with ⟨s, e, -, hc⟩ | ⟨r, -, -, hc⟩ | hc
      · rw [hc]; simp
      · rw [hc]; simp
      · rw [hc]; simp
    · refine .inr ⟨r, host, tper, g1.answered hl1 k1, k2, k3, ?_, ?_⟩
      · rw [g2.sent]
        unfold sentData
        rw [k4]
        rfl
      · intro hok
        rw [h1'] at hok
        rcases k5 with ⟨e, k5⟩ | ⟨r2, -, -, k5⟩ | ⟨r2, k6, k7, -⟩ | k5
        · rw [k5] at hok; cases hok
        · rw [k5] at hok; cases hok
        · exact ⟨r2, g2.answered hl2 k6, k7⟩
        · rw [k5] at hok; cases hok

/-- **C126, default password** on a SCSI generic drive. -/
theorem default_password_on_scsi (ctx : Ctx) (o : Opened) (fd : Nat) (ho : ScsiDrive o fd)
    (hk : o.tcgDevice.kind = .opal1 ∨ o.tcgDevice.kind = .opal2) (hf : 0 < ctx.fuel)
    (env : Prog.Env AReq ARep) (h : Prog.Trace AReq ARep) :
    let out := OutT.run env h (tcgOnLinux o (o.tcgDevice.getDefaultPassword ctx))
    let comId := o.tcgDevice.baseComId
    (∀ x ∈ out.2, TcgOnScsiOnly fd comId x.1) ∧
    ∃ t1 t2, out.2 = t1 ++ t2 ∧
      scsiSent t1 = [wireImage comId.toNat [0, 0, 0, 0] [0, 0, 0, 0] (startSessionCall adminSP none)] ∧
      ((t2 = [] ∧ ∀ v, out.1 ≠ .ret (v, none)) ∨
       (∃ r host tper, AnsweredOnScsi fd t1 r ∧ Accepted r ∧ SessionNumbers r host tper ∧
        scsiSent t2 = [wireImage comId.toNat (beBytes 4 tper) (beBytes 4 host) getMsidCall] ∧
        (∀ v, out.1 = .ret (v, none) → ∃ r2, AnsweredOnScsi fd t2 r2 ∧ Accepted r2 ∧ msidResult r2 = (v, none)))) := by
  obtain ⟨hs, id, hd⟩ := ho
  intro out comId
  obtain ⟨env', h1, h2, h3, -, hl⟩ := tcg_on_scsi o fd id hs hd comId (o.tcgDevice.getDefaultPassword ctx)
    (getDefaultPassword_asks ctx o.tcgDevice) env h
  refine ⟨h3, ?_⟩
  obtain ⟨T1, T2, e, ⟨sent, hsent⟩, hc⟩ := defaultPassword_spec ctx o.tcgDevice hk hf env' []
  rw [e] at h2 hl
  obtain ⟨t1, t2, hT, g1, g2⟩ := h2.append_inv
  have hl1 := fun out dma p' c buf to r hm => hl out dma p' c buf to r (List.mem_append_left _ hm)
  have hl2 := fun out dma p' c buf to r hm => hl out dma p' c buf to r (List.mem_append_right _ hm)
  refine ⟨t1, t2, hT, ?_, ?_⟩
  · rw [g1.sent]
    unfold sentData
    rw [hsent]
    rfl
  · have h1' : out.1 = (OutT.run env' [] (o.tcgDevice.getDefaultPassword ctx)).1 := h1
    rw [h1']
    rcases hc with ⟨rfl, hc⟩ | ⟨r, host, tper, k1, k2, k3, ⟨sent2, k4⟩, k5⟩
    · exact .inl ⟨by cases g2; rfl, hc⟩
    · refine .inr ⟨r, host, tper, g1.answered hl1 k1, k2, k3, ?_, ?_⟩
      · rw [g2.sent]
        unfold sentData
        rw [k4]
        rfl
      · intro v hok
        rcases k5 with ⟨r2, k6, k7, k8⟩ | k5
        · refine ⟨r2, g2.answered hl2 k6, k7, ?_⟩
          rw [k8] at hok
          simpa using hok
        · exact absurd hok (k5 v)

/-- **C126, no driver.** On a drive no driver accepted, a security command is "not supported" without any system call. -/
theorem tcg_no_driver (o : Opened) (ho : NoDriver o) (rw dma : Bool) (p : Byte) (c : BitVec 16) (buf : Bytes) (to : Nat)
    (env : Prog.Env AReq ARep) (h : Prog.Trace AReq ARep) :
    OutT.run env h (secOnLinux o (.sec rw dma p c buf to)) =
      (.ret { err := some (.msg "not supported"), data := buf }, []) := by
  obtain ⟨hs, hd⟩ := ho
  unfold secOnLinux Opened.onHandle
  rw [hs]
  dsimp only
  unfold Handle.securityCommand
  rw [hd]
  rfl

/-! ## A concrete case -/

/-- A SCSI generic drive with an Opal 2 security subsystem on descriptor 9. -/
def sampleScsiOpened : Opened :=
  { source := some (1, 9),
    handle := { dh := some { ata := true, nvme := false, identity := [] },
                info := { level0 := { opalV200 := true, made := true } } } }

example : ScsiDrive sampleScsiOpened 9 ∧ sampleScsiOpened.tcgDevice.kind = .opal2 := ⟨⟨rfl, [], rfl⟩, rfl⟩
example : NoDriver { sampleScsiOpened with source := none, handle := { dh := none } } := ⟨rfl, rfl⟩

/-- A kernel that delivers the friendly answer to every SECURITY PROTOCOL IN. -/
def scsiFriendly : Prog.Env AReq ARep := fun _ q => match q with
  | .sys (.sgIo _ k) => if k.cdb[0]? = some 0xa2 then { sys := { sg := { data := responseOf friendlyPayload } } } else {}
  | _ => {}

/-- The revert succeeds with two SECURITY PROTOCOL OUT commands. -/
example : (match OutT.run scsiFriendly [] (tcgOnLinux sampleScsiOpened (sampleScsiOpened.tcgDevice.revertTPer sampleCtx [0x70] false true)) with
    | (.ret none, t) => (scsiSent t).length | _ => 0) = 2 := by decide +kernel

/-- If the kernel refuses every ioctl, there are four of them: SECURITY PROTOCOL OUT twice, ATA PASS-THROUGH twice. -/
example : (match OutT.run (fun _ _ => { sys := { sg := { err := some (.errno 13) } } }) []
      (tcgOnLinux sampleScsiOpened (sampleScsiOpened.tcgDevice.revertTPer sampleCtx [0x70] false true)) with
    | (.ret (some e), t) => (some e, t.filterMap (fun x => match x.1 with | .sys (.sgIo _ q) => q.cdb[0]? | _ => none))
    | _ => (none, [])) = (some (.errno 13), [0xb5, 0xb5, 0xa1, 0xa1]) := by decide +kernel

end Dparm
