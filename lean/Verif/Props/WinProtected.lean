import Verif.Lemmas.TcgCalls
import Verif.Spec.WinProtected
import Verif.Props.Protected
import Verif.Props.WinLooking
import Verif.Props.WinTcgNvme
import Verif.Props.ErrorMode
/-!
# No sequence of calls moves a drive without its password, on Windows (C160)
-/
namespace Dparm
open Spec

variable {dr : Drive} {C : Option (Bytes × Bytes) → Prop}

/-- A request to Windows that can do no more to the drive than `C` allows. -/
def WinTame (dr : Drive) (C : Option (Bytes × Bytes) → Prop) (q : WAReq) : Prop :=
  ∀ data, WinHands dr.comId data q → TameBytes dr C data

theorem winReads_tame {q : WReq} (h : WinReadsOnly q) : WinTame dr C (.sys q) := by
  intro data hh
  exfalso
  match q, h, hh with
  | .ioctl hd code inb n mem, h, hh =>
    rcases hh with ⟨hc, hf, -⟩ | ⟨hc, hf, -⟩ | ⟨hc, hf, -⟩
    · rcases h with h | ⟨h, -⟩ | ⟨-, h⟩ | ⟨h, -⟩ | ⟨h, -⟩
      · rcases hc with rfl | rfl <;> exact absurd h (by decide)
      · omega
      · rw [h.1] at hf; omega
      · omega
      · omega
    · rcases h with h | ⟨h, -⟩ | ⟨h, -⟩ | ⟨-, h⟩ | ⟨h, -⟩
      · rcases hc with rfl | rfl <;> exact absurd h (by decide)
      · omega
      · omega
      · exact hf h.1
      · omega
    · rcases h with h | ⟨h, -⟩ | ⟨h, -⟩ | ⟨h, -⟩ | ⟨-, h⟩
      · rw [hc] at h; exact absurd h (by decide)
      · omega
      · omega
      · omega
      · rcases h with h | ⟨h, -⟩ <;> (rw [hf] at h; exact absurd h (by decide))

theorem winLooks_tame {m : Bool} {q : WAReq} (h : WinLooksOnly m q) : WinTame dr C q := by
  match q, h with
  | .sys q, h =>
    rcases h with h | ⟨-, md, rfl⟩
    · exact winReads_tame h
    · intro data hh; exact hh.elim
  | .place, _ => intro data hh; exact hh.elim

theorem tame_sys {α : Type} {p : WinM α} (hp : OutT.Asks (fun q => WinTame dr C (.sys q)) p) :
    OutT.Asks (WinTame dr C) (OutT.interp winCall p) :=
  OutT.asks_interp _ _ hp (fun _ hq => OutT.asks_bind (OutT.asks_ask hq) (fun _ => OutT.asks_ret _))

/-- The requests of a pass-through command: no miniport request, and the direction of the call. -/
theorem pass_requests (op : PassOp) (h : Nat) (rw : Bool) (data : Bytes) (addr base to : Nat) (hd : data ≠ [])
    (env : Prog.Env WReq WRep) (hist : Prog.Trace WReq WRep) :
    ∀ x ∈ (OutT.run env hist (op.prog h rw data addr base to)).2, ∃ code inb n mem, x.1 = .ioctl h code inb n mem ∧
      (((code = 0x4d030 ∨ code = 0x4d02c) ∧ (rw = false → (ataView (inb.take 48)).flags / 4 % 2 ≠ 1)) ∨
       ((code = 0x4d014 ∨ code = 0x4d004) ∧ (rw = false → (scsiView (inb.take 96)).dataIn = 1))) := by
  intro x hx
  have hscsi : (∀ tf, op ≠ .ataTask tf) → ∃ code inb n mem, x.1 = .ioctl h code inb n mem ∧
      (code = 0x4d014 ∨ code = 0x4d004) ∧ (rw = false → (scsiView (inb.take 96)).dataIn = 1) := by
    intro hop
    obtain ⟨inb, a, c, r, rest, h1, h2, h3⟩ := win_scsi_records op hop h rw data addr base to hd env hist
    rw [h1] at hx
    rcases List.mem_cons.1 hx with rfl | hx
    · refine ⟨_, _, _, _, rfl, .inl rfl, ?_⟩
      rintro rfl
      have hv : (scsiView (inb.take 96)).dataIn = (scsiView inb).dataIn := by
        unfold scsiView slice
        simp only [List.drop_take, List.take_take]
        rfl
      rw [hv, h2]
      rfl
    · obtain ⟨inb2, n, e, -, hv⟩ := h3 x hx
      refine ⟨_, _, _, _, e, .inr rfl, ?_⟩
      rintro rfl
      rw [hv, h2]
      rfl
  cases op with
  | ataTask tf =>
    obtain ⟨inb, a, c, r, rest, h1, h2, h3⟩ := win_ata_records h rw tf data addr base to hd env hist
    have hx' : x ∈ (OutT.run env hist (winAtaTask h rw tf data addr base to)).2 := hx
    rw [h1] at hx'
    have hno : rw = false → ataFlagsOf rw tf / 4 % 2 ≠ 1 := by
      rintro rfl
      unfold ataFlagsOf
      by_cases h48 : tf.isLba48 = 0
      · rw [if_pos h48]; decide
      · rw [if_neg h48]; decide
    rcases List.mem_cons.1 hx' with rfl | hx'
    · refine ⟨_, _, _, _, rfl, .inl ⟨.inl rfl, ?_⟩⟩
      intro hr
      have hv : ataView (inb.take 48) = ataView inb := by
        unfold ataView slice
        simp only [List.drop_take, List.take_take]
        rfl
      rw [hv, h2]
      exact hno hr
    · obtain ⟨inb2, n2, e, -, hv⟩ := h3 _ hx'
      refine ⟨_, _, _, _, e, .inl ⟨.inr rfl, fun hr => ?_⟩⟩
      rw [hv, h2]
      exact hno hr
  | scsiTask tf =>
    obtain ⟨code, inb, n, mem, e, h1⟩ := hscsi (fun _ h => by cases h)
    exact ⟨code, inb, n, mem, e, .inr h1⟩
  | scsiSecurity p c =>
    obtain ⟨code, inb, n, mem, e, h1⟩ := hscsi (fun _ h => by cases h)
    exact ⟨code, inb, n, mem, e, .inr h1⟩

/-- A pass-through command sends zeros or reads. -/
theorem pass_tame (op : PassOp) (h : Nat) (rw : Bool) (data : Bytes) (addr base to : Nat) :
    OutT.Asks (fun q => WinTame dr C (.sys q)) (op.prog h rw data addr base to) := by
  refine OutT.asks_of_run (fun env hist x hx => ?_)
  by_cases hd : data = []
  · rw [(win_requests op h rw data addr base to env hist).1 hd] at hx
    cases hx
  obtain ⟨code, inb, n, mem, e, hk⟩ := pass_requests op h rw data addr base to hd env hist x hx
  have hz : rw = true → payload x.1 = some (zeros data.length) := by
    rintro rfl
    exact (win_writes_are_zeros op h data addr base to hd env hist).2.2 x hx
  rw [e] at hz ⊢
  cases rw with
  | true =>
    rintro d (⟨-, -, -, hh⟩ | ⟨-, -, -, hh⟩ | ⟨hc, -⟩)
    · rw [hz rfl] at hh; cases hh; exact tame_zeros _
    · rw [hz rfl] at hh; cases hh; exact tame_zeros _
    · exfalso; rcases hk with ⟨hk, -⟩ | ⟨hk, -⟩ <;> omega
  | false =>
    rintro d (⟨hc, hf, -⟩ | ⟨hc, hf, -⟩ | ⟨hc, -⟩) <;> exfalso
    · rcases hk with ⟨-, hk⟩ | ⟨hk, -⟩
      · exact hk rfl hf
      · omega
    · rcases hk with ⟨hk, -⟩ | ⟨-, hk⟩
      · omega
      · exact hf (hk rfl)
    · rcases hk with ⟨hk, -⟩ | ⟨hk, -⟩ <;> omega

theorem miniport_tame (sh : Nat) (rw : Bool) (p : Byte) (c : BitVec 16) (buf : Bytes) (mem : Nat → Byte)
    (h : rw = true → p = 1 → c = dr.comId → TameBytes dr C buf ∧ buf.length < 2 ^ 32) :
    OutT.Asks (fun q => WinTame dr C (.sys q)) (miniportAdmin sh (securityNvme rw p c buf) mem) := by
  refine OutT.asks_of_run (fun env hist x hx => ?_)
  obtain ⟨g1, g2⟩ := win_miniport_admin sh (securityNvme rw p c buf) mem env hist
  by_cases hl : (securityNvme rw p c buf).dataLen.toNat > 4096
  · rw [g1 hl] at hx
    cases hx
  obtain ⟨inb, r, h1, -, h2, -⟩ := g2 (by omega)
  rw [h1] at hx
  rw [List.mem_singleton.1 hx]
  rintro d (⟨hc, -⟩ | ⟨hc, -⟩ | ⟨-, ho, hp, hs, hd⟩)
  · rcases hc with hc | hc <;> exact absurd hc (by decide)
  · rcases hc with hc | hc <;> exact absurd hc (by decide)
  rw [h2] at ho hp hs hd
  have hcd : (miniportOf (securityNvme rw p c buf).opcode (securityNvme rw p c buf).nsid.toNat (securityNvme rw p c buf).cdw10.toNat
    (securityNvme rw p c buf).cdw11.toNat (securityNvme rw p c buf).cdw12.toNat (securityNvme rw p c buf).cdw13.toNat
    (securityNvme rw p c buf).cdw14.toNat (securityNvme rw p c buf).cdw15.toNat
    (delivered (zeros 4096) (referredTo (securityNvme rw p c buf) mem))).cdw10 = (securityNvme rw p c buf).cdw10.toNat := rfl
  have hpl := p.isLt
  have hcl := c.isLt
  rw [hcd, securityNvme_cdw10] at hp hs
  have hrw : rw = true := by
    cases rw with
    | true => rfl
    | false => exact absurd ho (by show ¬ (0x82#8 = 0x81#8); decide)
  obtain ⟨ht, hlen⟩ := h hrw (BitVec.eq_of_toNat_eq (by show p.toNat = 1; omega)) (BitVec.eq_of_toNat_eq (by omega))
  have hn : (securityNvme rw p c buf).dataLen.toNat = buf.length := by
    show (BitVec.ofNat 32 buf.length).toNat = _
    rw [BitVec.toNat_ofNat]; omega
  have hbl : buf.length ≤ 4096 := by omega
  have hd' : d = (delivered (zeros 4096) buf).take buf.length := by
    rw [hd]
    show (delivered (zeros 4096) (referredTo (securityNvme rw p c buf) mem)).take (BitVec.ofNat 32 buf.length).toNat = _
    rw [BitVec.toNat_ofNat, Nat.mod_eq_of_lt hlen]
    rfl
  have hbuf : d = buf := by
    rw [hd']
    unfold delivered
    rw [zeros_length, List.take_of_length_le hbl, List.take_left]
  rw [hbuf]
  exact ht

/-- What the handle may ask of a driver. -/
def WinTameDrv (k : WinDrv) : DrvReq → Prop
  | .nvmeAdmin _ => ¬ OnMiniport k
  | .logPage .. => k.isNvme = true
  | _ => True

theorem winDrv_tame (k : WinDrv) (addr base : Nat) (behind : Nat → Byte) (q : DrvReq) (hq : WinTameDrv k q) :
    OutT.Asks (fun q => WinTame dr C (.sys q)) (winDrv k addr base behind q) := by
  have hr : ∀ {α : Type} {p : WinM α}, OutT.Asks WinReadsOnly p → OutT.Asks (fun q => WinTame dr C (.sys q)) p :=
    fun h => OutT.asks_mono (fun _ => winReads_tame) h
  cases q with
  | close => exact hr (winDrv_reads k addr base behind _ (index_plain k).2.2)
  | drivingType => exact OutT.asks_ret _
  | driverName => exact OutT.asks_ret _
  | sec rw dma p c data to =>
    cases k with
    | scsi h => exact OutT.asks_bind (pass_tame (.scsiSecurity p c) h rw data addr base to) (fun _ => OutT.asks_ret _)
    | windowsNvme h => exact OutT.asks_bind (pass_tame (.scsiSecurity p c) h rw data addr base to) (fun _ => OutT.asks_ret _)
    | ata h => exact OutT.asks_ret _
    | nvmeWin h sh => exact OutT.asks_ret _
  | taskFile rw dma tf data to =>
    cases k with
    | scsi h => exact OutT.asks_bind (pass_tame (.scsiTask tf) h rw data addr base to) (fun _ => OutT.asks_ret _)
    | ata h => exact OutT.asks_bind (pass_tame (.ataTask tf) h rw data addr base to) (fun _ => OutT.asks_ret _)
    | windowsNvme h => exact OutT.asks_panic
    | nvmeWin h sh => exact OutT.asks_panic
  | taskNil rw dma tf to =>
    cases k with
    | scsi h => exact OutT.asks_bind (pass_tame (.scsiTask tf) h rw [] addr base to) (fun _ => OutT.asks_ret _)
    | ata h => exact OutT.asks_bind (pass_tame (.ataTask tf) h rw [] addr base to) (fun _ => OutT.asks_ret _)
    | windowsNvme h => exact OutT.asks_panic
    | nvmeWin h sh => exact OutT.asks_panic
  | nvmeAdmin c =>
    cases k with
    | nvmeWin h sh =>
      exact absurd ⟨h, sh, rfl⟩ hq
    | windowsNvme h => exact OutT.asks_ret _
    | scsi h => exact OutT.asks_panic
    | ata h => exact OutT.asks_panic
  | logPage nsid logId rae size => exact hr (logPage_reads k hq addr base behind nsid logId rae size)

/-- A method of a handle. -/
theorem winMethod_tame {α : Type} {o : WinOpened} (h : WinMade o) {p : Handle → DrvM α}
    (h0 : o.handle.dh = none → OutT.Asks (fun _ => False) (p o.handle))
    (h1 : ∀ k, DriverOf k.index o.handle.dh → OutT.Asks (WinTameDrv k) (p o.handle)) :
    OutT.Asks (WinTame dr C) (o.method p) := by
  unfold WinOpened.method
  rcases h with hd | ⟨k, hk, hd⟩
  · split <;> exact OutT.asks_interp _ _ (h0 hd) (fun q hq => hq.elim)
  · rw [hk]
    refine OutT.asks_interp _ _ (h1 k hd) (fun q hq => ?_)
    exact OutT.asks_bind (OutT.asks_ask (fun _ hh => hh.elim)) (fun p => tame_sys (winDrv_tame k _ _ _ q hq))

theorem security_winTame {o : WinOpened} (hm : WinMade o) (rw dma : Bool) (p : Byte) (c : BitVec 16) (buf : Bytes) (to : Nat)
    (h : rw = true → p = 1 → c = dr.comId → TameBytes dr C buf ∧ buf.length < 2 ^ 32) :
    OutT.Asks (WinTame dr C) (o.method (fun h => h.securityCommand rw dma p c buf to)) := by
  by_cases hk : ∃ k, o.drv = some k ∧ DriverOf k.index o.handle.dh ∧ OnMiniport k
  · obtain ⟨k, hs, ⟨d, hd, -, ha, hn⟩, h', sh, rfl⟩ := hk
    have hd' : o.handle.dh = some { ata := false, nvme := true, identity := d.identity } := by
      rw [hd]
      obtain ⟨a, n, i⟩ := d
      have ha : a = false := ha
      have hn : n = true := hn
      rw [ha, hn]
    have e := miniport_chunk hs hd' rw dma p c buf to
    unfold secOnWindows at e
    dsimp only at e
    rw [e]
    refine OutT.asks_bind (OutT.asks_ask (fun _ hh => hh.elim)) (fun _ => OutT.asks_bind (OutT.asks_ask (fun _ hh => hh.elim)) (fun _ => ?_))
    exact OutT.asks_bind (tame_sys (miniport_tame sh rw p c buf _ h)) (fun _ => OutT.asks_ret _)
  · rcases hm with h0 | ⟨k, hs, hd⟩
    · refine winMethod_tame (.inl h0) (fun h0 => ?_) (fun k hd => ?_)
      · unfold Handle.securityCommand
        rw [h0]
        exact OutT.asks_ret _
      · obtain ⟨d, hd, -⟩ := hd
        rw [h0] at hd
        cases hd
    · have hno : ¬ OnMiniport k := fun hx => hk ⟨k, hs, hd, hx⟩
      unfold WinOpened.method
      rw [hs]
      refine OutT.asks_interp (A := WinTameDrv k) _ _ ?_ (fun q hq =>
        OutT.asks_bind (OutT.asks_ask (fun _ hh => hh.elim)) (fun p => tame_sys (winDrv_tame k _ _ _ q hq)))
      show OutT.Asks (WinTameDrv k) (o.handle.securityCommand rw dma p c buf to)
      unfold Handle.securityCommand
      split
      · exact OutT.asks_ret _
      · refine OutT.asks_bind (OutT.asks_ask trivial) (fun r => ?_)
        dsimp only
        split
        · exact OutT.asks_ret _
        · split
          · exact OutT.asks_bind (OutT.asks_ask trivial) (fun r => OutT.asks_ret _)
          · split
            · exact OutT.asks_bind (OutT.asks_ask hno) (fun r => OutT.asks_ret _)
            · exact OutT.asks_ret _

theorem asks_both {Q R α : Type} {A B : Q → Prop} (p : Prog Q R (Out α)) (ha : Prog.Asks A p) (hb : Prog.Asks B p) :
    Prog.Asks (fun q => A q ∧ B q) p := by
  induction p with
  | done o => trivial
  | ask q k ih => exact ⟨⟨ha.1, hb.1⟩, fun r => ih r (ha.2 r) (hb.2 r)⟩

/-- Nothing sent is 4 GiB long. -/
def ShortSend : SecReq → Prop
  | .sec true _ _ _ data _ => data.length < 2 ^ 32
  | _ => True

theorem tcgAsk_short {α : Type} {p : TcgM α} {c : BitVec 16} (h : OutT.Asks (TcgAsk c) p) : OutT.Asks ShortSend p := by
  refine OutT.asks_mono (fun q hq => ?_) h
  cases q with
  | now => trivial
  | sleep ns => trivial
  | sec rw dma p c data secs =>
    cases rw with
    | false => trivial
    | true =>
      simp only [TcgAsk] at hq
      show data.length < 2 ^ 32
      omega

theorem exec_short (fuel : Nat) (d : Device) (cmd : ABuf) (p : Byte) (hw : (Cmd.wire cmd).length ≤ 61440) :
    OutT.Asks ShortSend (d.exec fuel cmd p) := by
  have poll : ∀ t0 fuel, OutT.Asks ShortSend (d.poll p t0 fuel) := by
    intro t0 fuel
    induction fuel with
    | zero => exact trivial
    | succ n ih =>
      unfold Device.poll
      refine OutT.asks_bind (OutT.asks_ask trivial) (fun t => ?_)
      refine OutT.asks_bind (OutT.asks_ask trivial) (fun _ => ?_)
      refine OutT.asks_bind (OutT.asks_ask trivial) (fun r => ?_)
      dsimp only
      split
      · exact OutT.asks_ret _
      · split
        · exact OutT.asks_ret _
        · split
          · exact ih
          · exact OutT.asks_ret _
  unfold Device.exec
  refine OutT.asks_bind (OutT.asks_ask trivial) (fun t => ?_)
  split
  · exact OutT.asks_ret _
  · refine OutT.asks_bind (OutT.asks_ask ?_) (fun r => ?_)
    · show (Cmd.wire cmd).length < 2 ^ 32
      omega
    · split
      · exact OutT.asks_ret _
      · exact poll _ fuel

section
attribute [local irreducible] OutT.Asks

theorem tcgCall_short (ctx : Ctx) (d : Device) (c : TcgCall) : OutT.Asks ShortSend (c.prog ctx d) := by
  by_cases hx : ∀ p inv m ops, c = .exec p inv m ops → p = 1
  · exact tcgAsk_short (tcgCall_asks ctx d c hx)
  · cases c with
    | exec p inv m ops =>
      simp only [TcgCall.prog]
      exact built_asks _ _ _ _ (fun c g w =>
        OutT.asks_bind (exec_short ctx.fuel d c p (begun_wire_length g w).2.1) (fun _ => OutT.asks_ret _))
    | _ => exact absurd (fun _ _ _ _ h => by cases h) hx

end

theorem tcgOnWindows_tame {o : WinOpened} (hm : WinMade o) {α : Type} {p : TcgM α}
    (hp : OutT.Asks (TameSec dr C) p) (hl : OutT.Asks ShortSend p) : OutT.Asks (WinTame dr C) (tcgOnWindows o p) := by
  refine OutT.asks_interp _ _ (asks_both p hp hl) (fun q hq => ?_)
  cases q with
  | now => exact OutT.asks_bind (OutT.asks_ask (fun _ hh => hh.elim)) (fun _ => OutT.asks_ret _)
  | sleep ns => exact OutT.asks_bind (OutT.asks_ask (fun _ hh => hh.elim)) (fun _ => OutT.asks_ret _)
  | sec rw dma p c data to =>
    refine security_winTame hm rw dma p c data to (fun hr hp' hc' => ?_)
    subst hr
    exact ⟨hq.1 hp' hc', hq.2⟩

/-- The credentials a call may present to the drive, and the packets of its own it may send. -/
def WinCallTame (dr : Drive) (C : Option (Bytes × Bytes) → Prop) (ctx : Ctx) : WinClientCall → Prop
  | .security _ rw _ p c buf _ => rw = true → p = 1 → c = dr.comId → TameBytes dr C buf ∧ buf.length < 2 ^ 32
  | .revert _ d pw psid _ => d.isAnySSC = true → d.baseComId = dr.comId →
      C (presented ctx.kdf (revertSession psid).noHash d.serial pw (if psid then PSID_UID else SID_UID))
  | .defaultPassword _ _ => C none
  | .tcg _ d c => OutT.Asks (TameSec dr C) (c.prog ctx d)
  | _ => True

theorem win_call_tame (conv : Wide → Bytes) (ctx : Ctx) (c : WinClientCall) (st : WinHeld) (h : WinAllMade st)
    (hc : WinCallTame dr C ctx c) : OutT.Asks (WinTame dr C) (c.prog conv ctx st) := by
  have hlook : winLooks c = true → OutT.Asks (WinTame dr C) (c.prog conv ctx st) := fun hl =>
    OutT.asks_mono (fun _ => winLooks_tame) (win_call_looks conv ctx c st h hl)
  have hon : ∀ i (f : WinOpened → WAM WinReported), (∀ o, o ∈ st → OutT.Asks (WinTame dr C) (f o)) →
      OutT.Asks (WinTame dr C) (st.on i f) := by
    intro i f hf
    unfold WinHeld.on
    split
    · rename_i o ho
      exact hf o (List.mem_of_getElem? ho)
    · exact OutT.asks_ret _
  cases c with
  | ata i rw dma tf data secs =>
    cases data with
    | some b =>
      refine hon i _ (fun o ho => OutT.asks_bind (winMethod_tame (h o ho) (fun h0 => ?_) (fun k hd => ?_)) (fun _ => OutT.asks_ret _))
      · unfold Handle.ataDoTaskFileCmd
        rw [h0]
        exact OutT.asks_ret _
      · obtain ⟨d, hd, -⟩ := hd
        unfold Handle.ataDoTaskFileCmd
        rw [hd]
        dsimp only
        split
        · exact OutT.asks_bind (OutT.asks_ask trivial) (fun _ => OutT.asks_ret _)
        · exact OutT.asks_ret _
    | none =>
      refine hon i _ (fun o ho => OutT.asks_bind (winMethod_tame (h o ho) (fun h0 => ?_) (fun k hd => ?_)) (fun _ => OutT.asks_ret _))
      · unfold Handle.ataDoTaskFileNil
        rw [h0]
        exact OutT.asks_ret _
      · obtain ⟨d, hd, -⟩ := hd
        unfold Handle.ataDoTaskFileNil
        rw [hd]
        dsimp only
        split
        · exact OutT.asks_bind (OutT.asks_ask trivial) (fun _ => OutT.asks_ret _)
        · exact OutT.asks_ret _
  | security i rw dma p c b s =>
    exact hon i _ (fun o ho => OutT.asks_bind (security_winTame (h o ho) rw dma p c b s hc) (fun _ => OutT.asks_ret _))
  | revert i d pw psid adm =>
    exact hon i _ (fun o ho => OutT.asks_bind (tcgOnWindows_tame (h o ho) (revertTPer_tame ctx d pw psid adm hc)
      (tcgAsk_short (revertTPer_asks ctx d pw psid adm))) (fun _ => OutT.asks_ret _))
  | defaultPassword i d =>
    exact hon i _ (fun o ho => OutT.asks_bind (tcgOnWindows_tame (h o ho) (getDefaultPassword_tame ctx d hc)
      (tcgAsk_short (getDefaultPassword_asks ctx d))) (fun _ => OutT.asks_ret _))
  | tcg i d c =>
    exact hon i _ (fun o ho => OutT.asks_bind (tcgOnWindows_tame (h o ho) hc (tcgCall_short ctx d c)) (fun _ => OutT.asks_ret _))
  | openPath => exact hlook rfl
  | enumDrives => exact hlook rfl
  | enumVolumes => exact hlook rfl
  | openVolume => exact hlook rfl
  | openPartition => exact hlook rfl
  | close => exact hlook rfl
  | drivingType => exact hlook rfl
  | driverName => exact hlook rfl
  | logPage => exact hlook rfl
  | discover => exact hlook rfl

theorem winClientRun_tame (conv : Wide → Bytes) (ctx : Ctx) (env : Prog.Env WAReq WARep)
    (calls : List WinClientCall) (hc : ∀ c ∈ calls, WinCallTame dr C ctx c) : ∀ (st : WinHeld) (hist : Prog.Trace WAReq WARep),
    WinAllMade st → ∀ x ∈ (winClientRun conv ctx env calls st hist).trace, WinTame dr C x.1 := by
  induction calls with
  | nil => intro st hist _ x hx; cases hx
  | cons c cs ih =>
    intro st hist h x hx
    unfold winClientRun at hx
    dsimp only at hx
    rcases List.mem_append.1 hx with hx | hx
    · exact OutT.asks_run (win_call_tame conv ctx c st h (hc c (List.mem_cons_self ..))) env hist x hx
    · refine ih (fun c' h' => hc c' (List.mem_cons_of_mem _ h')) _ _ ?_ x hx
      have hm := OutT.returns_run (win_call_made conv ctx c st h) env hist
      generalize (OutT.run env hist (c.prog conv ctx st)).1 = o at hm
      cases o with
      | ret a => exact hm a rfl
      | panic => exact h
      | running => exact h

/-- All requests of all goroutines are tame. -/
theorem win_clients_tame (conv : Wide → Bytes) (ctx : Ctx) (env : SysEnv WAReq WARep)
    (calls : List (List WinClientCall)) (hc : ∀ cl ∈ calls, ∀ c ∈ cl, WinCallTame dr C ctx c) (sched : List Nat) :
    ∀ x ∈ ((winClients conv ctx calls).run env sched).trace.whole, WinTame dr C x.1 := by
  intro x hx
  obtain ⟨⟨i, y⟩, hy, rfl⟩ := List.mem_map.1 hx
  have hi : i < calls.length := by
    have := pool_tags (env := env) (winClients conv ctx calls) rfl sched _ hy
    simpa [winClients] using this
  have hcs : calls[i]? = some calls[i] := List.getElem?_eq_getElem hi
  obtain ⟨p', -, h2⟩ := pool_follows (env := env) (winClients conv ctx calls) rfl sched i (winClientProg conv ctx calls[i] [])
    (by simp [winClients, hcs])
  have := Prog.Follows.run (env := replay (((winClients conv ctx calls).run env sched).trace.of i) (fun _ => {})) [] h2
    (replay_replays _ _)
  rw [winClientProg_run] at this
  have hsub : ∀ z ∈ ((winClients conv ctx calls).run env sched).trace.of i, WinTame dr C z.1 := by
    intro z hz
    refine winClientRun_tame conv ctx (replay (((winClients conv ctx calls).run env sched).trace.of i) (fun _ => {})) calls[i]
      (fun c hc' => hc _ (List.getElem_mem hi) c hc') [] [] (fun o ho => by cases ho) z ?_
    have h' := congrArg Prod.snd this
    dsimp only at h'
    rw [h']
    exact List.mem_append_left _ hz
  exact hsub y (List.mem_map.2 ⟨(i, y), List.mem_filter.2 ⟨hy, by simp⟩, rfl⟩)

theorem win_unprivileged_tame {sid : Bytes} {ctx : Ctx} {c : WinClientCall} (h : c.Unprivileged dr sid ctx) :
    WinCallTame dr (NoKey dr sid) ctx c := by
  cases c with
  | security i rw dma p c b s =>
    intro h1 h2 h3
    refine ⟨keyless_bytes (fun hk => h ⟨h1, h2, h3, .inl hk⟩), ?_⟩
    exact Nat.lt_of_not_le (fun hl => h ⟨h1, h2, h3, .inr hl⟩)
  | revert i d pw psid adm => exact fun _ _ => wrong_noKey h
  | defaultPassword i d => intro v u hp; cases hp
  | tcg i d c => exact keyless_tame h
  | _ => trivial

/-- **C160.** C159 on Windows: whatever calls any number of goroutines make, in whatever order and with whatever answers of
Windows, if no packet of their own (sent raw or through a session) shows the drive its PSID or its SID credential, and none calls
`RevertTPer` with the PSID or with a password whose derived key is the SID credential, and no session of SID or PSID was open at the start, then the drive is not reverted, its SID credential
is not changed, and no session of SID or PSID is open. -/
theorem win_drive_protected {st : Prog.Trace WAReq WARep → DriveState} (hg : WinGuarded dr st) (conv : Wide → Bytes) (ctx : Ctx)
    (env : SysEnv WAReq WARep) (calls : List (List WinClientCall))
    (hun : ∀ cl ∈ calls, ∀ c ∈ cl, c.Unprivileged dr (st []).sid ctx) (hpriv : ∀ o ∈ (st []).sessions, ¬ o.Privileged)
    (sched : List Nat) :
    let s := st ((winClients conv ctx calls).run env sched).trace.whole
    s.sid = (st []).sid ∧ s.reverts = (st []).reverts ∧ ∀ o ∈ s.sessions, ¬ o.Privileged :=
  guarded_run hg hpriv _
    (win_clients_tame conv ctx env calls (fun cl hcl c hc => win_unprivileged_tame (hun cl hcl c hc)) sched)

/-! ## A computer that meets the hypotheses -/

/-- What a request does to a drive behind the miniport: a Security Send of protocol 1 for its ComID is performed. -/
def winGuardedStep (dr : Drive) (s : DriveState) : WAReq → DriveState
  | .sys (.ioctl _ code inb _ _) =>
    if code = 0x4d008 ∧ (miniportView inb).opcode = 0x81 ∧ (miniportView inb).cdw10 / 2 ^ 24 = 1 ∧
        (miniportView inb).cdw10 / 2 ^ 8 % 2 ^ 16 = dr.comId.toNat then
      match readPacket ((miniportView inb).data.take (miniportView inb).cdw11) with
      | some p => if p.comId = dr.comId.toNat then { dr.perform ((s.sessions.length + 1) % 2 ^ 32) s p with wait := 0 } else s
      | none => s
    else s
  | _ => s

/-- Its state after a history. -/
def winGuardedState (dr : Drive) (s0 : DriveState) (h : Prog.Trace WAReq WARep) : DriveState :=
  h.foldl (fun s x => winGuardedStep dr s x.1) s0

theorem winGuarded_ideal (dr : Drive) (s0 : DriveState) : WinGuarded dr (winGuardedState dr s0) := by
  intro h q r
  have hsn : winGuardedState dr s0 (h ++ [(q, r)]) = winGuardedStep dr (winGuardedState dr s0 h) q := by
    simp [winGuardedState, List.foldl_append]
  rw [hsn]
  generalize winGuardedState dr s0 h = s
  have hself : Unmoved s s := ⟨rfl, rfl, fun _ ho => ho⟩
  unfold winGuardedStep
  split
  · split
    · rename_i hc
      split
      · rename_i p hp
        split
        · rename_i hcid
          exact .inr ⟨_, p, _, 0, .inr (.inr ⟨hc.1, hc.2.1, hc.2.2.1, hc.2.2.2, rfl⟩), hp, hcid, rfl⟩
        · exact .inl hself
      · exact .inl hself
    · exact .inl hself
  · exact .inl hself

/-- Two goroutines guess passwords and send the drive what they like on other ComIDs, with whatever answers of Windows: no guess
of theirs is right, so the drive is safe. -/
example (w : WinRun) (conv : Wide → Bytes) (env : SysEnv WAReq WARep) (sched : List Nat) :
    let s := winGuardedState roomyDrive ownedState ((winClients conv sampleCtx
      [[.openPath w (ascii "\\\\.\\PhysicalDrive0"), .revert 0 shippedDevice [0x50, 0x32] true true,
        .revert 0 shippedDevice [0x50, 0x33] true true, .security 0 true false 1 0x1000 (zeros 512) 3],
       [.openPath w (ascii "\\\\.\\PhysicalDrive0"), .defaultPassword 0 shippedDevice, .close w 0]]).run env sched).trace.whole
    s.sid = ownedState.sid ∧ s.reverts = 0 ∧ ∀ o ∈ s.sessions, ¬ o.Privileged :=
  win_drive_protected (winGuarded_ideal roomyDrive ownedState) conv sampleCtx env _
    (by
      intro cl hcl c hc
      simp only [List.mem_cons, List.not_mem_nil, or_false] at hcl
      rcases hcl with rfl | rfl <;> simp only [List.mem_cons, List.not_mem_nil, or_false] at hc
      · rcases hc with rfl | rfl | rfl | rfl
        · trivial
        · show ([_, _] : Bytes) ≠ _; decide
        · show ([_, _] : Bytes) ≠ _; decide
        · rintro ⟨-, -, h, -⟩; exact absurd h (by decide)
      · rcases hc with rfl | rfl | rfl <;> trivial)
    (fun o ho => by cases ho) sched

/-- The miniport request of a Security Send with these bytes. -/
def miniportSendOf (dr : Drive) (wire : Bytes) : WAReq :=
  .sys (.ioctl 5 0x4d008 (miniportRecord (securityNvme true 1 dr.comId wire) wire) 4248 none)

theorem winGuardedStep_send (dr : Drive) (s : DriveState) (wire : Bytes) (hl : wire.length ≤ 4096) :
    winGuardedStep dr s (miniportSendOf dr wire) = idealStep dr s (.sec true false 1 dr.comId wire 0) := by
  obtain ⟨-, hv⟩ := miniportRecord_view (securityNvme true 1 dr.comId wire) wire
  have h10 := securityNvme_cdw10 true 1 dr.comId wire
  have h11 : (securityNvme true 1 dr.comId wire).cdw11.toNat = wire.length := by
    show (BitVec.ofNat 32 wire.length).toNat = _
    rw [BitVec.toNat_ofNat, Nat.mod_eq_of_lt (by omega)]
  have hd : (delivered (zeros 4096) wire).take wire.length = wire := by
    unfold delivered
    rw [zeros_length, List.take_of_length_le hl, List.take_left]
  have hc := dr.comId.isLt
  unfold miniportSendOf winGuardedStep
  simp only [hv, h10, h11, miniportOf, hd, idealStep]
  rw [if_pos ⟨trivial, rfl, by show (1 * 2 ^ 24 + _) / _ = 1; omega, by omega⟩, if_pos ⟨trivial, trivial⟩]
  cases readPacket wire <;> rfl

theorem foldl_eq_of {α β : Type} (f g : β → α → β) (P : α → Prop) (h : ∀ s a, P a → f s a = g s a) :
    ∀ (l : List α) (s : β), (∀ a ∈ l, P a) → l.foldl f s = l.foldl g s
  | [], _, _ => rfl
  | a :: l, s, hl => by
    rw [List.foldl_cons, List.foldl_cons, h s a (hl a (List.mem_cons_self ..))]
    exact foldl_eq_of f g P h l _ (fun b hb => hl b (List.mem_cons_of_mem _ hb))

theorem winGuarded_sends (dr : Drive) (ws : List Bytes) (s : DriveState) (h : ∀ b ∈ ws, b.length ≤ 4096) :
    ws.foldl (fun s b => winGuardedStep dr s (miniportSendOf dr b)) s =
    ws.foldl (fun s b => idealStep dr s (.sec true false 1 dr.comId b 0)) s :=
  foldl_eq_of _ _ (fun b => b.length ≤ 4096) (fun s b => winGuardedStep_send dr s b) ws s h

/-- The packets of `RevertTPer` with a PSID to a conforming drive. -/
def revertWires (pw : Bytes) : List Bytes :=
  sentData (OutT.run (idealEnv shippedDrive ownedState) [] (shippedDevice.revertTPer sampleCtx pw true true)).2

theorem revertWires_short : (∀ b ∈ revertWires [0x50, 0x31], b.length ≤ 4096) ∧ (∀ b ∈ revertWires [0x50, 0x32], b.length ≤ 4096) := by
  decide +kernel

theorem revertWires_effect :
    ((revertWires [0x50, 0x31]).foldl (fun s b => idealStep shippedDrive s (.sec true false 1 shippedDrive.comId b 0)) ownedState).reverts = 1 ∧
    ((revertWires [0x50, 0x32]).foldl (fun s b => idealStep shippedDrive s (.sec true false 1 shippedDrive.comId b 0)) ownedState).reverts = 0 := by
  decide +kernel

/-- Something is at stake: the packets of `RevertTPer` with the PSID, in miniport requests, revert the drive, and those with a wrong
one do not. -/
example :
    ((revertWires [0x50, 0x31]).foldl (fun s b => winGuardedStep shippedDrive s (miniportSendOf shippedDrive b)) ownedState).reverts = 1 ∧
    ((revertWires [0x50, 0x32]).foldl (fun s b => winGuardedStep shippedDrive s (miniportSendOf shippedDrive b)) ownedState).reverts = 0 := by
  rw [winGuarded_sends _ _ _ revertWires_short.1, winGuarded_sends _ _ _ revertWires_short.2]
  exact revertWires_effect

end Dparm
