import Verif.Spec.WinTcg
import Verif.Lemmas.WinTcg
import Verif.Lemmas.TcgSystem
import Verif.Props.WinSystem
import Verif.Props.WinNvme
/-!
# Whole program on Windows: TCG operations on an opened drive
-/
namespace Dparm
open Spec
attribute [local irreducible] OutT.Asks

/-! ### The drives -/

theorem winFirst_handle (h : Nat) (ds : List WinOpener)
    (hr : ∀ d ∈ ds, OutT.Returns (fun r => ∀ x, r = .ok x → x.1.handle = h) (d h)) :
    OutT.Returns (fun x : Option (WinDrv × Driver) => ∀ y, x = some y → y.1.handle = h) (winFirst ds h) := by
  induction ds with
  | nil => exact OutT.returns_ret (by intro y h; simp at h)
  | cons d ds ih =>
    unfold winFirst
    refine OutT.returns_bind (hr d (by simp)) (fun x hx => ?_)
    split
    · exact OutT.returns_panic
    · rename_i x
      refine OutT.returns_ret (fun y h' => ?_)
      injection h' with h'
      rw [← h']
      exact hx x rfl
    · exact ih (fun d hd => hr d (by simp [hd]))

theorem asOpener_handle {α : Type} (open' : Nat → WinM (Res α)) (wrap : Nat → α → WinDrv × Driver) (h : Nat)
    (hw : ∀ a, (wrap h a).1.handle = h) :
    OutT.Returns (fun r => ∀ x, r = .ok x → x.1.handle = h) (asOpener open' wrap h) := by
  unfold asOpener
  refine OutT.returns_bind (OutT.returns_any _) (fun x _ => ?_)
  split
  · exact OutT.returns_panic
  · exact OutT.returns_ret (by simp)
  · rename_i a
    refine OutT.returns_ret (fun x hx => ?_)
    injection hx with hx
    rw [← hx]
    exact hw a

theorem winOpeners_handle (b b' h : Nat) : ∀ d ∈ winOpeners b b',
    OutT.Returns (fun r => ∀ x, r = .ok x → x.1.handle = h) (d h) := by
  intro d hd
  simp only [winOpeners, List.mem_cons, List.not_mem_nil, or_false] at hd
  rcases hd with rfl | rfl | rfl | rfl
  all_goals exact asOpener_handle _ _ _ (fun a => rfl)

/-- C136, the drives: every drive the Windows factory returns is bound, by one of the four drivers, to the handle opened
for it, or has no driver. -/
theorem win_open_kinds (w : WinRun) (b b' : Nat) (path : Bytes) (env : Prog.Env WReq WRep) (hist : Prog.Trace WReq WRep)
    (o : WinOpened) (h : (OutT.run env hist (winOpenByPath w (winOpeners b b') path)).1 = .ret (.ok o)) :
    (∃ k, WinBound o k ∧ k.handle = (env hist (.openDevice path)).handle) ∨ WinUnbound o := by
  unfold winOpenByPath at h
  rw [OutT.run_bind] at h
  have hopen : ∀ x t, OutT.run env hist (winOpenDevice path) = (.ret (.ok x), t) →
      x = (env hist (.openDevice path)).handle := by
    intro x t hx
    unfold winOpenDevice at hx
    split at hx
    · simp [OutT.run_ret] at hx
    · rw [OutT.run_ask_bind] at hx
      split at hx
      · simp [OutT.run_ret] at hx
      · simp [OutT.run_ret] at hx
        exact hx.1.symm
  rcases ho : OutT.run env hist (winOpenDevice path) with ⟨x, t⟩
  rw [ho] at h
  cases x with
  | panic => simp at h
  | running => simp at h
  | ret x =>
    dsimp only at h
    cases x with
    | panic => simp at h
    | err e => simp at h
    | ok hd =>
      have hh := hopen hd t ho
      dsimp only at h
      rw [OutT.run_bind] at h
      rcases hr : OutT.run env (hist ++ t) (winOpenByHandle w (winOpeners b b') hd path) with ⟨y, u⟩
      rw [hr] at h
      cases y with
      | panic => simp at h
      | running => simp at h
      | ret y =>
        simp at h
        subst h
        obtain ⟨bi, tb, segs, rest, -, -, -, hc⟩ := win_open_by_handle w _ hd path env _ _ _ hr
        rcases hc with ⟨i, x, e, hf, h1, h2, -⟩ | ⟨-, h1, h2, -⟩
        · obtain ⟨d, seg, hds, -, hrun⟩ := hf.accepted
          have hm : d ∈ winOpeners b b' := List.mem_of_getElem? hds
          have k1 := OutT.returns_run (winOpeners_kind b b' hd d hm) env (hist ++ t ++ tb ++ (segs.take i).flatten) (.ok x)
            (by rw [hrun]) x rfl
          have k2 := OutT.returns_run (winOpeners_handle b b' hd d hm) env (hist ++ t ++ tb ++ (segs.take i).flatten) (.ok x)
            (by rw [hrun]) x rfl
          refine .inl ⟨x.1, ⟨h1, x.2.identity, ?_⟩, by rw [k2, hh]⟩
          rw [h2, ← k1.1, ← k1.2]
        · exact .inr ⟨h1, h2⟩

/-! ### Requests -/

/-- The requests of a TCG operation to a driver. -/
def TcgDrvAsk (comId : BitVec 16) : DrvReq → Prop
  | .sec rw _ p c data to => p = 1 ∧ c = comId ∧ to = 5 ∧ TcgLength rw data.length
  | .taskFile rw _ tf data to => tf = securityTf rw false 1 comId data.length ∧ to = 5 ∧ TcgLength rw data.length
  | .nvmeAdmin cmd => ∃ rw data, cmd = securityNvme rw 1 comId data ∧ TcgLength rw data.length
  | _ => False

theorem securityCommand_tcgAsks (hd : Handle) (rw : Bool) (comId : BitVec 16) (data : Bytes)
    (hl : TcgLength rw data.length) : OutT.Asks (TcgDrvAsk comId) (hd.securityCommand rw false 1 comId data 5) := by
  unfold Handle.securityCommand
  split
  · exact OutT.asks_ret _
  · refine OutT.asks_bind (OutT.asks_ask ⟨rfl, rfl, rfl, hl⟩) (fun r => ?_)
    dsimp only
    split
    · exact OutT.asks_ret _
    · split
      · refine OutT.asks_bind (OutT.asks_ask ⟨rfl, rfl, ?_⟩) (fun r => OutT.asks_ret _)
        rw [storeInto_length]; exact hl
      · split
        · refine OutT.asks_bind (OutT.asks_ask ⟨rw, _, rfl, ?_⟩) (fun r => OutT.asks_ret _)
          rw [storeInto_length]; exact hl
        · exact OutT.asks_ret _

theorem tcgLength_bounds {rw : Bool} {n : Nat} (h : TcgLength rw n) : 512 ≤ n ∧ n ≤ 61440 := by
  unfold TcgLength at h
  cases rw
  · simp at h; omega
  · simp at h; omega

theorem comId_regs (c : BitVec 16) : (c.setWidth 8).toNat = c.toNat % 256 ∧ ((c >>> 8).setWidth 8).toNat = c.toNat / 256 := by
  have := c.isLt
  refine ⟨by simp, ?_⟩
  simp [BitVec.toNat_setWidth, Nat.shiftRight_eq_div_pow]
  omega

theorem ataTrusted_of (rw : Bool) (comId : BitVec 16) (n : Nat) (hl : TcgLength rw n) (v : AtaView)
    (h1 : v.flags = ataFlagsOf rw (securityTf rw false 1 comId n)) (h2 : v.transferLength = n % 2 ^ 32)
    (h3 : v.timeout = 5 % 2 ^ 32) (h4 : v.current = currentRegs (securityTf rw false 1 comId n)) :
    AtaTrusted rw 1 comId n v := by
  have hb := tcgLength_bounds hl
  have hr := comId_regs comId
  refine ⟨by rw [h1]; cases rw <;> rfl, by rw [h2]; omega, by rw [h3], ?_⟩
  rw [h4]
  have e1 : comId.setWidth 8 = BitVec.ofNat 8 comId.toNat := BitVec.eq_of_toNat_eq (by rw [hr.1, BitVec.toNat_ofNat])
  have e2 : (comId >>> 8).setWidth 8 = BitVec.ofNat 8 (comId.toNat / 256) := BitVec.eq_of_toNat_eq (by
    rw [hr.2, BitVec.toNat_ofNat]; have := comId.isLt; omega)
  unfold currentRegs securityTf
  dsimp only
  rw [e1, e2]
  cases rw <;> rfl

theorem winAtaTask_tcg (rw : Bool) (comId : BitVec 16) (hd : Nat) (data : Bytes) (addr base : Nat)
    (hl : TcgLength rw data.length) :
    OutT.Asks (fun q => TcgOnWindowsOnly (.ata hd) comId (.sys q))
      (winAtaTask hd rw (securityTf rw false 1 comId data.length) data addr base 5) := by
  have hb := tcgLength_bounds hl
  have hne : data ≠ [] := by intro h; rw [h] at hb; simp at hb
  refine OutT.asks_of_run (fun env hist x hx => ?_)
  have hz : rw = true → payload x.1 = some (zeros data.length) := by
    rintro rfl
    exact (win_writes_are_zeros (.ataTask (securityTf true false 1 comId data.length)) hd data addr base 5 hne env hist).2.2 x hx
  obtain ⟨inb, a, c, r, rest, h1, h2, h3⟩ :=
    win_ata_records hd rw (securityTf rw false 1 comId data.length) data addr base 5 hne env hist
  rw [h1] at hx
  rcases List.mem_cons.1 hx with rfl | hx
  · have hv : ataView (inb.take 48) = ataView inb := by
      unfold ataView slice
      simp only [List.drop_take, List.take_take]
      rfl
    refine ⟨rw, data.length, hl, rfl, .inl rfl, ?_, hz⟩
    rw [hv, h2]
    exact ataTrusted_of rw comId _ hl _ rfl rfl rfl rfl
  · obtain ⟨inb2, n, hq, -, hv⟩ := h3 x hx
    rw [hq] at hz ⊢
    refine ⟨rw, data.length, hl, rfl, .inr rfl, ?_, hz⟩
    rw [hv, h2]
    exact ataTrusted_of rw comId _ hl _ rfl rfl rfl rfl

theorem scsi_tcg (k : WinDrv) (tr : Bool) (hd : Nat) (hk : k = .scsi hd ∧ tr = true ∨ k = .windowsNvme hd ∧ tr = false)
    (op : PassOp) (hop : ∀ tf, op ≠ .ataTask tf) (rw : Bool) (comId : BitVec 16)
    (data : Bytes) (addr base : Nat) (hl : TcgLength rw data.length)
    (hc : IsSecurityCdb rw 1 comId data.length (cdbOf op rw data.length) ∨
      tr = true ∧ IsTrustedCdb rw 1 comId data.length (cdbOf op rw data.length)) :
    OutT.Asks (fun q => TcgOnWindowsOnly k comId (.sys q)) (op.prog hd rw data addr base 5) := by
  have hb := tcgLength_bounds hl
  have hne : data ≠ [] := by intro h; rw [h] at hb; simp at hb
  have fin : ∀ code inb n mem, (code = 0x4d014 ∨ code = 0x4d004) → ScsiTrusted tr rw 1 comId data.length (scsiView (inb.take 96)) →
      (rw = true → payload (.ioctl hd code inb n mem) = some (zeros data.length)) →
      TcgOnWindowsOnly k comId (.sys (.ioctl hd code inb n mem)) := by
    intro code inb n mem h1 h2 h3
    refine ⟨rw, data.length, hl, ?_⟩
    rcases hk with ⟨rfl, rfl⟩ | ⟨rfl, rfl⟩
    · exact ⟨rfl, h1, h2, h3⟩
    · exact ⟨rfl, h1, h2, h3⟩
  refine OutT.asks_of_run (fun env hist x hx => ?_)
  have hz : rw = true → payload x.1 = some (zeros data.length) := by
    rintro rfl
    exact (win_writes_are_zeros op hd data addr base 5 hne env hist).2.2 x hx
  obtain ⟨inb, a, c, r, rest, h1, h2, h3⟩ := win_scsi_records op hop hd rw data addr base 5 hne env hist
  rw [h1] at hx
  rcases List.mem_cons.1 hx with rfl | hx
  · have hlen : (cdbOf op rw data.length).length ≤ 16 := by
      cases op with
      | ataTask tf => exact absurd rfl (hop tf)
      | scsiTask tf => exact winTaskCdb_length tf
      | scsiSecurity p c => show (winSecCdb rw p c data.length).length ≤ 16; rw [winSecCdb_length]; omega
    have hn : leVal (slice inb 6 1) = (cdbOf op rw data.length).length := congrArg ScsiView.cdbLength h2
    have hs : ∀ i n, i + n ≤ 96 → slice (inb.take 96) i n = slice inb i n := by
      intro i n hin
      unfold slice; rw [List.drop_take, List.take_take]
      congr 1; omega
    have hv : scsiView (inb.take 96) = scsiView inb := by
      unfold scsiView
      rw [hs 6 1 (by omega), hn]
      rw [hs, hs, hs, hs, hs, hs, hs, hs, hs, hs, hs] <;> omega
    refine fin _ _ _ _ (.inl rfl) ?_ hz
    rw [hv, h2]
    refine ⟨rfl, ?_, rfl, hc⟩
    show data.length % 2 ^ 32 = _
    omega
  · obtain ⟨inb2, n, hq, -, hv⟩ := h3 x hx
    rw [hq] at hz ⊢
    refine fin _ _ _ _ (.inr rfl) ?_ hz
    rw [hv, h2]
    refine ⟨rfl, ?_, rfl, hc⟩
    show data.length % 2 ^ 32 = _
    omega

theorem sec_cdb_tcg (rw : Bool) (comId : BitVec 16) (n : Nat) (hl : TcgLength rw n) :
    IsSecurityCdb rw 1 comId n (cdbOf (.scsiSecurity 1 comId) rw n) := by
  have hb := tcgLength_bounds hl
  obtain ⟨h1, h2, h3, h4, h5, h6, h7⟩ := win_sec_cdb 1 comId rw n
  exact ⟨h1, h2, h3, h4, by rw [h6]; omega, h5, h7⟩

theorem task_cdb_tcg (rw : Bool) (comId : BitVec 16) (n : Nat) (hl : TcgLength rw n) :
    IsTrustedCdb rw 1 comId n (cdbOf (.scsiTask (securityTf rw false 1 comId n)) rw n) := by
  have hr := comId_regs comId
  refine ⟨_, win_task_cdb _ rw n, ?_, rfl, ?_, ?_, ?_, ?_, ?_, ?_, rfl⟩
  · cases rw <;> rfl
  · rfl
  · exact BitVec.toNat_ofNat ..
  · rfl
  · exact hr.1
  · exact hr.2
  · rfl

theorem miniport_tcg (h sh : Nat) (rw : Bool) (comId : BitVec 16) (data : Bytes) (mem : Nat → Byte)
    (hl : TcgLength rw data.length) :
    OutT.Asks (fun q => TcgOnWindowsOnly (.nvmeWin h sh) comId (.sys q)) (miniportAdmin sh (securityNvme rw 1 comId data) mem) := by
  have hb := tcgLength_bounds hl
  have hlen : (securityNvme rw 1 comId data).dataLen.toNat = data.length := by
    show (BitVec.ofNat 32 data.length).toNat = _
    rw [BitVec.toNat_ofNat]; omega
  refine OutT.asks_of_run (fun env hist x hx => ?_)
  obtain ⟨g1, g2⟩ := win_miniport_admin sh (securityNvme rw 1 comId data) mem env hist
  by_cases h4 : data.length > 4096
  · rw [g1 (by rw [hlen]; exact h4)] at hx
    simp at hx
  · obtain ⟨inb, r, h1, -, h2, -⟩ := g2 (by rw [hlen]; omega)
    rw [h1] at hx
    simp only [List.mem_singleton] at hx
    rw [hx]
    refine ⟨rw, data.length, hl, rfl, rfl, by omega, data, rfl, ?_⟩
    rw [h2]
    have e10 : (securityNvme rw 1 comId data).cdw10.toNat = 1 * 2 ^ 24 + comId.toNat * 2 ^ 8 := by
      exact securityNvme_cdw10 rw 1 comId data
    have e11 : (securityNvme rw 1 comId data).cdw11.toNat = data.length := hlen
    rw [e10, e11]
    cases rw <;> rfl

theorem winDrv_tcg (k : WinDrv) (comId : BitVec 16) (addr base : Nat) (behind : Nat → Byte) (q : DrvReq)
    (hq : TcgDrvAsk comId q) :
    OutT.Asks (fun q => TcgOnWindowsOnly k comId (.sys q)) (winDrv k addr base behind q) := by
  cases q with
  | close => exact absurd hq id
  | drivingType => exact absurd hq id
  | driverName => exact absurd hq id
  | sec rw dma p c data to =>
    obtain ⟨rfl, rfl, rfl, hl⟩ := hq
    cases k
    · exact OutT.asks_ret _
    · rename_i h
      exact OutT.asks_bind (scsi_tcg _ false h (.inr ⟨rfl, rfl⟩) (.scsiSecurity 1 c) (fun _ => by simp) rw c data addr base hl
        (.inl (sec_cdb_tcg rw c _ hl))) (fun _ => OutT.asks_ret _)
    · rename_i h
      exact OutT.asks_bind (scsi_tcg _ true h (.inl ⟨rfl, rfl⟩) (.scsiSecurity 1 c) (fun _ => by simp) rw c data addr base hl
        (.inl (sec_cdb_tcg rw c _ hl))) (fun _ => OutT.asks_ret _)
    · exact OutT.asks_ret _
  | taskFile rw dma tf data to =>
    obtain ⟨rfl, rfl, hl⟩ := hq
    cases k
    · exact OutT.asks_panic
    · exact OutT.asks_panic
    · rename_i h
      exact OutT.asks_bind (scsi_tcg _ true h (.inl ⟨rfl, rfl⟩) (.scsiTask (securityTf rw false 1 comId data.length))
        (fun _ => by simp) rw comId data addr base hl
        (.inr ⟨rfl, task_cdb_tcg rw comId _ hl⟩)) (fun _ => OutT.asks_ret _)
    · exact OutT.asks_bind (winAtaTask_tcg rw comId _ data addr base hl) (fun _ => OutT.asks_ret _)
  | nvmeAdmin c =>
    obtain ⟨rw, data, rfl, hl⟩ := hq
    cases k
    · exact OutT.asks_bind (miniport_tcg _ _ rw comId data _ hl) (fun _ => OutT.asks_ret _)
    · exact OutT.asks_ret _
    · exact OutT.asks_panic
    · exact OutT.asks_panic
  | taskNil rw dma tf to => exact absurd hq id
  | logPage nsid lid rae size => exact absurd hq id

theorem tcg_windows_asks {α : Type} (o : WinOpened) (k : WinDrv) (hk : o.drv = some k) (comId : BitVec 16) (p : TcgM α)
    (hp : OutT.Asks (TcgAsk comId) p) : OutT.Asks (TcgOnWindowsOnly k comId) (tcgOnWindows o p) := by
  unfold tcgOnWindows
  refine OutT.asks_interp_of _ hp (fun q hq => ?_)
  cases q with
  | now => exact OutT.asks_bind (OutT.asks_ask trivial) (fun _ => OutT.asks_ret _)
  | sleep ns => exact OutT.asks_bind (OutT.asks_ask hq) (fun _ => OutT.asks_ret _)
  | sec rw dma p c data to =>
    unfold secOnWindows WinOpened.method
    rw [hk]
    dsimp only
    have hl : TcgLength rw data.length ∧ dma = false ∧ p = 1 ∧ c = comId ∧ to = 5 := by
      cases rw with
      | true => obtain ⟨h1, h2, h3, h4, h5⟩ := hq; exact ⟨h5, h1, h2, h3, h4⟩
      | false => obtain ⟨h1, h2, h3, h4, h5⟩ := hq; exact ⟨by rw [h5, zeros_length]; rfl, h1, h2, h3, h4⟩
    obtain ⟨hl, rfl, rfl, rfl, rfl⟩ := hl
    refine OutT.asks_interp_of _ (securityCommand_tcgAsks o.handle rw c data hl) (fun q hq => ?_)
    unfold winDrvPlaced
    refine OutT.asks_bind (OutT.asks_ask trivial) (fun pl => ?_)
    refine OutT.asks_interp_of _ (winDrv_tcg k c pl.addr pl.base pl.behind q hq) (fun q hq => ?_)
    exact OutT.asks_bind (OutT.asks_ask hq) (fun _ => OutT.asks_ret _)

/-- **C136.** Whatever the system answers, a TCG operation on a drive of the Windows factory makes no requests but those of
`TcgOnWindowsOnly`: security commands of protocol 1 and the device's ComID, by the records of the driver that accepted the
drive, on its handle. Through every driver but the miniport one, all data sent is zeros. -/
theorem tcg_on_windows_only {α : Type} (o : WinOpened) (k : WinDrv) (hk : o.drv = some k) (comId : BitVec 16) (p : TcgM α)
    (hp : OutT.Asks (TcgAsk comId) p) (env : Prog.Env WAReq WARep) (h : Prog.Trace WAReq WARep) :
    ∀ x ∈ (OutT.run env h (tcgOnWindows o p)).2, TcgOnWindowsOnly k comId x.1 :=
  OutT.asks_run (tcg_windows_asks o k hk comId p hp) env h

/-- **C136, reverting.** -/
theorem revert_on_windows_only (o : WinOpened) (k : WinDrv) (hk : o.drv = some k) (ctx : Ctx) (d : Device) (pw : Bytes)
    (psid adm : Bool) (env : Prog.Env WAReq WARep) (h : Prog.Trace WAReq WARep) :
    ∀ x ∈ (OutT.run env h (tcgOnWindows o (d.revertTPer ctx pw psid adm))).2, TcgOnWindowsOnly k d.baseComId x.1 :=
  tcg_on_windows_only o k hk _ _ (revertTPer_asks ctx d pw psid adm) env h

/-- **C136, the default password.** -/
theorem default_password_on_windows_only (o : WinOpened) (k : WinDrv) (hk : o.drv = some k) (ctx : Ctx) (d : Device)
    (env : Prog.Env WAReq WARep) (h : Prog.Trace WAReq WARep) :
    ∀ x ∈ (OutT.run env h (tcgOnWindows o (d.getDefaultPassword ctx))).2, TcgOnWindowsOnly k d.baseComId x.1 :=
  tcg_on_windows_only o k hk _ _ (getDefaultPassword_asks ctx d) env h

/-- **C136, no driver.** On a drive without a driver no request reaches the system. -/
theorem tcg_unbound_on_windows {α : Type} (o : WinOpened) (hu : WinUnbound o) (p : TcgM α) (env : Prog.Env WAReq WARep)
    (h : Prog.Trace WAReq WARep) : ∀ x ∈ (OutT.run env h (tcgOnWindows o p)).2, ∀ q, x.1 ≠ .sys q := by
  refine OutT.asks_run (A := fun x : WAReq => ∀ q, x ≠ .sys q) ?_ env h
  refine OutT.asks_interp_of _ (OutT.asks_true p) (fun q _ => ?_)
  cases q with
  | now => exact OutT.asks_bind (OutT.asks_ask (by simp)) (fun _ => OutT.asks_ret _)
  | sleep ns => exact OutT.asks_bind (OutT.asks_ask (by simp)) (fun _ => OutT.asks_ret _)
  | sec rw dma p c data to =>
    unfold secOnWindows WinOpened.method Handle.securityCommand
    rw [hu.1]
    dsimp only
    rw [hu.2]
    exact OutT.asks_ret _

/-! ### Blind reverts -/

/-- **C135.** On a drive the Windows factory bound to any driver but the miniport one, reverting does the same whatever
password and options are given: the same requests with the same bytes, the same result, whatever the system answers. -/
theorem revert_blind_on_windows (o : WinOpened) (k : WinDrv) (hb : WinBound o k) (hk : ¬ OnMiniport k) (ctx : Ctx)
    (d : Device) (pw pw' : Bytes) (psid psid' adm adm' : Bool) (env : Prog.Env WAReq WARep) (h : Prog.Trace WAReq WARep) :
    OutT.run env h (tcgOnWindows o (d.revertTPer ctx pw psid adm)) =
      OutT.run env h (tcgOnWindows o (d.revertTPer ctx pw' psid' adm')) := by
  obtain ⟨hd, identity, hh⟩ := hb
  have key := OutT.alike_interp (secOnWindows o) (A := fun _ => True) (fun q q' _ _ hq => ?_)
    (revertTPer_alike ctx d pw pw' psid psid' adm adm') (OutT.asks_true _) (OutT.asks_true _)
  · exact congrArg (OutT.run env h) key
  · rcases hq with rfl | ⟨dma, p, c, data, data', to, rfl, rfl, hl⟩
    · rfl
    · unfold secOnWindows WinOpened.method
      rw [hd]
      exact winSend_eq k (fun a b e => hk ⟨a, b, e⟩) o.handle identity hh dma p c data data' hl to

/-- **C135, from opening.** The same for a drive as the factory returns it. -/
theorem revert_blind_on_opened (w : WinRun) (b b' : Nat) (path : Bytes) (env : Prog.Env WReq WRep)
    (hist : Prog.Trace WReq WRep) (o : WinOpened)
    (ho : (OutT.run env hist (winOpenByPath w (winOpeners b b') path)).1 = .ret (.ok o)) (k : WinDrv)
    (hd : o.drv = some k) (hk : ¬ OnMiniport k) (ctx : Ctx) (d : Device) (pw pw' : Bytes) (psid psid' adm adm' : Bool)
    (env' : Prog.Env WAReq WARep) (h : Prog.Trace WAReq WARep) :
    OutT.run env' h (tcgOnWindows o (d.revertTPer ctx pw psid adm)) =
      OutT.run env' h (tcgOnWindows o (d.revertTPer ctx pw' psid' adm')) := by
  rcases win_open_kinds w b b' path env hist o ho with ⟨k', hb, -⟩ | hu
  · have : k' = k := by
      have := hb.1
      rw [hd] at this
      injection this with this
      exact this.symm
    subst this
    exact revert_blind_on_windows o k' hb hk ctx d pw pw' psid psid' adm adm' env' h
  · rw [hu.1] at hd
    cases hd

/-! ### Cases that meet the hypotheses -/

/-- A drive bound to the ATA driver, for examples. -/
def exAtaDrive : WinOpened := { drv := some (.ata 7), handle := { dh := some { ata := true, nvme := false, identity := [] } } }

example : WinBound exAtaDrive (.ata 7) ∧ ¬ OnMiniport (.ata 7) := ⟨⟨rfl, [], rfl⟩, fun ⟨_, _, h⟩ => by cases h⟩
example : WinUnbound {} := ⟨rfl, rfl⟩
example : TcgAsk 7 (.sec true false 1 7 (List.replicate 512 0xff) 5) :=
  ⟨rfl, rfl, rfl, rfl, by rw [List.length_replicate]; decide⟩

/-- What the example shows of a request: control code, registers, data. -/
def exShow : WAReq → List Bytes
  | .sys (.ioctl h code inb n mem) => [leBytes 4 code, (ataView inb).current, (payload (.ioctl h code inb n mem)).getD []]
  | _ => []

/-- A send of 512 bytes 0xff reaches the drive as one ATA pass-through of zeros. -/
example : ((OutT.run (fun _ _ => {}) [] (tcgOnWindows exAtaDrive
      (OutT.ask (.sec true false 1 7 (List.replicate 512 0xff) 5)))).2.map (fun x => exShow x.1)) =
    [[], [], [leBytes 4 0x4d030, [1, 1, 0, 7, 0, 0, 0x5e, 0], zeros 512]] := by decide +kernel

end Dparm
