import Verif.Spec.WinSystem
import Verif.Props.WinVolume
import Verif.Props.WinEnum
import Verif.Lemmas.LinuxSystem
/-!
# Whole program on Windows: opening and enumerating drives only reads
-/
namespace Dparm
open Spec

instance : Inhabited WRep := ⟨{}⟩

theorem OutT.asks_bind_returns {Q R α β : Type} {A : Q → Prop} {B : α → Prop} {p : OutT Q R α} {f : α → OutT Q R β}
    (hp : OutT.Asks A p) (hb : OutT.Returns B p) (hf : ∀ a, B a → OutT.Asks A (f a)) : OutT.Asks A (p >>= f) := by
  have : ∀ p : Prog Q R (Out α), Prog.Asks A p → Prog.Returns B p → Prog.Asks A (Prog.bind p (OutT.cont f)) := by
    intro p
    induction p with
    | done o =>
      intro _ hb
      cases o with
      | ret a => exact hf a hb
      | panic => trivial
      | running => trivial
    | ask q k ih => intro hp hb; exact ⟨hp.1, fun r => ih r (hp.2 r) (hb r)⟩
  exact this p hp hb

/-! ### The pass-through commands that read -/

/-- The two taskfiles that opening a drive uses. -/
def ReadTf (tf : Tf) : Prop := tf = winIdentifyTf ∨ tf = securityTf false false 1#8 1#16 2048

theorem readTf_ata {tf : Tf} (h : ReadTf tf) (v : AtaView) (hf : v.flags = ataFlagsOf false tf)
    (hc : v.current = currentRegs tf) : AtaReads v := by
  unfold AtaReads
  rw [hf, hc]
  rcases h with rfl | rfl
  · exact ⟨rfl, .inl rfl⟩
  · exact ⟨rfl, .inr ⟨rfl, rfl, rfl, rfl⟩⟩

theorem winAtaTask_reads {tf : Tf} (h : ReadTf tf) (hd : Nat) (data : Bytes) (addr base to : Nat) :
    OutT.Asks WinReadsOnly (winAtaTask hd false tf data addr base to) := by
  refine OutT.asks_of_run (fun env hist x hx => ?_)
  by_cases hne : data = []
  · subst hne
    rw [show winAtaTask hd false tf [] addr base to = (winAtaPass false tf to).run hd false [] addr base from rfl,
      winPass_empty] at hx
    simp at hx
  · obtain ⟨inb, a, c, r, rest, h1, h2, h3⟩ := win_ata_records hd false tf data addr base to hne env hist
    rw [h1] at hx
    rcases List.mem_cons.1 hx with rfl | hx
    · have hv : ataView (inb.take 48) = ataView inb := by
        unfold ataView slice
        simp only [List.drop_take, List.take_take]
        rfl
      refine .inr (.inr (.inl ⟨.inl rfl, ?_⟩))
      rw [hv, h2]
      exact readTf_ata h _ rfl rfl
    · obtain ⟨inb2, n, hq, -, hv⟩ := h3 x hx
      rw [hq]
      refine .inr (.inr (.inl ⟨.inr rfl, ?_⟩))
      rw [hv, h2]
      exact readTf_ata h _ rfl rfl

theorem scsi_reads (op : PassOp) (hop : ∀ tf, op ≠ .ataTask tf) (hd : Nat) (data : Bytes) (addr base to : Nat)
    (hc : (∃ s, satDecode (cdbOf op false data.length) = some s ∧ RegsRead s.command.toNat s.feat s.lbam s.lbah) ∨
      (cdbOf op false data.length).take 4 = [0xa2, 1, 0, 1]) :
    OutT.Asks WinReadsOnly (op.prog hd false data addr base to) := by
  refine OutT.asks_of_run (fun env hist x hx => ?_)
  by_cases hne : data = []
  · subst hne
    rw [passOf_prog, winPass_empty] at hx
    simp at hx
  · obtain ⟨inb, a, c, r, rest, h1, h2, h3⟩ := win_scsi_records op hop hd false data addr base to hne env hist
    rw [h1] at hx
    rcases List.mem_cons.1 hx with rfl | hx
    · have hlen : (cdbOf op false data.length).length ≤ 16 := by
        cases op with
        | ataTask tf => exact absurd rfl (hop tf)
        | scsiTask tf => exact winTaskCdb_length tf
        | scsiSecurity p c => show (winSecCdb false p c data.length).length ≤ 16; rw [winSecCdb_length]; omega
      have hn : leVal (slice inb 6 1) = (cdbOf op false data.length).length := congrArg ScsiView.cdbLength h2
      have hv : (scsiView (inb.take 96)).cdb = (scsiView inb).cdb ∧
          (scsiView (inb.take 96)).dataIn = (scsiView inb).dataIn := by
        have h6 : slice (inb.take 96) 6 1 = slice inb 6 1 := by
          unfold slice; rw [List.drop_take, List.take_take]; rfl
        have h8 : slice (inb.take 96) 8 1 = slice inb 8 1 := by
          unfold slice; rw [List.drop_take, List.take_take]; rfl
        refine ⟨?_, ?_⟩
        · show slice (inb.take 96) 36 (leVal (slice (inb.take 96) 6 1)) = slice inb 36 (leVal (slice inb 6 1))
          rw [h6, hn]
          unfold slice; rw [List.drop_take, List.take_take]
          congr 1; omega
        · show leVal (slice (inb.take 96) 8 1) = leVal (slice inb 8 1)
          rw [h8]
      refine .inr (.inr (.inr (.inl ⟨.inl rfl, ?_⟩)))
      unfold ScsiReads
      rw [hv.1, hv.2, h2]
      exact ⟨rfl, hc⟩
    · obtain ⟨inb2, n, hq, -, hv⟩ := h3 x hx
      rw [hq]
      refine .inr (.inr (.inr (.inl ⟨.inr rfl, ?_⟩)))
      unfold ScsiReads
      rw [hv, h2]
      exact ⟨rfl, hc⟩

theorem winScsiTask_reads {tf : Tf} (h : ReadTf tf) (hd : Nat) (data : Bytes) (addr base to : Nat) :
    OutT.Asks WinReadsOnly (winScsiTask hd false tf data addr base to) := by
  refine scsi_reads (.scsiTask tf) (fun _ => by simp) hd data addr base to (.inl ⟨_, win_task_cdb tf false _, ?_⟩)
  rcases h with rfl | rfl
  · exact .inl rfl
  · exact .inr ⟨rfl, rfl, rfl, rfl⟩

theorem winScsiSec_reads (hd : Nat) (data : Bytes) (addr base to : Nat) :
    OutT.Asks WinReadsOnly (winScsiSec hd false 1#8 1#16 data addr base to) :=
  scsi_reads (.scsiSecurity 1#8 1#16) (fun _ => by simp) hd data addr base to (.inr rfl)

theorem miniport_reads (hd : Nat) (buf : Bytes) (mem : Nat → Byte) (hb : buf.length = 2048) :
    OutT.Asks WinReadsOnly (miniportAdmin hd (securityNvme false 1#8 1#16 buf) mem) := by
  refine OutT.asks_of_run (fun env hist x hx => ?_)
  obtain ⟨inb, r, h1, -, h2, -⟩ := (win_miniport_admin hd (securityNvme false 1#8 1#16 buf) mem env hist).2 (by
    show (BitVec.ofNat 32 buf.length).toNat ≤ 4096
    rw [hb]; decide)
  rw [h1] at hx
  simp only [List.mem_singleton] at hx
  rw [hx]
  refine .inr (.inr (.inr (.inr ⟨rfl, .inr ?_⟩)))
  rw [h2]
  exact ⟨rfl, rfl⟩

/-! ### The drivers -/

theorem winIdentify_reads (base : Nat) (task : Bytes → Nat → WinM (Option GoErr × Bytes))
    (ht : ∀ d a, OutT.Asks WinReadsOnly (task d a)) : OutT.Asks WinReadsOnly (winIdentify base task) := by
  unfold winIdentify
  dsimp only
  refine OutT.asks_bind (ht _ _) (fun x => ?_)
  obtain ⟨e, d⟩ := x
  dsimp only
  split
  · exact OutT.asks_ret _
  · exact OutT.asks_bind (OutT.asks_lift _) (fun _ => OutT.asks_ret _)

theorem windowsNvmeOpen_reads (h : Nat) : OutT.Asks WinReadsOnly (windowsNvmeOpen h) := by
  refine OutT.asks_of_run (fun env hist x hx => ?_)
  obtain ⟨inb, r, h1, h2⟩ := windowsNvme_open h env hist
  rw [h2] at hx
  simp only [List.mem_singleton] at hx
  rw [hx]
  exact .inr (.inl ⟨rfl, congrArg QueryView.queryType h1⟩)

theorem nvmeWinOpen_reads (h : Nat) : OutT.Asks WinReadsOnly (nvmeWinOpen h) := by
  refine OutT.asks_of_run (fun env hist x hx => ?_)
  have h1 : ∀ r : WRep, WinReadsOnly ((WReq.ioctl h 0x41018 (zeros 8) 8 none, r) : WReq × WRep).1 := fun _ =>
    .inl (by decide)
  have h2 : ∀ (sh : Nat) (inb : Bytes) (r : WRep), miniportView inb = miniportOf 6 0 1 0 0 0 0 0 (zeros 4096) →
      WinReadsOnly ((WReq.ioctl sh 0x4d008 inb 4248 none, r) : WReq × WRep).1 := by
    intro sh inb r hv
    refine .inr (.inr (.inr (.inr ⟨rfl, .inl ?_⟩)))
    rw [hv]
    rfl
  obtain ⟨r, hr⟩ := nvmeWin_open h env hist
  rcases hr with ⟨e, -, hr⟩ | ⟨-, text, r2, -, hr⟩
  · rw [hr] at hx
    simp only [List.mem_singleton] at hx
    rw [hx]; exact h1 r
  · rcases hr with ⟨e, -, hr⟩ | ⟨-, inb, r3, -, hv, hr⟩
    · rw [hr] at hx
      simp only [List.mem_cons, List.not_mem_nil, or_false] at hx
      rcases hx with rfl | rfl
      · exact h1 r
      · trivial
    · rcases hr with ⟨-, hr⟩ | ⟨e, r4, -, hr⟩
      · rw [hr] at hx
        simp only [List.mem_cons, List.not_mem_nil, or_false] at hx
        rcases hx with rfl | rfl | rfl
        · exact h1 r
        · trivial
        · exact h2 _ _ _ hv
      · rw [hr] at hx
        simp only [List.mem_cons, List.not_mem_nil, or_false] at hx
        rcases hx with rfl | rfl | rfl | rfl
        · exact h1 r
        · trivial
        · exact h2 _ _ _ hv
        · trivial

/-- Index of the kind of a driver: NVMe 0, ATA 1. -/
def WinDrv.index (k : WinDrv) : Nat := if k.isAta then 1 else 0

theorem winDrv_reads (k : WinDrv) (addr base : Nat) (behind : Nat → Byte) (q : DrvReq) (hq : DrvOk k.index q) :
    OutT.Asks WinReadsOnly (winDrv k addr base behind q) := by
  have hsec : ∀ {i : Nat} {rw dma : Bool} {p : Byte} {c : BitVec 16} {data : Bytes} {to : Nat}, i < 2 →
      DrvOk i (.sec rw dma p c data to) → rw = false ∧ p = 1#8 ∧ c = 1#16 := by
    intro i rw dma p c data to hi h
    match i, hi with
    | 0, _ => exact ⟨h.1, h.2.2.1, h.2.2.2.1⟩
    | 1, _ => exact ⟨h.1, h.2.2.1, h.2.2.2.1⟩
  have hi : k.index < 2 := by unfold WinDrv.index; split <;> omega
  cases q with
  | close => exact OutT.asks_bind (OutT.asks_bind (OutT.asks_ask trivial) (fun _ => OutT.asks_ret _)) (fun _ => OutT.asks_ret _)
  | drivingType => exact OutT.asks_ret _
  | driverName => exact OutT.asks_ret _
  | sec rw dma p c data to =>
    obtain ⟨rfl, rfl, rfl⟩ := hsec hi hq
    cases k
    · exact OutT.asks_ret _
    · exact OutT.asks_bind (winScsiSec_reads ..) (fun _ => OutT.asks_ret _)
    · exact OutT.asks_bind (winScsiSec_reads ..) (fun _ => OutT.asks_ret _)
    · exact OutT.asks_ret _
  | taskFile rw dma tf data to =>
    cases k
    · exact absurd hq id
    · exact absurd hq id
    · obtain ⟨rfl, -, rfl, -⟩ := hq
      exact OutT.asks_bind (winScsiTask_reads (.inr rfl) ..) (fun _ => OutT.asks_ret _)
    · obtain ⟨rfl, -, rfl, -⟩ := hq
      exact OutT.asks_bind (winAtaTask_reads (.inr rfl) ..) (fun _ => OutT.asks_ret _)
  | nvmeAdmin c =>
    cases k
    · obtain ⟨buf, rfl, hb⟩ := hq
      exact OutT.asks_bind (miniport_reads _ _ _ hb) (fun _ => OutT.asks_ret _)
    · exact OutT.asks_ret _
    · exact absurd hq id
    · exact absurd hq id
  | taskNil rw dma tf to => cases k <;> exact absurd hq id
  | logPage nsid id rae size =>
    cases k <;> exact hq.elim

/-- A driver handle as the factory gets it: interfaces as its kind has them. -/
def KindOf (x : Option (WinDrv × Driver)) : Prop := ∀ k d, x = some (k, d) → d.ata = k.isAta ∧ d.nvme = k.isNvme

theorem asOpener_reads {α : Type} (open' : Nat → WinM (Res α)) (wrap : Nat → α → WinDrv × Driver) (h : Nat)
    (ho : OutT.Asks WinReadsOnly (open' h)) : OutT.Asks WinReadsOnly (asOpener open' wrap h) := by
  unfold asOpener
  refine OutT.asks_bind ho (fun x => ?_)
  split
  · exact OutT.asks_panic
  · exact OutT.asks_ret _
  · exact OutT.asks_ret _

theorem asOpener_kind {α : Type} (open' : Nat → WinM (Res α)) (wrap : Nat → α → WinDrv × Driver) (h : Nat)
    (hw : ∀ a, (wrap h a).2.ata = (wrap h a).1.isAta ∧ (wrap h a).2.nvme = (wrap h a).1.isNvme) :
    OutT.Returns (fun r => ∀ x, r = .ok x → x.2.ata = x.1.isAta ∧ x.2.nvme = x.1.isNvme) (asOpener open' wrap h) := by
  unfold asOpener
  refine OutT.returns_bind (OutT.returns_any _) (fun x _ => ?_)
  split
  · exact OutT.returns_panic
  · exact OutT.returns_ret (by simp)
  · rename_i a
    refine OutT.returns_ret (fun x hx => ?_)
    injection hx with hx
    rw [← hx]
    exact hw a

theorem winFirst_reads (h : Nat) (ds : List WinOpener) (hr : ∀ d ∈ ds, OutT.Asks WinReadsOnly (d h)) :
    OutT.Asks WinReadsOnly (winFirst ds h) := by
  induction ds with
  | nil => exact OutT.asks_ret _
  | cons d ds ih =>
    unfold winFirst
    refine OutT.asks_bind (hr d (by simp)) (fun x => ?_)
    split
    · exact OutT.asks_panic
    · exact OutT.asks_ret _
    · exact ih (fun d hd => hr d (by simp [hd]))

theorem winFirst_kind (h : Nat) (ds : List WinOpener)
    (hr : ∀ d ∈ ds, OutT.Returns (fun r => ∀ x, r = .ok x → x.2.ata = x.1.isAta ∧ x.2.nvme = x.1.isNvme) (d h)) :
    OutT.Returns KindOf (winFirst ds h) := by
  induction ds with
  | nil => exact OutT.returns_ret (by intro k d h; simp at h)
  | cons d ds ih =>
    unfold winFirst
    refine OutT.returns_bind (hr d (by simp)) (fun x hx => ?_)
    split
    · exact OutT.returns_panic
    · rename_i x
      refine OutT.returns_ret (fun k d' h' => ?_)
      have := hx x rfl
      injection h' with h'
      rw [h'] at this
      exact this
    · exact ih (fun d hd => hr d (by simp [hd]))

theorem winOpeners_reads (b b' h : Nat) : ∀ d ∈ winOpeners b b', OutT.Asks WinReadsOnly (d h) := by
  intro d hd
  simp only [winOpeners, List.mem_cons, List.not_mem_nil, or_false] at hd
  rcases hd with rfl | rfl | rfl | rfl
  · exact asOpener_reads _ _ _ (nvmeWinOpen_reads h)
  · exact asOpener_reads _ _ _ (windowsNvmeOpen_reads h)
  · exact asOpener_reads _ _ _ (winIdentify_reads _ _ (fun _ _ => winScsiTask_reads (.inl rfl) ..))
  · exact asOpener_reads _ _ _ (winIdentify_reads _ _ (fun _ _ => winAtaTask_reads (.inl rfl) ..))

theorem winOpeners_kind (b b' h : Nat) : ∀ d ∈ winOpeners b b',
    OutT.Returns (fun r => ∀ x, r = .ok x → x.2.ata = x.1.isAta ∧ x.2.nvme = x.1.isNvme) (d h) := by
  intro d hd
  simp only [winOpeners, List.mem_cons, List.not_mem_nil, or_false] at hd
  rcases hd with rfl | rfl | rfl | rfl
  all_goals exact asOpener_kind _ _ _ (fun a => ⟨rfl, rfl⟩)

/-! ### The factory -/

theorem winReadIoctl_reads (h code : Nat) (inb : Bytes) (hc : ∀ n, WinReadsOnly (.ioctl h code inb n none)) :
    OutT.Asks WinReadsOnly (winReadIoctl h code inb) := by
  unfold winReadIoctl
  refine OutT.asks_bind (OutT.asks_ask (hc _)) (fun r => ?_)
  split
  · split
    · exact OutT.asks_panic
    · exact OutT.asks_ret _
  · split
    · split
      · exact OutT.asks_panic
      · refine OutT.asks_bind (OutT.asks_ask (hc _)) (fun r2 => ?_)
        split
        · exact OutT.asks_ret _
        · split
          · exact OutT.asks_panic
          · exact OutT.asks_ret _
    · exact OutT.asks_ret _

theorem winBasicInfo_reads (h : Nat) : OutT.Asks WinReadsOnly (winBasicInfo h) := by
  unfold winBasicInfo
  refine OutT.asks_bind (OutT.asks_ask (.inl (by decide))) (fun n => ?_)
  refine OutT.asks_bind (OutT.asks_ask (.inl (by decide))) (fun g => ?_)
  refine OutT.asks_bind (winReadIoctl_reads _ _ _ (fun _ => .inl (by decide))) (fun x => ?_)
  split
  · exact OutT.asks_panic
  · exact OutT.asks_ret _
  · exact OutT.asks_lift _

theorem winStorageQuery_reads (h : Nat) (beyond : Nat → Byte) : OutT.Asks WinReadsOnly (winStorageQuery h beyond) := by
  unfold winStorageQuery
  refine OutT.asks_bind (winReadIoctl_reads _ _ _ (fun _ => .inr (.inl ⟨rfl, by decide⟩))) (fun x => ?_)
  split
  · exact OutT.asks_panic
  · exact OutT.asks_ret _
  · exact OutT.asks_bind (OutT.asks_lift _) (fun _ => OutT.asks_ret _)

theorem winOpenDevice_reads (path : Bytes) : OutT.Asks WinReadsOnly (winOpenDevice path) := by
  unfold winOpenDevice
  refine asks_ite (OutT.asks_ret _) ?_
  refine OutT.asks_bind (OutT.asks_ask trivial) (fun r => ?_)
  split <;> exact OutT.asks_ret _

theorem index_driverOf {k : WinDrv} {d : Driver} (h : d.ata = k.isAta ∧ d.nvme = k.isNvme) :
    DriverOf k.index (some d) := by
  refine ⟨d, rfl, by unfold WinDrv.index; split <;> omega, ?_, ?_⟩
  · rw [h.1]; cases k <;> rfl
  · rw [h.2]; cases k <;> rfl

theorem index_plain (k : WinDrv) : DrvOk k.index .drivingType ∧ DrvOk k.index .driverName ∧ DrvOk k.index .close :=
  plain_drvOk (by unfold WinDrv.index; split <;> omega)

theorem winOpenByHandle_reads (w : WinRun) (b b' h : Nat) (path : Bytes) :
    OutT.Asks WinReadsOnly (winOpenByHandle w (winOpeners b b') h path) := by
  unfold winOpenByHandle
  refine OutT.asks_bind (winBasicInfo_reads h) (fun bi => ?_)
  dsimp only
  refine OutT.asks_bind_returns (winFirst_reads h _ (winOpeners_reads b b' h)) (winFirst_kind h _ (winOpeners_kind b b' h))
    (fun x hx => ?_)
  split
  · rename_i k d
    have hk := index_driverOf (hx k d rfl)
    have hi : ∀ {α : Type} (p : DrvM α), OutT.Asks (DrvOk k.index) p →
        OutT.Asks WinReadsOnly (OutT.interp (winDrv k w.addr w.base w.behind) p) :=
      fun p hp => OutT.asks_interp _ _ hp (fun q hq => winDrv_reads k _ _ _ q hq)
    refine OutT.asks_bind (hi _ (OutT.asks_bind (OutT.asks_ask (index_plain k).1) (fun _ => OutT.asks_ret _))) (fun t => ?_)
    refine OutT.asks_bind (hi _ (OutT.asks_bind (OutT.asks_ask (index_plain k).2.1) (fun _ => OutT.asks_ret _))) (fun t => ?_)
    exact OutT.asks_bind (hi _ (init_drvOk _ hk)) (fun x => OutT.asks_ret _)
  · refine OutT.asks_bind (winStorageQuery_reads h _) (fun x => ?_)
    split
    · exact OutT.asks_panic
    · exact OutT.asks_ret _
    · exact OutT.asks_ret _

theorem winOpenByPath_reads (w : WinRun) (b b' : Nat) (path : Bytes) :
    OutT.Asks WinReadsOnly (winOpenByPath w (winOpeners b b') path) := by
  unfold winOpenByPath
  refine OutT.asks_bind (winOpenDevice_reads path) (fun x => ?_)
  split
  · exact OutT.asks_panic
  · exact OutT.asks_ret _
  · exact OutT.asks_bind (winOpenByHandle_reads w b b' _ path) (fun _ => OutT.asks_ret _)

theorem winOpenedClose_reads (w : WinRun) (o : WinOpened) : OutT.Asks WinReadsOnly (o.close w) := by
  unfold WinOpened.close
  split
  · rename_i k _
    refine OutT.asks_bind (OutT.asks_interp (A := fun q => q = .close) _ _ ?_ (fun q hq => ?_)) (fun _ => OutT.asks_ret _)
    · unfold Handle.close
      split
      · exact OutT.asks_ret _
      · exact OutT.asks_bind (A := fun q => q = DrvReq.close) (OutT.asks_ask rfl) (fun _ => OutT.asks_ret _)
    · subst hq
      exact winDrv_reads k _ _ _ _ (index_plain k).2.2
  · exact OutT.asks_ret _

theorem winDetail_reads (conv : List (BitVec 16) → Bytes) (set i : Nat) (buf : Bytes) :
    OutT.Asks WinReadsOnly (winDetail conv set i buf) := by
  unfold winDetail
  dsimp only
  refine OutT.asks_bind (OutT.asks_ask trivial) (fun r => ?_)
  refine asks_ite ?_ (OutT.asks_ret _)
  refine asks_ite OutT.asks_panic ?_
  exact OutT.asks_bind (OutT.asks_ask trivial) (fun _ => OutT.asks_ret _)

theorem winEnumLoop_reads (w : WinRun) (b b' : Nat) (conv : List (BitVec 16) → Bytes) (set : Nat) : ∀ fuel i buf,
    OutT.Asks WinReadsOnly (winEnumLoop w (winOpeners b b') conv set fuel i buf) := by
  intro fuel
  induction fuel with
  | zero => intro i buf; exact OutT.asks_running
  | succ fuel ih =>
    intro i buf
    unfold winEnumLoop
    refine OutT.asks_bind (OutT.asks_ask trivial) (fun d => ?_)
    split
    · exact OutT.asks_ret _
    · refine OutT.asks_bind (OutT.asks_ask trivial) (fun f => ?_)
      split
      · exact asks_ite (ih _ _) (OutT.asks_ret _)
      · refine OutT.asks_bind (winDetail_reads ..) (fun x => ?_)
        split
        · exact ih _ _
        · refine OutT.asks_bind (winOpenByPath_reads w b b' _) (fun r => ?_)
          split
          · exact OutT.asks_panic
          · exact ih _ _
          · refine OutT.asks_bind (OutT.asks_defer (ih _ _) ?_) (fun _ => OutT.asks_ret _)
            exact OutT.asks_bind (winOpenedClose_reads w _) (fun _ => OutT.asks_ret _)

/-- C119: opening a drive on Windows — whichever drivers it has to try and however it ends — sends drives no request but
inquiries, property queries, and pass-through records that read: IDENTIFY / Identify, and the receiving half of the
security protocol for TCG discovery. -/
theorem win_open_reads_only (w : WinRun) (b b' : Nat) (path : Bytes) (env : Prog.Env WReq WRep)
    (hist : Prog.Trace WReq WRep) :
    ∀ x ∈ (OutT.run env hist (winOpenByPath w (winOpeners b b') path)).2, WinReadsOnly x.1 :=
  OutT.asks_run (winOpenByPath_reads w b b' path) env hist

theorem winEnumDrives_reads (w : WinRun) (b b' : Nat) (conv : List (BitVec 16) → Bytes) (fuel : Nat) :
    OutT.Asks WinReadsOnly (winEnumDrives w (winOpeners b b') conv fuel) := by
  unfold winEnumDrives
  refine OutT.asks_bind (OutT.asks_ask trivial) (fun c => ?_)
  split
  · exact OutT.asks_ret _
  · refine OutT.asks_bind (OutT.asks_defer (winEnumLoop_reads ..) ?_) (fun _ => OutT.asks_ret _)
    exact OutT.asks_bind (OutT.asks_ask trivial) (fun _ => OutT.asks_ret _)

/-- C119: neither does enumerating all drives, with the closing of their handles, -/
theorem win_enum_reads_only (w : WinRun) (b b' : Nat) (conv : List (BitVec 16) → Bytes) (fuel : Nat)
    (env : Prog.Env WReq WRep) (hist : Prog.Trace WReq WRep) :
    ∀ x ∈ (OutT.run env hist (winEnumDrives w (winOpeners b b') conv fuel)).2, WinReadsOnly x.1 :=
  OutT.asks_run (winEnumDrives_reads ..) env hist

theorem winNextVolume_reads (find : Nat) (loop : Wide → VolBufs → WinM (List WinVol)) (v : WinVol) (b : VolBufs)
    (hl : ∀ n b, OutT.Asks WinReadsOnly (loop n b)) : OutT.Asks WinReadsOnly (winNextVolume find loop v b) := by
  unfold winNextVolume
  refine OutT.asks_bind (OutT.asks_ask trivial) (fun n => ?_)
  split
  · exact OutT.asks_ret _
  · exact OutT.asks_bind (hl _ _) (fun _ => OutT.asks_ret _)

theorem winExtents_reads (h : Nat) (data : Bytes) (beyond : Nat → Byte) :
    OutT.Asks WinReadsOnly (winExtents h data beyond) := by
  unfold winExtents
  refine OutT.asks_bind (OutT.asks_ask (.inl (by decide))) (fun r => ?_)
  split
  · exact OutT.asks_ret _
  · refine OutT.asks_bind (OutT.asks_lift _) (fun es => ?_)
    split
    · exact OutT.asks_ret _
    · refine OutT.asks_bind ?_ (fun _ => OutT.asks_ret _)
      unfold winPartitionInfo
      refine OutT.asks_bind (OutT.asks_ask (.inl (by decide))) (fun r => ?_)
      split
      · exact OutT.asks_ret _
      · generalize zeros 144 = z
        exact asks_ite (OutT.asks_ret _) (asks_ite (OutT.asks_ret _) (OutT.asks_ret _))

theorem winVolumeHead_reads (conv : Wide → Bytes) (name fsBuf : Wide) :
    OutT.Asks WinReadsOnly (winVolumeHead conv name fsBuf) := by
  unfold winVolumeHead
  refine OutT.asks_bind ?_ (fun _ => OutT.asks_bind ?_ (fun _ => ?_))
  · unfold winMounts
    refine OutT.asks_bind (OutT.asks_ask trivial) (fun r => ?_)
    exact asks_ite (OutT.asks_bind (OutT.asks_lift _) (fun _ => OutT.asks_ret _)) (OutT.asks_ret _)
  · unfold winFilesystem
    exact OutT.asks_bind (OutT.asks_ask trivial) (fun r => OutT.asks_ret _)
  · exact OutT.asks_bind (OutT.asks_ask trivial) (fun _ => OutT.asks_bind (OutT.asks_ask trivial) (fun _ => OutT.asks_ret _))

theorem winVolumeLoop_reads (conv : Wide → Bytes) (beyond : Nat → Byte) (find : Nat) : ∀ fuel name b,
    OutT.Asks WinReadsOnly (winVolumeLoop conv beyond find fuel name b) := by
  intro fuel
  induction fuel with
  | zero => intro name b; exact OutT.asks_running
  | succ fuel ih =>
    intro name b
    unfold winVolumeLoop
    refine OutT.asks_bind (winVolumeHead_reads ..) (fun x => ?_)
    obtain ⟨item, fsBuf, r⟩ := x
    dsimp only
    split
    · exact winNextVolume_reads _ _ _ _ ih
    · refine OutT.asks_defer ?_ (OutT.asks_bind (OutT.asks_ask trivial) (fun _ => OutT.asks_ret _))
      exact OutT.asks_bind (winExtents_reads ..) (fun _ => winNextVolume_reads _ _ _ _ ih)

theorem winSearchVolumes_reads (conv : Wide → Bytes) (beyond : Nat → Byte) (fuel : Nat) :
    OutT.Asks WinReadsOnly (winSearchVolumes conv beyond fuel) := by
  unfold winSearchVolumes
  refine OutT.asks_bind (OutT.asks_ask trivial) (fun f => ?_)
  split
  · exact OutT.asks_ret _
  · refine OutT.asks_bind (OutT.asks_defer (winVolumeLoop_reads ..) ?_) (fun _ => OutT.asks_ret _)
    exact OutT.asks_bind (OutT.asks_ask trivial) (fun _ => OutT.asks_ret _)

/-- C119: nor enumerating volumes; every control request there is an inquiry, so nothing is passed through to a drive. (The
error mode of the process is changed, see C149.) -/
theorem win_volumes_read_only (conv : Wide → Bytes) (beyond : Nat → Byte) (fuel : Nat) (env : Prog.Env WReq WRep)
    (hist : Prog.Trace WReq WRep) :
    ∀ x ∈ (OutT.run env hist (winEnumVolumes conv beyond fuel)).2, WinReadsOnly x.1 ∨ ∃ m, x.1 = .setErrorMode m := by
  refine OutT.asks_run (A := fun q => WinReadsOnly q ∨ ∃ m, q = .setErrorMode m) ?_ env hist
  unfold winEnumVolumes
  refine OutT.asks_bind (OutT.asks_ask (.inr ⟨1, rfl⟩)) (fun m => ?_)
  exact OutT.asks_defer (OutT.asks_mono (fun _ h => .inl h) (winSearchVolumes_reads ..))
    (OutT.asks_bind (OutT.asks_ask (.inr ⟨m.n, rfl⟩)) (fun _ => OutT.asks_ret _))

/-! ### Samples -/

/-- The control codes of a run. -/
def codesOf (t : Prog.Trace WReq WRep) : List Nat :=
  t.filterMap (fun x => match x.1 with
    | .ioctl _ c _ _ _ => some c
    | _ => none)

/-- C119: the SCSI driver accepts the first drive after both NVMe drivers were tried, and discovery asks for the security
protocol; all of this reads. A record that sends (SECURITY PROTOCOL OUT) or another ATA command does not. -/
example : (match OutT.run sampleWindows (List.replicate 4 (.setupClass, {})) (winOpenByPath sampleRun (winOpeners 0 0) [0x41]) with
      | (.ret (.ok o), t) => (o.drv, codesOf t)
      | _ => (none, [])) =
    (some (.scsi 104), [0x2d1080, 0x700a0, 0x70050, 0x41018, 0x2d1400, 0x4d014, 0x4d014]) := by decide +kernel
example : ¬ WinReadsOnly (.ioctl 1 0x4d014 (scsiFields true (winSecCdb true 1 1 512) 512 3 (zeros 96)) 96 none) ∧
    ¬ WinReadsOnly (.ioctl 1 0x4d030 (ataFields false { command := 0x35 } 512 3 (zeros 48)) 48 none) ∧
    ¬ WinReadsOnly (.ioctl 1 0x4d008 (zeros 4248) 4248 none) ∧ ¬ WinReadsOnly (.ioctl 1 0x7c000 [] 0 none) := by
  have h1 : (scsiView ((scsiFields true (winSecCdb true 1 1 512) 512 3 (zeros 96)).take 96)).dataIn = 0 := by decide +kernel
  have h2 : (ataView ((ataFields false { command := 0x35 } 512 3 (zeros 48)).take 48)).current =
      [0, 0, 0, 0, 0, 0, 0x35, 0] := by decide +kernel
  have h3 : (miniportView (zeros 4248)).opcode = 0 := by decide +kernel
  refine ⟨?_, ?_, ?_, ?_⟩
  · rintro (h | ⟨h, -⟩ | ⟨h, -⟩ | ⟨-, h, -⟩ | ⟨h, -⟩)
    · exact absurd h (by decide)
    · exact absurd h (by decide)
    · exact absurd h (by decide)
    · rw [h1] at h; exact absurd h (by decide)
    · exact absurd h (by decide)
  · rintro (h | ⟨h, -⟩ | ⟨-, -, h⟩ | ⟨h, -⟩ | ⟨h, -⟩)
    · exact absurd h (by decide)
    · exact absurd h (by decide)
    · rw [h2] at h; rcases h with h | ⟨h, -⟩ <;> exact absurd h (by decide)
    · exact absurd h (by decide)
    · exact absurd h (by decide)
  · rintro (h | ⟨h, -⟩ | ⟨h, -⟩ | ⟨h, -⟩ | ⟨-, h⟩)
    · exact absurd h (by decide)
    · exact absurd h (by decide)
    · exact absurd h (by decide)
    · exact absurd h (by decide)
    · unfold MiniportReads at h
      rw [h3] at h; rcases h with h | ⟨h, -⟩ <;> exact absurd h (by decide)
  · rintro (h | ⟨h, -⟩ | ⟨h, -⟩ | ⟨h, -⟩ | ⟨h, -⟩) <;> exact absurd h (by decide)

end Dparm
