import Verif.Lemmas.HandleSystem
import Verif.Props.Nvme
import Verif.Props.TcgScsi
import Verif.Props.TcgSystem
/-!
# Properties: ATA and NVMe commands through an opened Linux drive (C132, C133)
-/
namespace Dparm
open Spec

/-- The driver call of a taskfile command with or without buffer. -/
def taskReq (rw dma : Bool) (tf : Tf) (to : Nat) : Option Bytes → DrvReq
  | some b => .taskFile rw dma tf b to
  | none => .taskNil rw dma tf to

theorem drvSg_ata (fd : Nat) (rw dma : Bool) (tf : Tf) (data : Option Bytes) (to : Nat) (hd : data ≠ some [])
    (hlen : (data.getD []).length < 4294967296) (env : Prog.Env LReq LRep) (h : Prog.Trace LReq LRep) :
    ∃ e tf' d' t behind, OutT.run env h (drvSg fd (taskReq rw dma tf to data)) =
        (.ret { drv := { err := e, data := d'.getD [], behind := behind, tf := tf' } }, t) ∧
      (d'.getD []).length = (data.getD []).length ∧ d'.isSome = data.isSome ∧ AtaOnScsi fd rw dma tf data to t e tf' d' := by
  obtain ⟨pl, hp⟩ : ∃ p, p = env h .place := ⟨_, rfl⟩
  obtain ⟨env', h1, h2⟩ := sgSys_run fd (sgDriver pl.addr pl.base pl.behind (taskReq rw dma tf to data)) env (h ++ [(.place, pl)])
  obtain ⟨t, ht⟩ : ∃ t, t = (OutT.run env (h ++ [(.place, pl)])
    (OutT.interp (sgSys fd) (sgDriver pl.addr pl.base pl.behind (taskReq rw dma tf to data)))).2 := ⟨_, rfl⟩
  rw [← ht] at h2
  have fin : ∀ rep, (OutT.run env' [] (sgDriver pl.addr pl.base pl.behind (taskReq rw dma tf to data))).1 = .ret rep →
      OutT.run env h (drvSg fd (taskReq rw dma tf to data)) = (.ret { drv := rep }, (.place, pl) :: t) := by
    intro rep hr
    exact run_place_bind env h (fun p' => OutT.interp (sgSys fd) (sgDriver p'.addr p'.base p'.behind (taskReq rw dma tf to data)))
      (fun r => ({ drv := r } : FRep)) pl hp rep t (Prod.ext (by rw [h1, hr]) ht.symm)
  obtain ⟨e, tf', d', T, hrun, hl, hio⟩ := sgTask_io fd rw dma tf data pl.addr pl.base to hd hlen env' [] pl
  have hf : OutT.run env' [] (sgDriver pl.addr pl.base pl.behind (taskReq rw dma tf to data)) =
      (.ret { err := e, data := d'.getD [], behind := pl.behind, tf := tf' }, T) ∧
      (d'.getD []).length = (data.getD []).length ∧ d'.isSome = data.isSome := by
    cases data with
    | none =>
      have hd' : d' = none := by
        obtain ⟨x, d1, q, r, hq, hr, hn, hs, g1, g2⟩ := sgTaskFile_run rw dma tf none pl.addr pl.base to env' [] (by simp)
        have := (hn rfl).2
        subst this
        cases he : r.err with
        | none => rw [g1 he] at hrun; simp only [Prod.mk.injEq, Out.ret.injEq] at hrun; exact hrun.1.2.2.symm
        | some e =>
          obtain ⟨q2, r2, hq2, hr2, k1, k2⟩ := g2 e he
          cases he2 : r2.err with
          | none => rw [k1 he2] at hrun; simp only [Prod.mk.injEq, Out.ret.injEq] at hrun; exact hrun.1.2.2.symm
          | some e2 => rw [k2 e2 he2] at hrun; simp only [Prod.mk.injEq, Out.ret.injEq] at hrun; exact hrun.1.2.2.symm
      subst hd'
      refine ⟨?_, rfl, rfl⟩
      unfold taskReq sgDriver
      dsimp only
      rw [OutT.run_bind_ret env' [] hrun]
      simp
    | some b =>
      obtain ⟨l1, l2⟩ := hl rfl
      refine ⟨?_, l1, l2⟩
      unfold taskReq sgDriver
      dsimp only
      rw [OutT.run_bind_ret env' [] hrun]
      simp
  rw [hf.1] at h2
  exact ⟨e, tf', d', _, pl.behind, fin _ (by rw [hf.1]), hf.2.1, hf.2.2, hio t h2⟩

theorem drvSg_ata_empty (fd : Nat) (rw dma : Bool) (tf : Tf) (to : Nat) (env : Prog.Env LReq LRep) (h : Prog.Trace LReq LRep) :
    ∃ pl, OutT.run env h (drvSg fd (.taskFile rw dma tf [] to)) = (.panic, [(.place, pl)]) := by
  obtain ⟨pl, hp⟩ : ∃ p, p = env h .place := ⟨_, rfl⟩
  refine ⟨pl, ?_⟩
  unfold drvSg
  rw [OutT.run_ask_bind, ← hp, OutT.run_bind]
  have hz : sgDriver pl.addr pl.base pl.behind (.taskFile rw dma tf [] to) = OutT.panic := by
    unfold sgDriver sgTaskFile
    cases rw <;> rfl
  rw [hz]
  rfl

theorem onLinux_ret {α : Type} (i fd : Nat) (x : α) : onLinux (onDriver i fd (OutT.ret x)) = (OutT.ret x : LM α) := rfl

/-- **C132.** An ATA command (any taskfile, direction, DMA flag and timeout) through a drive the Linux factory opened.
On an NVMe drive and on a drive without driver: no system call, the error "not supported in this driver", taskfile and
buffer untouched. On a SCSI generic drive: a buffer that is empty but not nil panics before any ioctl; otherwise one SG_IO
ioctl on the drive's descriptor carries exactly the taskfile's registers (with a second one, whose data address is the
number 128, if the first failed), and error, registers and data come back as `AtaOnScsi` says. -/
theorem ata_command (o : Opened) (rw dma : Bool) (tf : Tf) (data : Option Bytes) (to : Nat)
    (hlen : (data.getD []).length < 4294967296) (env : Prog.Env LReq LRep) (h : Prog.Trace LReq LRep) :
    ((∃ fd, NvmeDrive o fd) ∨ NoDriver o →
      OutT.run env h (o.ataCommand rw dma tf data to) = (.ret (some .notSupportThisDriver, tf, data), [])) ∧
    (∀ fd, ScsiDrive o fd →
      (data = some [] → ∃ pl, OutT.run env h (o.ataCommand rw dma tf data to) = (.panic, [(.place, pl)])) ∧
      (data ≠ some [] → ∃ e tf' after t, OutT.run env h (o.ataCommand rw dma tf data to) = (.ret (e, tf', after), t) ∧
        AtaOnScsi fd rw dma tf data to t e tf' after)) := by
  constructor
  · have key : o.handle.dh = none ∨ (∃ d, o.handle.dh = some d ∧ d.ata = false) →
        OutT.run env h (o.ataCommand rw dma tf data to) = (.ret (some .notSupportThisDriver, tf, data), []) := by
      intro hk
      have on : ∀ {α : Type} (x : α), onLinux (o.onHandle (OutT.ret x)) = (OutT.ret x : LM α) := by
        intro α x
        unfold Opened.onHandle
        cases o.source <;> rfl
      cases data with
      | none =>
        have : o.handle.ataDoTaskFileNil rw dma tf to = OutT.ret (some .notSupportThisDriver, tf) := by
          unfold Handle.ataDoTaskFileNil
          rcases hk with hk | ⟨d, hk, ha⟩
          · rw [hk]
          · rw [hk]; simp [ha]
        unfold Opened.ataCommand Opened.method
        dsimp only
        rw [this, on]
        rfl
      | some b =>
        have : o.handle.ataDoTaskFileCmd rw dma tf b to = OutT.ret (some .notSupportThisDriver, tf, b) := by
          unfold Handle.ataDoTaskFileCmd
          rcases hk with hk | ⟨d, hk, ha⟩
          · rw [hk]
          · rw [hk]; simp [ha]
        unfold Opened.ataCommand Opened.method
        dsimp only
        rw [this, on]
        rfl
    rintro (⟨fd, -, id, hd⟩ | ⟨-, hd⟩)
    · exact key (.inr ⟨_, hd, rfl⟩)
    · exact key (.inl hd)
  · rintro fd ⟨hs, id, hd⟩
    constructor
    · rintro rfl
      obtain ⟨pl, hp⟩ := drvSg_ata_empty fd rw dma tf to env h
      refine ⟨pl, ?_⟩
      unfold Opened.ataCommand Opened.method Opened.onHandle
      dsimp only
      unfold Handle.ataDoTaskFileCmd
      rw [hs, hd]
      dsimp only
      rw [if_pos rfl, onLinux_drvSg, OutT.run_bind, OutT.run_bind, hp]
    · intro hne
      obtain ⟨e, tf', d', t, bh, hrun, hl, hsome, hio⟩ := drvSg_ata fd rw dma tf data to hne hlen env h
      refine ⟨e, tf', d', t, ?_, hio⟩
      cases data with
      | none =>
        have : d' = none := by cases d' with
          | none => rfl
          | some x => cases hsome
        subst this
        unfold taskReq at hrun
        dsimp only at hrun
        unfold Opened.ataCommand Opened.method Opened.onHandle
        dsimp only
        unfold Handle.ataDoTaskFileNil
        rw [hs, hd]
        dsimp only
        rw [if_pos rfl, onLinux_drvSg, OutT.run_bind, OutT.run_bind_ret env h hrun]
        rw [onLinux_ret, OutT.run_ret]
        simp
      | some b =>
        obtain ⟨b', rfl⟩ : ∃ b', d' = some b' := by cases d' with
          | none => cases hsome
          | some x => exact ⟨x, rfl⟩
        unfold taskReq at hrun
        dsimp only [Option.getD_some] at hrun hl
        unfold Opened.ataCommand Opened.method Opened.onHandle
        dsimp only
        unfold Handle.ataDoTaskFileCmd
        rw [hs, hd]
        dsimp only
        rw [if_pos rfl, onLinux_drvSg, OutT.run_bind, OutT.run_bind_ret env h hrun]
        dsimp only
        rw [storeInto_full _ _ hl]
        rw [onLinux_ret, OutT.run_ret]
        simp

/-! ## C133 -/

theorem onLinux_drvNv {α : Type} (fd : Nat) (q : DrvReq) (k : DrvRep → DrvM α) :
    onLinux (onDriver 0 fd (OutT.ask q >>= k)) = (drvNv fd q >>= fun r => onLinux (onDriver 0 fd (k r.drv))) := rfl

/-- **C133.** Reading a log page through a drive the Linux factory opened. On a SCSI generic drive and without driver: no
system call, the error "not supported in this driver", no bytes. On an NVMe drive, for a log identifier of 8 bits and a
size from 4 bytes to 4 GiB: only Get Log Page admin ioctls on the drive's descriptor, all for that namespace, log, flag and
size and all into one buffer that starts zeroed; each but the last failed; there are at most `⌈size/4096⌉`, exactly that
many if none succeeds. The bytes returned are that buffer, and the error is the last attempt's (nil if that succeeded). -/
theorem log_page_command (o : Opened) (nsid logId : BitVec 32) (rae : Bool) (size : Nat) (env : Prog.Env LReq LRep)
    (h : Prog.Trace LReq LRep) :
    ((∃ fd, ScsiDrive o fd) ∨ NoDriver o →
      OutT.run env h (o.logPage nsid logId rae size) = (.ret (none, some .notSupportThisDriver), [])) ∧
    (∀ fd, NvmeDrive o fd → logId.toNat < 256 → 4 ≤ size → size < 4294967296 →
      ∃ pl t out e, OutT.run env h (o.logPage nsid logId rae size) = (.ret (some out, e), (.place, pl) :: t) ∧
        LogReads fd (IsGetLogPage nsid logId rae size) (zeros size) t out ∧ out.length = size ∧
        t ≠ [] ∧ (∀ x ∈ t.dropLast, nvmeVerdict x.2.nv ≠ none) ∧ t.length ≤ (size + 4095) / 4096 ∧
        ((∀ x ∈ t, nvmeVerdict x.2.nv ≠ none) → t.length = (size + 4095) / 4096) ∧
        (∀ x, t.getLast? = some x → e = nvmeVerdict x.2.nv)) := by
  constructor
  · have key : o.handle.dh = none ∨ (∃ d, o.handle.dh = some d ∧ d.nvme = false) →
        OutT.run env h (o.logPage nsid logId rae size) = (.ret (none, some .notSupportThisDriver), []) := by
      intro hk
      have on : ∀ {α : Type} (x : α), onLinux (o.onHandle (OutT.ret x)) = (OutT.ret x : LM α) := by
        intro α x
        unfold Opened.onHandle
        cases o.source <;> rfl
      have : o.handle.nvmeGetLogPage nsid logId rae size = OutT.ret (none, some .notSupportThisDriver) := by
        unfold Handle.nvmeGetLogPage
        rcases hk with hk | ⟨d, hk, ha⟩
        · rw [hk]
        · rw [hk]; simp [ha]
      unfold Opened.logPage Opened.method
      dsimp only
      rw [this, on]
      rfl
    rintro (⟨fd, -, id, hd⟩ | ⟨-, hd⟩)
    · exact key (.inr ⟨_, hd, rfl⟩)
    · exact key (.inl hd)
  · rintro fd ⟨hs, id, hd⟩ hl h4 hmax
    obtain ⟨pl, hp⟩ : ∃ p, p = env h .place := ⟨_, rfl⟩
    obtain ⟨t, out, e, k1, k2, k3, k4, k5, k6, k7, k8⟩ := logLoop_run fd (BitVec.ofNat 64 pl.addr) pl.behind nsid logId rae size
      hl h4 hmax env size 0 (zeros size) none (h ++ [(.place, pl)]) (by omega) (zeros_length _)
    refine ⟨pl, t, out, e, ?_, k2, k8, ?_, k3, by simpa using k4, by simpa using k5, k7⟩
    · unfold Opened.logPage Opened.method Opened.onHandle
      dsimp only
      unfold Handle.nvmeGetLogPage
      rw [hs, hd]
      dsimp only
      rw [if_pos rfl, onLinux_drvNv]
      have hdrv : OutT.run env h (drvNv fd (.logPage nsid logId rae size)) =
          (.ret { drv := { err := e, data := out, behind := pl.behind } }, (.place, pl) :: t) := by
        refine run_place_bind env h (fun p => OutT.interp (nvSys fd) (nvDriver (BitVec.ofNat 64 p.addr) p.behind (.logPage nsid logId rae size)))
          (fun r => ({ drv := r } : FRep)) pl hp _ t ?_
        have hsplit : OutT.interp (nvSys fd) (nvDriver (BitVec.ofNat 64 pl.addr) pl.behind (.logPage nsid logId rae size)) =
            (logLoop fd (BitVec.ofNat 64 pl.addr) pl.behind nsid logId rae size 0 (zeros size) none >>= fun x =>
              OutT.ret { err := x.2, data := x.1, behind := pl.behind }) := by
          unfold logLoop nvDriver nvmeLogPage
          dsimp only
          rw [if_neg (by omega), OutT.interp_bind]
          rfl
        rw [hsplit, OutT.run_bind_ret env _ k1]
        simp
      rw [OutT.run_bind_ret env h hdrv, onLinux_ret, OutT.run_ret]
      simp
    · intro ht
      have := k5 (fun x hx => by rw [ht] at hx; cases hx)
      rw [ht] at this
      simp at this
      omega

/-! ## Concrete cases -/

/-- SMART ENABLE OPERATIONS (no data) on a drive that reports nothing: one ioctl, no error. -/
example : ScsiDrive sampleScsiOpened 9 ∧
    (OutT.run (fun _ _ => {}) [] (sampleScsiOpened.ataCommand false false (smartTf 0xd8) none 5)).2.length = 2 := by
  refine ⟨⟨rfl, [], rfl⟩, ?_⟩
  decide +kernel

/-- A two-byte read whose ioctl delivers `5, 6` and then one more byte. -/
example : (match (OutT.run (fun _ _ => { sg := { data := [5, 6, 7] } }) []
      (sampleScsiOpened.ataCommand false false (smartTf 0xd0) (some [1, 2]) 5)).1 with
    | .ret (e, _, b) => e == none && b == some [5, 6]
    | _ => false) = true := by
  decide +kernel

/-- A log page of 512 bytes of the SMART log. -/
example : NvmeDrive sampleNvmeOpened 9 ∧ (2#32).toNat < 256 ∧ 4 ≤ 512 ∧ 512 < 4294967296 :=
  ⟨⟨rfl, [], rfl⟩, by decide, by decide, by decide⟩

end Dparm
