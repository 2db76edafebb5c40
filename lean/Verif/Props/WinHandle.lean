import Verif.Props.WinTcg
/-!
# Whole program on Windows: ATA commands and log pages on an opened drive
-/
namespace Dparm
open Spec

theorem winCall_run {α : Type} (p : WinM α) (env : Prog.Env WAReq WARep) (h : Prog.Trace WAReq WARep) :
    ∃ env' : Prog.Env WReq WRep, (OutT.run env h (OutT.interp winCall p)).1 = (OutT.run env' [] p).1 ∧
      SysCalls (OutT.run env' [] p).2 (OutT.run env h (OutT.interp winCall p)).2 := by
  obtain ⟨h1, h2⟩ := OutT.interp_chunks (A := fun _ => True) (B := fun _ _ => True) winCall env {} h
    (fun q _ h => ⟨_, by unfold winCall; rw [OutT.run_ask_bind]; rfl, trivial⟩) (p := p) (OutT.within_of_asks (OutT.asks_true p))
  refine ⟨_, h1, ?_⟩
  generalize (OutT.run _ [] p).2 = T at h2
  generalize (OutT.run env h (OutT.interp winCall p)).2 = t at h2
  clear h1
  unfold SysCalls
  induction h2 with
  | nil => rfl
  | @cons q r h c T t hc ht ih =>
    unfold winCall at hc
    rw [OutT.run_ask_bind] at hc
    simp only [OutT.run_ret, Prod.mk.injEq, Out.ret.injEq] at hc
    obtain ⟨rfl, rfl⟩ := hc
    rw [List.map_append, ih]
    rfl

/-- The driver call of a taskfile. -/
theorem task_on_windows (k : WinDrv) (hd : Nat) (op : PassOp) (tf : Tf)
    (hk : k = .ata hd ∧ op = .ataTask tf ∨ k = .scsi hd ∧ op = .scsiTask tf) (rw : Bool) (data : Bytes)
    (addr base to : Nat) (hne : data ≠ []) (env : Prog.Env WReq WRep) (hist : Prog.Trace WReq WRep) :
    ∃ e d' u, OutT.run env hist (op.prog hd rw data addr base to) = (.ret (e, d'), u) ∧ AtaOnWindows k rw tf data to u e d' := by
  rcases hrun : OutT.run env hist (op.prog hd rw data addr base to) with ⟨x, u⟩
  have hreq := (win_requests op hd rw data addr base to env hist).2 hne
  rw [hrun] at hreq
  have hcount : (∃ x, u = [x] ∧ x.2.err = none) ∨ (∃ x y, u = [x, y] ∧ x.2.err ≠ none) := by
    obtain ⟨p, a, c, r, -, -, -, h⟩ := hreq
    rcases h with ⟨he, h⟩ | ⟨he, b, r2, -, h⟩
    · exact .inl ⟨_, h, he⟩
    · exact .inr ⟨_, _, h, he⟩
  have hw : rw = true → ((∃ e, x = .ret (e, zeros data.length)) ∧ ∀ y ∈ u, payload y.1 = some (zeros data.length)) := by
    rintro rfl
    have := win_writes_are_zeros op hd data addr base to hne env hist
    rw [hrun] at this
    exact ⟨this.1, this.2.2⟩
  have hr : rw = false → ∃ e d', x = .ret (e, d') ∧ d'.length = data.length ∧
      ∀ y, u = [y] → d' = receivedInto data y.2.mem ∨ d' = receivedInto (zeros data.length) y.2.mem := by
    rintro rfl
    obtain ⟨e, d', h1, h2, h3⟩ := win_reads op hd data addr base to hne env hist
    rw [hrun] at h1 h3
    refine ⟨e, d', h1, h2, fun y hy => ?_⟩
    rcases h3 with ⟨q, r, h3, -, -, h4⟩ | ⟨q, r, q2, r2, h3, -⟩
    · have h3' : u = [(q, r)] := h3
      rw [hy] at h3'
      injection h3' with h3'
      rw [h3', h4]
      split
      · exact .inl rfl
      · exact .inr rfl
    · have h3' : u = [(q, r), (q2, r2)] := h3
      rw [hy] at h3'
      simp at h3'
  have hx : ∃ e d', x = .ret (e, d') := by
    cases rw with
    | true => obtain ⟨⟨e, he⟩, -⟩ := hw rfl; exact ⟨e, _, he⟩
    | false => obtain ⟨e, d', he, -⟩ := hr rfl; exact ⟨e, d', he⟩
  obtain ⟨e, d', rfl⟩ := hx
  refine ⟨e, d', u, rfl, ⟨hcount, ?_, ?_, ?_, ?_⟩⟩
  · -- requests
    rcases hk with ⟨rfl, rfl⟩ | ⟨rfl, rfl⟩
    · obtain ⟨inb, a, c, r, rest, h1, h2, h3⟩ := win_ata_records hd rw tf data addr base to hne env hist
      have h1' : u = (.ioctl hd 0x4d030 inb 48 (some (a, c)), r) :: rest := by
        have := congrArg Prod.snd hrun
        exact this.symm.trans h1
      intro y hy
      rw [h1'] at hy
      rcases List.mem_cons.1 hy with rfl | hy
      · refine ⟨_, _, _, _, rfl, .inl rfl, ?_⟩
        have hv : ataView (inb.take 48) = ataView inb := by
          unfold ataView slice
          simp only [List.drop_take, List.take_take]
          rfl
        rw [hv, h2]
        exact ⟨rfl, rfl, rfl, rfl, fun h => if_neg h⟩
      · obtain ⟨inb2, n, hq, -, hv⟩ := h3 y hy
        refine ⟨_, _, _, _, hq, .inr rfl, ?_⟩
        rw [hv, h2]
        exact ⟨rfl, rfl, rfl, rfl, fun h => if_neg h⟩
    · obtain ⟨inb, a, c, r, rest, h1, h2, h3⟩ := win_scsi_records (.scsiTask tf) (fun _ => by simp) hd rw data addr base to hne env hist
      have h1' : u = (.ioctl hd 0x4d014 inb 96 (some (a, c)), r) :: rest := by
        have := congrArg Prod.snd hrun
        exact this.symm.trans h1
      have hcdb := win_task_cdb tf rw data.length
      intro y hy
      rw [h1'] at hy
      rcases List.mem_cons.1 hy with rfl | hy
      · refine ⟨_, _, _, _, rfl, .inl rfl, ?_⟩
        have hlen : (cdbOf (.scsiTask tf) rw data.length).length ≤ 16 := winTaskCdb_length tf
        have hn : leVal (slice inb 6 1) = (cdbOf (.scsiTask tf) rw data.length).length := congrArg ScsiView.cdbLength h2
        have hs : ∀ i n, i + n ≤ 96 → slice (inb.take 96) i n = slice inb i n := by
          intro i n hin
          unfold slice; rw [List.drop_take, List.take_take]
          congr 1; omega
        have hv : scsiView (inb.take 96) = scsiView inb := by
          unfold scsiView
          rw [hs 6 1 (by omega), hn]
          rw [hs, hs, hs, hs, hs, hs, hs, hs, hs, hs, hs] <;> omega
        rw [hv, h2]
        exact ⟨rfl, rfl, rfl, hcdb⟩
      · obtain ⟨inb2, n, hq, -, hv⟩ := h3 y hy
        refine ⟨_, _, _, _, hq, .inr rfl, ?_⟩
        rw [hv, h2]
        exact ⟨rfl, rfl, rfl, hcdb⟩
  · intro h
    obtain ⟨⟨e', he⟩, hp⟩ := hw h
    simp only [Out.ret.injEq, Prod.mk.injEq] at he
    exact ⟨he.2, hp⟩
  · intro h
    obtain ⟨e', d2, he, h1, h2⟩ := hr h
    simp only [Out.ret.injEq, Prod.mk.injEq] at he
    rw [he.2]
    exact ⟨h1, h2⟩
  · rcases hk with ⟨rfl, rfl⟩ | ⟨rfl, rfl⟩
    · obtain ⟨e2, d2, h1, h2⟩ := win_ata_result hd rw tf data addr base to hne env hist
      have g1 := (congrArg Prod.fst hrun).symm.trans h1
      simp only [Out.ret.injEq, Prod.mk.injEq] at g1
      obtain ⟨rfl, rfl⟩ := g1
      rcases h2 with ⟨inb, m, r, h3, -, h5⟩ | ⟨q, r, q2, r2, h3, -, h5⟩
      · have h3' := (congrArg Prod.snd hrun).symm.trans h3
        dsimp only at h3'
        rw [h3']
        exact h5
      · have h3' := (congrArg Prod.snd hrun).symm.trans h3
        dsimp only at h3'
        rw [h3']
        rcases h5 with ⟨h5, h6⟩ | ⟨e2, h5, h6⟩
        · exact ⟨fun _ => h6, fun h => absurd h5 h⟩
        · exact ⟨fun h => (by dsimp only at h; rw [h5] at h; cases h), fun _ => (by dsimp only; rw [h6, h5])⟩
    · obtain ⟨e2, d2, h1, h2⟩ := win_scsi_result (.scsiTask tf) (fun _ => by simp) hd rw data addr base to hne env hist
      have g1 := (congrArg Prod.fst hrun).symm.trans h1
      simp only [Out.ret.injEq, Prod.mk.injEq] at g1
      obtain ⟨rfl, rfl⟩ := g1
      rcases h2 with ⟨inb, m, r, h3, -, -, h5⟩ | ⟨q, r, inb, n, r2, h3, -, h5⟩
      · have h3' := (congrArg Prod.snd hrun).symm.trans h3
        dsimp only at h3'
        rw [h3']
        exact ⟨_, _, _, _, _, rfl, h5⟩
      · have h3' := (congrArg Prod.snd hrun).symm.trans h3
        dsimp only at h3'
        rw [h3']
        rcases h5 with ⟨h5, h6⟩ | ⟨e2, h5, h6⟩
        · exact ⟨fun _ => ⟨_, _, _, _, _, rfl, h6⟩, fun h => absurd h5 h⟩
        · exact ⟨fun h => (by dsimp only at h; rw [h5] at h; cases h), fun _ => (by dsimp only; rw [h6, h5])⟩

/-- **C138.** An ATA command (any taskfile, direction, DMA flag and timeout) through a drive the Windows factory opened. On
an NVMe drive and on a drive without driver: no request, the error "not supported in this driver", taskfile and buffer
untouched. On a drive of the ATA or the SCSI driver: a nil or empty buffer panics before any request; otherwise the taskfile
comes back as it was given — no registers of the drive reach the caller — and requests, error and data are as
`AtaOnWindows` says: at most two requests on the drive's handle with the taskfile's registers, all data written is zeros. -/
theorem win_ata_command (o : WinOpened) (rw dma : Bool) (tf : Tf) (data : Option Bytes) (to : Nat)
    (env : Prog.Env WAReq WARep) (h : Prog.Trace WAReq WARep) :
    ((∃ k, WinBound o k ∧ k.isAta = false) ∨ WinUnbound o →
      OutT.run env h (o.ataCommand rw dma tf data to) = (.ret (some .notSupportThisDriver, tf, data), [])) ∧
    (∀ k, WinBound o k → k.isAta = true →
      (data = none ∨ data = some [] → ∃ pl, OutT.run env h (o.ataCommand rw dma tf data to) = (.panic, [(.place, pl)])) ∧
      (∀ buf, data = some buf → buf ≠ [] → ∃ e after pl u t,
        OutT.run env h (o.ataCommand rw dma tf data to) = (.ret (e, tf, some after), (.place, pl) :: t) ∧ SysCalls u t ∧
        AtaOnWindows k rw tf buf to u e after)) := by
  constructor
  · intro hk
    have key : o.handle.dh = none ∨ (∃ d, o.handle.dh = some d ∧ d.ata = false) := by
      rcases hk with ⟨k, ⟨-, identity, hd⟩, hf⟩ | ⟨-, hd⟩
      · exact .inr ⟨_, hd, hf⟩
      · exact .inl hd
    have hret : ∀ {α : Type} (x : α) (p : Handle → DrvM α), p o.handle = OutT.ret x → o.method p = OutT.ret x := by
      intro α x p hp
      unfold WinOpened.method
      cases o.drv with
      | none => dsimp only; rw [hp]; rfl
      | some k => dsimp only; rw [hp]; rfl
    unfold WinOpened.ataCommand
    cases data with
    | none =>
      dsimp only
      rw [hret (some .notSupportThisDriver, tf) _ (by
        unfold Handle.ataDoTaskFileNil
        rcases key with hn | ⟨d, hd, hf⟩
        · rw [hn]
        · rw [hd]; dsimp only; rw [hf]; rfl)]
      rfl
    | some b =>
      dsimp only
      rw [hret (some .notSupportThisDriver, tf, b) _ (by
        unfold Handle.ataDoTaskFileCmd
        rcases key with hn | ⟨d, hd, hf⟩
        · rw [hn]
        · rw [hd]; dsimp only; rw [hf]; rfl)]
      rfl
  · intro k hb hk
    obtain ⟨pl, hpl⟩ : ∃ pl, pl = env h .place := ⟨_, rfl⟩
    obtain ⟨hdrv, identity, hdh⟩ := hb
    have hcmd : ∀ b, o.ataCommand rw dma tf (some b) to = (winDrvPlaced k (.taskFile rw dma tf b to) >>= fun r =>
        (OutT.ret (r.err, r.tf, some (storeInto b r.data)) : WAM (Option GoErr × Tf × Option Bytes))) := by
      intro b
      unfold WinOpened.ataCommand WinOpened.method Handle.ataDoTaskFileCmd
      rw [hdrv]
      dsimp only
      rw [hdh]
      dsimp only
      rw [hk, if_pos rfl, interp_ask_then, OutT.bind_assoc']
      rfl
    have hnil : o.ataCommand rw dma tf none to = (winDrvPlaced k (.taskNil rw dma tf to) >>= fun r =>
        (OutT.ret (r.err, r.tf, none) : WAM (Option GoErr × Tf × Option Bytes))) := by
      unfold WinOpened.ataCommand WinOpened.method Handle.ataDoTaskFileNil
      rw [hdrv]
      dsimp only
      rw [hdh]
      dsimp only
      rw [hk, if_pos rfl, interp_ask_then, OutT.bind_assoc']
      rfl
    refine ⟨fun hn => ⟨pl, ?_⟩, fun buf hbuf hne => ?_⟩
    · have hpan : ∀ (q : DrvReq) (K : DrvRep → WAM (Option GoErr × Tf × Option Bytes)),
          winDrv k pl.addr pl.base pl.behind q = OutT.panic →
          OutT.run env h (winDrvPlaced k q >>= K) = (.panic, [(.place, pl)]) := by
        intro q K hq
        unfold winDrvPlaced
        rw [OutT.bind_assoc', OutT.run_ask_bind, ← hpl, hq]
        rfl
      have hempty : ∀ w : WinPass, w.run k.handle rw [] pl.addr pl.base = OutT.panic := by
        intro w; cases rw <;> rfl
      rcases hn with rfl | rfl
      · rw [hnil]
        refine hpan _ _ ?_
        cases k with
        | nvmeWin h sh => cases hk
        | windowsNvme h => cases hk
        | ata hd =>
          show (winAtaTask hd rw tf [] pl.addr pl.base to >>= _) = OutT.panic
          rw [show winAtaTask hd rw tf [] pl.addr pl.base to = OutT.panic from hempty (winAtaPass rw tf to)]
          rfl
        | scsi hd =>
          show (winScsiTask hd rw tf [] pl.addr pl.base to >>= _) = OutT.panic
          rw [show winScsiTask hd rw tf [] pl.addr pl.base to = OutT.panic from hempty (winScsiPass rw (fun _ => winTaskCdb tf) to)]
          rfl
      · rw [hcmd]
        refine hpan _ _ ?_
        cases k with
        | nvmeWin h sh => cases hk
        | windowsNvme h => cases hk
        | ata hd =>
          show (winAtaTask hd rw tf [] pl.addr pl.base to >>= _) = OutT.panic
          rw [show winAtaTask hd rw tf [] pl.addr pl.base to = OutT.panic from hempty (winAtaPass rw tf to)]
          rfl
        | scsi hd =>
          show (winScsiTask hd rw tf [] pl.addr pl.base to >>= _) = OutT.panic
          rw [show winScsiTask hd rw tf [] pl.addr pl.base to = OutT.panic from hempty (winScsiPass rw (fun _ => winTaskCdb tf) to)]
          rfl
    · subst hbuf
      obtain ⟨op, hop⟩ : ∃ op, (k = .ata k.handle ∧ op = PassOp.ataTask tf) ∨ (k = .scsi k.handle ∧ op = .scsiTask tf) := by
        cases k with
        | nvmeWin h sh => cases hk
        | windowsNvme h => cases hk
        | ata hd => exact ⟨_, .inl ⟨rfl, rfl⟩⟩
        | scsi hd => exact ⟨_, .inr ⟨rfl, rfl⟩⟩
      have hprog : winDrv k pl.addr pl.base pl.behind (.taskFile rw dma tf buf to) = (do
          let x ← op.prog k.handle rw buf pl.addr pl.base to
          OutT.ret { err := x.1, data := x.2, behind := pl.behind, tf := tf } : WinM DrvRep) := by
        rcases hop with ⟨h1, h2⟩ | ⟨h1, h2⟩
        · rw [h2, h1]; rfl
        · rw [h2, h1]; rfl
      obtain ⟨env', g1, g2⟩ := winCall_run (winDrv k pl.addr pl.base pl.behind (.taskFile rw dma tf buf to)) env
        (h ++ [(.place, pl)])
      obtain ⟨e, d', u, hu, hspec⟩ := task_on_windows k k.handle op tf hop rw buf pl.addr pl.base to hne env' []
      have hl : d'.length = buf.length := by
        cases rw with
        | true => rw [(hspec.written rfl).1, zeros_length]
        | false => exact (hspec.read rfl).1
      have hrun : OutT.run env' [] (winDrv k pl.addr pl.base pl.behind (.taskFile rw dma tf buf to)) =
          (.ret { err := e, data := d', behind := pl.behind, tf := tf }, u) := by
        rw [hprog, OutT.run_bind_ret env' [] hu]
        simp [OutT.run_ret]
      rw [hrun] at g1 g2
      obtain ⟨t, ht⟩ : ∃ t, t = (OutT.run env (h ++ [(.place, pl)])
        (OutT.interp winCall (winDrv k pl.addr pl.base pl.behind (.taskFile rw dma tf buf to)))).2 := ⟨_, rfl⟩
      rw [← ht] at g2
      refine ⟨e, d', pl, u, t, ?_, g2, hspec⟩
      rw [hcmd]
      unfold winDrvPlaced
      rw [OutT.bind_assoc', OutT.run_ask_bind, ← hpl]
      have g3 : OutT.run env (h ++ [(.place, pl)])
          (OutT.interp winCall (winDrv k pl.addr pl.base pl.behind (.taskFile rw dma tf buf to))) =
          (.ret { err := e, data := d', behind := pl.behind, tf := tf }, t) := Prod.ext g1 ht.symm
      rw [OutT.run_bind_ret env _ g3]
      simp only [OutT.run_ret, storeInto_full _ _ hl, List.append_nil]

/-- **C139.** Reading a log page through a drive the Windows factory opened. On a drive of the ATA or SCSI driver and
without driver: no request, the error "not supported in this driver". Through the miniport driver: no request, the error "not
supported". Through the inbox NVMe driver, for every size up to 4 GiB: one property query on the drive's handle, for that log
and size, but neither for the namespace nor with the retain flag given; the bytes that come back are those after its 48-byte
header, unless Windows reports an error or the header is not as expected. -/
theorem win_log_page_command (o : WinOpened) (nsid logId : BitVec 32) (rae : Bool) (size : Nat)
    (env : Prog.Env WAReq WARep) (h : Prog.Trace WAReq WARep) :
    ((∃ k, WinBound o k ∧ k.isNvme = false) ∨ WinUnbound o →
      OutT.run env h (o.logPage nsid logId rae size) = (.ret (none, some .notSupportThisDriver), [])) ∧
    (∀ hd sh, WinBound o (.nvmeWin hd sh) → ∃ pl,
      OutT.run env h (o.logPage nsid logId rae size) = (.ret (some [], some (.msg "not supported")), [(.place, pl)])) ∧
    (∀ hd, WinBound o (.windowsNvme hd) → 48 + size < 2 ^ 32 → ∃ pl inb a, IsLogQuery logId size inb ∧
      OutT.run env h (o.logPage nsid logId rae size) =
        (.ret (match a.sys.err with
          | some e => (some [], some e)
          | none =>
            if (queryView (delivered inb a.sys.out)).propertyId = 48 ∧ (queryView (delivered inb a.sys.out)).queryType = 48 then
              (some (delivered (zeros size) (a.sys.out.drop 48)), none)
            else (some [], some (.msg "invalid response header"))),
          [(.place, pl), (.sys (.ioctl hd 0x2d1400 inb (48 + size) none), a)])) := by
  have hcmd : ∀ k identity, o.drv = some k → o.handle.dh = some { ata := k.isAta, nvme := k.isNvme, identity := identity } →
      k.isNvme = true → o.logPage nsid logId rae size = (winDrvPlaced k (.logPage nsid logId rae size) >>= fun r =>
        (OutT.ret (some r.data, r.err) : WAM (Option Bytes × Option GoErr))) := by
    intro k identity h1 h2 h3
    unfold WinOpened.logPage WinOpened.method Handle.nvmeGetLogPage
    rw [h1]
    dsimp only
    rw [h2]
    dsimp only
    rw [h3, if_pos rfl, interp_ask_then]
    rfl
  refine ⟨fun hk => ?_, fun hd sh hb => ?_, fun hd hb hs => ?_⟩
  · have key : o.handle.dh = none ∨ (∃ d, o.handle.dh = some d ∧ d.nvme = false) := by
      rcases hk with ⟨k, ⟨-, identity, hd⟩, hf⟩ | ⟨-, hd⟩
      · exact .inr ⟨_, hd, hf⟩
      · exact .inl hd
    have hp : o.handle.nvmeGetLogPage nsid logId rae size = OutT.ret (none, some .notSupportThisDriver) := by
      unfold Handle.nvmeGetLogPage
      rcases key with hn | ⟨d, hd, hf⟩
      · rw [hn]
      · rw [hd]; dsimp only; rw [hf]; rfl
    unfold WinOpened.logPage WinOpened.method
    cases o.drv with
    | none => dsimp only; rw [hp]; rfl
    | some k => dsimp only; rw [hp]; rfl
  · obtain ⟨h1, identity, h2⟩ := hb
    refine ⟨env h .place, ?_⟩
    rw [hcmd _ identity h1 h2 rfl]
    rfl
  · obtain ⟨h1, identity, h2⟩ := hb
    obtain ⟨pl, hpl⟩ : ∃ pl, pl = env h .place := ⟨_, rfl⟩
    rw [hcmd _ identity h1 h2 rfl]
    obtain ⟨env', g1, g2⟩ := winCall_run (windowsLogPage hd nsid logId rae size) env (h ++ [(.place, pl)])
    obtain ⟨inb, r, hv, hr⟩ := windows_log_page hd nsid logId rae size hs env' []
    obtain ⟨w, hw⟩ : ∃ w, w = windowsLogPage hd nsid logId rae size := ⟨_, rfl⟩
    rw [← hw] at g1 g2 hr
    rw [hr] at g1 g2
    unfold SysCalls at g2
    rcases ht : (OutT.run env (h ++ [(.place, pl)]) (OutT.interp winCall w)).2 with _ | ⟨x, t⟩
    · rw [ht] at g2; simp at g2
    · rw [ht] at g2
      simp only [List.map_cons, List.map_nil, List.cons.injEq, List.map_eq_nil_iff, Prod.mk.injEq] at g2
      obtain ⟨⟨e1, e2⟩, rfl⟩ := g2
      refine ⟨pl, inb, x.2, hv, ?_⟩
      have g3 : OutT.run env (h ++ [(.place, pl)]) (OutT.interp winCall w) = (_, [(_, _)]) :=
        Prod.ext g1 (by rw [ht, show x = (.sys (.ioctl hd 0x2d1400 inb (48 + size) none), x.2) from Prod.ext e1 rfl])
      unfold winDrvPlaced
      rw [OutT.bind_assoc', OutT.run_ask_bind, ← hpl]
      have hd' : winDrv (.windowsNvme hd) pl.addr pl.base pl.behind (.logPage nsid logId rae size) = (do
          match ← w with
          | .panic => OutT.panic
          | .err e => OutT.ret { err := some e, behind := pl.behind }
          | .ok d => OutT.ret { data := d, behind := pl.behind } : WinM DrvRep) := by rw [hw]; rfl
      rw [hd', OutT.interp_bind, OutT.bind_assoc', OutT.run_bind_ret env _ g3, ← e2]
      obtain ⟨y, hy⟩ : ∃ y, y = x.2.sys := ⟨_, rfl⟩
      rw [← hy]
      cases y.err with
      | some e => rfl
      | none =>
        dsimp only
        by_cases hc : (queryView (delivered inb y.out)).propertyId = 48 ∧ (queryView (delivered inb y.out)).queryType = 48
        · rw [if_pos hc, if_pos hc]; rfl
        · rw [if_neg hc, if_neg hc]; rfl

/-! Cases that meet the hypotheses. -/

/-- a drive of the inbox NVMe driver -/
def exInboxDrive : WinOpened :=
  { drv := some (.windowsNvme 9), handle := { dh := some { ata := false, nvme := true, identity := [] } } }

example : WinBound exAtaDrive (.ata 7) ∧ (WinDrv.ata 7).isAta = true := ⟨⟨rfl, [], rfl⟩, rfl⟩
example : WinBound exInboxDrive (.windowsNvme 9) ∧ (WinDrv.windowsNvme 9).isAta = false ∧ 48 + 512 < 2 ^ 32 :=
  ⟨⟨rfl, [], rfl⟩, rfl, by decide⟩

/-- What the examples show of an outcome of an ATA command: count register of the taskfile and buffer. -/
def exAfter : Out (Option GoErr × Tf × Option Bytes) → List Bytes
  | .ret (none, tf, some b) => [[tf.hob.nsect], b]
  | _ => []

/-- IDENTIFY DEVICE with a 4-byte buffer: the registers given reach the drive, the bytes Windows stored come back, the
taskfile is unchanged. -/
example : (fun r : Out _ × _ => exAfter r.1 ++ r.2.flatMap (fun x : WAReq × WARep => exShow x.1))
    (OutT.run (fun _ _ => { sys := { out := zeros 46 ++ [0x50, 0], mem := [1, 2, 3, 4] } }) []
      (exAtaDrive.ataCommand false false { command := 0xec, hob := { nsect := 9 } } (some [7, 7, 7, 7]) 3)) =
    [[9], [1, 2, 3, 4], leBytes 4 0x4d030, [0, 0, 0, 0, 0, 0, 0xec, 0], [7, 7, 7, 7]] := by decide +kernel

end Dparm
