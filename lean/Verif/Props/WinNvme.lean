import Verif.Lemmas.WinNvme
import Verif.Props.Win
import Verif.Props.Nvme
/-!
# The Windows NVMe drivers (C99 to C102)
-/
namespace Dparm
open Spec

/-! ### Admin commands through the miniport -/

theorem miniportData_eq (c : NvmeCmd) (mem : Nat → Byte) : miniportData c mem = referredTo c mem := by
  unfold miniportData referredTo
  by_cases h : c.dataAddr = 0#64
  · rw [if_neg (by simpa using h)]; exact (if_pos h).symm
  · rw [if_pos h]; exact (if_neg h).symm

theorem miniportView_data (p : Bytes) : (miniportView p).data = slice p 152 4096 := rfl

theorem slice_take_le (p : Bytes) (i n m : Nat) (h : n ≤ m) : (slice p i m).take n = slice p i n := by
  unfold slice
  rw [List.take_take]
  congr 1; omega

/-- C99: an admin command through the miniport. More than 4096 bytes are refused without a request. Otherwise there is one
request, whose record carries opcode, namespace and dwords 10 to 15, up to 4096 bytes of the caller's memory, and —
whatever the opcode — the direction device to host and a timeout of 40 s; flags, dwords 2 and 3, the metadata and the
timeout of the command are dropped. If Windows reports an error it is returned and the memory is unchanged; otherwise the
result is success and the memory receives `DataLen` bytes of the record's data area. -/
theorem win_miniport_admin (h : Nat) (c : NvmeCmd) (mem : Nat → Byte) (env : Prog.Env WReq WRep)
    (hist : Prog.Trace WReq WRep) :
    (c.dataLen.toNat > 4096 → OutT.run env hist (miniportAdmin h c mem) =
      (.ret (some (.msg "too long data"), referredTo c mem), [])) ∧
    (c.dataLen.toNat ≤ 4096 → ∃ inb r, (OutT.run env hist (miniportAdmin h c mem)).2 =
        [(.ioctl h 0x4d008 inb 4248 none, r)] ∧ inb.length = 4248 ∧
      miniportView inb = miniportOf c.opcode c.nsid.toNat c.cdw10.toNat c.cdw11.toNat c.cdw12.toNat c.cdw13.toNat
        c.cdw14.toNat c.cdw15.toNat (delivered (zeros 4096) (referredTo c mem)) ∧
      (∀ e, r.err = some e → (OutT.run env hist (miniportAdmin h c mem)).1 = .ret (some e, referredTo c mem)) ∧
      (r.err = none → (OutT.run env hist (miniportAdmin h c mem)).1 =
        .ret (none, delivered (referredTo c mem) ((miniportView (delivered inb r.out)).data.take c.dataLen.toNat)))) := by
  unfold miniportAdmin
  rw [miniportData_eq]
  dsimp only
  refine ⟨fun hl => ?_, fun hl => ?_⟩
  · rw [if_pos hl]; rfl
  · rw [if_neg (by omega)]
    obtain ⟨hlen, hview⟩ := miniportRecord_view c (referredTo c mem)
    rw [OutT.run_ask_bind]
    obtain ⟨r, hr⟩ : ∃ r, r = env hist (.ioctl h 0x4d008 (miniportRecord c (referredTo c mem)) miniportSize none) :=
      ⟨_, rfl⟩
    rw [← hr]
    refine ⟨miniportRecord c (referredTo c mem), r, ?_, hlen, hview, ?_, ?_⟩
    · cases r.err <;> rfl
    · intro e he
      simp only [he, OutT.run_ret]
    · intro he
      simp only [he, OutT.run_ret, storeInto_delivered]
      rw [miniportView_data, slice_take_le _ _ _ _ hl]

/-- C99: what the drive answered to the command is not looked at: two replies without Windows error that differ only before
the data area — in particular in the return code and in the completion entry with its status — give the same result. -/
theorem win_miniport_status_unseen (h : Nat) (c : NvmeCmd) (mem : Nat → Byte) (env env' : Prog.Env WReq WRep)
    (hist hist' : Prog.Trace WReq WRep)
    (h1 : ∀ q, (env hist q).err = none) (h2 : ∀ q, (env' hist' q).err = none)
    (h3 : ∀ q p, p.length = 4248 →
      (miniportView (delivered p (env hist q).out)).data = (miniportView (delivered p (env' hist' q).out)).data) :
    (OutT.run env hist (miniportAdmin h c mem)).1 = (OutT.run env' hist' (miniportAdmin h c mem)).1 := by
  obtain ⟨a1, a2⟩ := win_miniport_admin h c mem env hist
  obtain ⟨b1, b2⟩ := win_miniport_admin h c mem env' hist'
  by_cases hl : c.dataLen.toNat ≤ 4096
  · have hlen := (miniportRecord_view c (miniportData c mem)).1
    unfold miniportAdmin
    dsimp only
    rw [if_neg (by omega)]
    obtain ⟨p, hp⟩ : ∃ p, p = miniportRecord c (miniportData c mem) := ⟨_, rfl⟩
    rw [← hp] at hlen ⊢
    rw [OutT.run_ask_bind, OutT.run_ask_bind]
    simp only [h1, h2, OutT.run_ret, storeInto_delivered]
    have hx := congrArg (List.take c.dataLen.toNat) (h3 (.ioctl h 0x4d008 p miniportSize none) p hlen)
    rw [miniportView_data, miniportView_data, slice_take_le _ _ _ _ hl, slice_take_le _ _ _ _ hl] at hx
    rw [hx]
  · rw [a1 (by omega), b1 (by omega)]

/-! ### Opening through the miniport -/

theorem scsiPath_clean (n : Nat) : (ascii "\\\\.\\SCSI" ++ digits n ++ ascii ":").contains 0#8 = false := by
  have hd := digits_decimal n
  rw [Bool.eq_false_iff]
  intro hc
  rw [List.contains_iff_mem] at hc
  simp only [List.mem_append] at hc
  rcases hc with (hc | hc) | hc
  · exact absurd hc (by decide)
  · have := hd.digits _ hc
    unfold Digit at this
    simp at this
  · exact absurd hc (by decide)

/-- C100: how the miniport driver opens a drive: it asks the handle for its SCSI address, opens the port of that number by
the name `\\.\SCSI<port>:`, and sends that an Identify Controller command. It accepts exactly if all three succeed, with
the 4096 bytes of the answer's data area as identity, whatever status the answer carries; the port is closed again exactly
if the last step fails. -/
theorem nvmeWin_open (h : Nat) (env : Prog.Env WReq WRep) (hist : Prog.Trace WReq WRep) :
    ∃ r, (∃ e, r.err = some e ∧ OutT.run env hist (nvmeWinOpen h) =
        (.ret (.err e), [(.ioctl h 0x41018 (zeros 8) 8 none, r)])) ∨
      (r.err = none ∧ ∃ text r2, DecimalOf ((delivered (zeros 8) r.out).getD 4 0).toNat text ∧
        ((∃ e, r2.err = some e ∧ OutT.run env hist (nvmeWinOpen h) =
            (.ret (.err e), [(.ioctl h 0x41018 (zeros 8) 8 none, r),
              (.openDevice (ascii "\\\\.\\SCSI" ++ text ++ ascii ":"), r2)])) ∨
         (r2.err = none ∧ ∃ inb r3, inb.length = 4248 ∧ miniportView inb = miniportOf 6 0 1 0 0 0 0 0 (zeros 4096) ∧
          ((r3.err = none ∧ OutT.run env hist (nvmeWinOpen h) =
              (.ret (.ok (r2.handle, (miniportView (delivered inb r3.out)).data)),
                [(.ioctl h 0x41018 (zeros 8) 8 none, r), (.openDevice (ascii "\\\\.\\SCSI" ++ text ++ ascii ":"), r2),
                 (.ioctl r2.handle 0x4d008 inb 4248 none, r3)])) ∨
           (∃ e r4, r3.err = some e ∧ OutT.run env hist (nvmeWinOpen h) =
              (.ret (.err e),
                [(.ioctl h 0x41018 (zeros 8) 8 none, r), (.openDevice (ascii "\\\\.\\SCSI" ++ text ++ ascii ":"), r2),
                 (.ioctl r2.handle 0x4d008 inb 4248 none, r3), (.closeHandle r2.handle, r4)])))))) := by
  obtain ⟨r, hr⟩ : ∃ r, r = env hist (.ioctl h 0x41018 (zeros 8) 8 none) := ⟨_, rfl⟩
  refine ⟨r, ?_⟩
  unfold nvmeWinOpen
  cases he : r.err with
  | some e =>
    refine .inl ⟨e, rfl, ?_⟩
    have h1 : OutT.run env hist (winScsiPath h) = (.ret (.err e), [(.ioctl h 0x41018 (zeros 8) 8 none, r)]) := by
      unfold winScsiPath
      rw [OutT.run_ask_bind, ← hr]
      simp only [he, OutT.run_ret]
    rw [OutT.run_bind_ret env hist h1]
    simp only [OutT.run_ret, List.append_nil]
  | none =>
    obtain ⟨text, htx⟩ : ∃ text, text = digits ((delivered (zeros 8) r.out).getD 4 0#8).toNat := ⟨_, rfl⟩
    have h1 : OutT.run env hist (winScsiPath h) =
        (.ret (.ok (ascii "\\\\.\\SCSI" ++ text ++ ascii ":")), [(.ioctl h 0x41018 (zeros 8) 8 none, r)]) := by
      unfold winScsiPath
      rw [OutT.run_ask_bind, ← hr]
      simp only [he, OutT.run_ret, storeInto_delivered, htx]
    have hclean : (ascii "\\\\.\\SCSI" ++ text ++ ascii ":").contains 0#8 = false := by rw [htx]; exact scsiPath_clean _
    have hdec : DecimalOf ((delivered (zeros 8) r.out).getD 4 0).toNat text := by rw [htx]; exact digits_decimal _
    obtain ⟨path, hpath⟩ : ∃ path, path = ascii "\\\\.\\SCSI" ++ text ++ ascii ":" := ⟨_, rfl⟩
    rw [← hpath] at h1 hclean
    obtain ⟨r2, hr2⟩ : ∃ r2, r2 = env (hist ++ [(.ioctl h 0x41018 (zeros 8) 8 none, r)]) (.openDevice path) := ⟨_, rfl⟩
    refine .inr ⟨rfl, text, r2, hdec, ?_⟩
    rw [← hpath, OutT.run_bind_ret env hist h1]
    dsimp only
    cases he2 : r2.err with
    | some e =>
      refine .inl ⟨e, rfl, ?_⟩
      have h2 : OutT.run env (hist ++ [(.ioctl h 0x41018 (zeros 8) 8 none, r)]) (winOpenDevice path) =
          (.ret (.err e), [(.openDevice path, r2)]) := by
        unfold winOpenDevice
        rw [hclean, if_neg (by simp), OutT.run_ask_bind, ← hr2]
        simp only [he2, OutT.run_ret]
      rw [OutT.run_bind_ret env _ h2]
      simp only [OutT.run_ret, List.append_nil, List.cons_append, List.nil_append]
    | none =>
      have h2 : OutT.run env (hist ++ [(.ioctl h 0x41018 (zeros 8) 8 none, r)]) (winOpenDevice path) =
          (.ret (.ok r2.handle), [(.openDevice path, r2)]) := by
        unfold winOpenDevice
        rw [hclean, if_neg (by simp), OutT.run_ask_bind, ← hr2]
        simp only [he2, OutT.run_ret]
      rw [OutT.run_bind_ret env _ h2]
      dsimp only
      obtain ⟨inb, hinb⟩ : ∃ inb, inb = copyAt (copyAt miniportHeader 52 [6#8]) 92 (leBytes 4 1) := ⟨_, rfl⟩
      obtain ⟨hlen, hview⟩ := miniportIdent_view
      rw [← hinb] at hlen hview
      obtain ⟨H, hH⟩ : ∃ H, H = hist ++ [(WReq.ioctl h 0x41018 (zeros 8) 8 none, r)] ++ [(WReq.openDevice path, r2)] :=
        ⟨_, rfl⟩
      obtain ⟨r3, hr3⟩ : ∃ r3, r3 = env H (.ioctl r2.handle 0x4d008 inb miniportSize none) := ⟨_, rfl⟩
      refine .inr ⟨rfl, inb, r3, hlen, hview, ?_⟩
      rw [← hH]
      cases he3 : r3.err with
      | none =>
        refine .inl ⟨rfl, ?_⟩
        have h3 : OutT.run env H (winMiniportIdentity r2.handle) =
            (.ret (.ok (slice (delivered inb r3.out) 152 4096)), [(.ioctl r2.handle 0x4d008 inb miniportSize none, r3)]) := by
          unfold winMiniportIdentity
          dsimp only
          rw [← hinb, OutT.run_ask_bind, ← hr3]
          simp only [he3, OutT.run_ret, storeInto_delivered]
        have hl : (slice (delivered inb r3.out) 152 4096).length = 4096 := by
          rw [slice_length _ _ _ (by rw [delivered_length, hlen]; decide)]
        rw [OutT.run_bind_ret env _ h3]
        dsimp only
        rw [if_neg (by rw [hl]; simp)]
        simp only [OutT.run_ret, List.append_nil, List.cons_append, List.nil_append]
        rfl
      | some e =>
        have h3 : OutT.run env H (winMiniportIdentity r2.handle) =
            (.ret (.err e), [(.ioctl r2.handle 0x4d008 inb miniportSize none, r3)]) := by
          unfold winMiniportIdentity
          dsimp only
          rw [← hinb, OutT.run_ask_bind, ← hr3]
          simp only [he3, OutT.run_ret]
        refine .inr ⟨e, env (H ++ [(.ioctl r2.handle 0x4d008 inb miniportSize none, r3)]) (.closeHandle r2.handle), rfl, ?_⟩
        rw [OutT.run_bind_ret env _ h3]
        dsimp only
        rw [OutT.run_ask_bind]
        simp only [OutT.run_ret, List.cons_append, List.nil_append]

/-- C100: handles of the miniport driver. A failed open closes every handle it opened. A successful one has opened exactly
one further handle, and closing the drive closes only the handle the drive was opened by: the other one is never closed. -/
theorem nvmeWin_handle_leak (h : Nat) (env : Prog.Env WReq WRep) (hist : Prog.Trace WReq WRep) :
    (∀ e t, OutT.run env hist (nvmeWinOpen h) = (.ret (.err e), t) → handlesOpened t = handlesClosed t) ∧
    (∀ sh id t, OutT.run env hist (nvmeWinOpen h) = (.ret (.ok (sh, id)), t) →
      handlesOpened t = [sh] ∧ handlesClosed t = [] ∧
      ∀ addr base behind hist', handlesClosed (OutT.run env hist' (winDrv (.nvmeWin h sh) addr base behind .close)).2 = [h]) := by
  obtain ⟨r, hc⟩ := nvmeWin_open h env hist
  rcases hc with ⟨e, -, hrun⟩ | ⟨-, text, r2, -, ⟨e, he2, hrun⟩ | ⟨he2, inb, r3, -, -, ⟨-, hrun⟩ | ⟨e, r4, -, hrun⟩⟩⟩
  · rw [hrun]
    refine ⟨?_, ?_⟩
    · rintro e' t heq
      simp only [Prod.mk.injEq] at heq
      rw [← heq.2]
      rfl
    · rintro sh id t heq
      simp at heq
  · rw [hrun]
    refine ⟨?_, ?_⟩
    · rintro e' t heq
      simp only [Prod.mk.injEq] at heq
      rw [← heq.2]
      simp [handlesOpened, handlesClosed, he2]
    · rintro sh id t heq
      simp at heq
  · rw [hrun]
    refine ⟨?_, ?_⟩
    · rintro e' t heq
      simp at heq
    · rintro sh id t heq
      simp only [Prod.mk.injEq, Out.ret.injEq, Res.ok.injEq] at heq
      obtain ⟨⟨rfl, -⟩, rfl⟩ := heq
      refine ⟨by simp [handlesOpened, he2], by simp [handlesClosed], ?_⟩
      intro addr base behind hist'
      rfl
  · rw [hrun]
    refine ⟨?_, ?_⟩
    · rintro e' t heq
      simp only [Prod.mk.injEq] at heq
      rw [← heq.2]
      simp [handlesOpened, handlesClosed, he2]
    · rintro sh id t heq
      simp at heq

/-! ### The inbox driver -/

/-- C101: the inbox driver accepts exactly if Windows answers its query for the Identify Controller data; the identity is
4096 bytes, the answer over zeros. -/
theorem windowsNvme_open (h : Nat) (env : Prog.Env WReq WRep) (hist : Prog.Trace WReq WRep) :
    ∃ inb r, queryView inb =
        { propertyId := 49, queryType := 0, protocolType := 3, dataType := 1, requestValue := 1, requestSubValue := 0,
          dataOffset := 40, dataLength := 4096, fixedReturn := 0, subValues := zeros 12, data := zeros 4096 } ∧
      OutT.run env hist (windowsNvmeOpen h) =
        (.ret (match r.err with
          | some e => .err e
          | none => .ok (delivered (zeros 4096) (r.out.drop 48))), [(.ioctl h 0x2d1400 inb 4144 none, r)]) := by
  obtain ⟨hlen, hview⟩ := storageQuery_view 4096 49 1 1 (by decide) (by decide) (by decide)
  obtain ⟨p, hp⟩ : ∃ p, p = storageQuery 4096 49 1 1 := ⟨_, rfl⟩
  rw [← hp] at hlen hview
  obtain ⟨r, hr⟩ : ∃ r, r = env hist (.ioctl h 0x2d1400 p p.length none) := ⟨_, rfl⟩
  refine ⟨p, r, hview, ?_⟩
  unfold windowsNvmeOpen
  dsimp only
  rw [← hp, OutT.run_ask_bind, ← hr, hlen]
  cases he : r.err with
  | some e => simp only [OutT.run_ret]
  | none =>
    have hd : p.drop 48 = zeros 4096 := congrArg QueryView.data hview
    have hcut : (delivered p r.out).drop 48 = delivered (zeros 4096) (r.out.drop 48) := by
      have h48 : (p.take 48).length = 48 := by rw [List.length_take, hlen]; rfl
      have hsplit : p = p.take 48 ++ zeros 4096 := by rw [← hd, List.take_append_drop]
      have := delivered_append_drop (p.take 48) (zeros 4096) r.out
      rw [← hsplit, h48] at this
      exact this
    simp only [storeInto_delivered]
    rw [hcut, if_neg (by rw [delivered_length, zeros_length]; simp)]
    simp only [OutT.run_ret]

/-- C101: a log page through the inbox driver, for every size below 4 GiB: one query, naming the log page and the size but
neither the namespace nor the retain flag the caller gave. The result is an error if Windows reports one or if the first two numbers of the
answer are not both 48; otherwise the bytes after the 48 byte header, over zeros. -/
theorem windows_log_page (h : Nat) (nsid logId : BitVec 32) (rae : Bool) (n : Nat) (hn : 48 + n < 2 ^ 32)
    (env : Prog.Env WReq WRep) (hist : Prog.Trace WReq WRep) :
    ∃ inb r, queryView inb =
        { propertyId := 50, queryType := 0, protocolType := 3, dataType := 2, requestValue := logId.toNat,
          requestSubValue := 0, dataOffset := 40, dataLength := n, fixedReturn := 0, subValues := zeros 12,
          data := zeros n } ∧
      OutT.run env hist (windowsLogPage h nsid logId rae n) =
        (.ret (match r.err with
          | some e => .err e
          | none =>
            if (queryView (delivered inb r.out)).propertyId = 48 ∧ (queryView (delivered inb r.out)).queryType = 48 then
              .ok (delivered (zeros n) (r.out.drop 48))
            else .err (.msg "invalid response header")), [(.ioctl h 0x2d1400 inb (48 + n) none, r)]) := by
  obtain ⟨hlen, hview⟩ := storageQuery_view n 50 2 logId.toNat (by decide) (by decide) (BitVec.isLt _)
  obtain ⟨p, hp⟩ : ∃ p, p = storageQuery n 50 2 logId.toNat := ⟨_, rfl⟩
  rw [← hp] at hlen hview
  obtain ⟨r, hr⟩ : ∃ r, r = env hist (.ioctl h 0x2d1400 p (48 + n) none) := ⟨_, rfl⟩
  have hmod : n % 2 ^ 32 = n := Nat.mod_eq_of_lt (by omega)
  rw [hmod] at hview
  refine ⟨p, r, hview, ?_⟩
  unfold windowsLogPage
  rw [if_neg (by omega)]
  dsimp only
  rw [show ((n : Int)).toNat = n from rfl, ← hp, hlen, Nat.mod_eq_of_lt hn, List.take_of_length_le (by omega),
    OutT.run_ask_bind, ← hr]
  cases he : r.err with
  | some e => simp only [OutT.run_ret]
  | none =>
    have hd : p.drop 48 = zeros n := congrArg QueryView.data hview
    have htake : delivered p (r.out.take (48 + n)) = delivered p r.out := by
      unfold delivered
      rw [hlen, List.take_take, Nat.min_self]
    have hcut : (delivered p r.out).drop 48 = delivered (zeros n) (r.out.drop 48) := by
      have h48 : (p.take 48).length = 48 := by rw [List.length_take, hlen]; omega
      have hsplit : p = p.take 48 ++ zeros n := by rw [← hd, List.take_append_drop]
      have := delivered_append_drop (p.take 48) (zeros n) r.out
      rw [← hsplit, h48] at this
      exact this
    simp only [storeInto_delivered, htake, hcut]
    by_cases hh : (queryView (delivered p r.out)).propertyId = 48 ∧ (queryView (delivered p r.out)).queryType = 48
    · have hh' : ¬ (leVal (slice (delivered p r.out) 0 4) ≠ 48 ∨ leVal (slice (delivered p r.out) 4 4) ≠ 48) := by
        have h1 : leVal (slice (delivered p r.out) 0 4) = 48 := hh.1
        have h2 : leVal (slice (delivered p r.out) 4 4) = 48 := hh.2
        simp [h1, h2]
      rw [if_neg hh', if_pos hh]
      simp only [OutT.run_ret]
    · have hh' : leVal (slice (delivered p r.out) 0 4) ≠ 48 ∨ leVal (slice (delivered p r.out) 4 4) ≠ 48 := by
        by_cases h1 : leVal (slice (delivered p r.out) 0 4) = 48
        · by_cases h2 : leVal (slice (delivered p r.out) 4 4) = 48
          · exact absurd ⟨h1, h2⟩ hh
          · exact .inr h2
        · exact .inl h1
      rw [if_pos hh', if_neg hh]
      simp only [OutT.run_ret]

/-! ### Sends through a drive handle -/

theorem winInterp_ask {α : Type} (f : DrvReq → WinM DrvRep) (q : DrvReq) (k : DrvRep → DrvM α) :
    OutT.interp f (OutT.ask q >>= k : DrvM α) = (f q >>= fun r => OutT.interp f (k r)) := rfl

theorem winInterp_ret {α : Type} (f : DrvReq → WinM DrvRep) (a : α) :
    OutT.interp f (OutT.ret a : DrvM α) = OutT.ret a := rfl

/-- A write through one of the pass-through functions, as a run. -/
theorem winPass_write (op : PassOp) (h : Nat) (data : Bytes) (addr base to : Nat) (hd : data ≠ [])
    (env : Prog.Env WReq WRep) (hist : Prog.Trace WReq WRep) :
    ∃ e t, OutT.run env hist (op.prog h true data addr base to) = (.ret (e, zeros data.length), t) ∧ t ≠ [] ∧
      ∀ x ∈ t, payload x.1 = some (zeros data.length) := by
  obtain ⟨⟨e, he⟩, hne, hall⟩ := win_writes_are_zeros op h data addr base to hd env hist
  exact ⟨e, _, Prod.ext he rfl, hne, hall⟩

/-- C102: a send through a drive handle on Windows whose driver is the ATA, the SCSI or the inbox NVMe driver: at least one
request goes out, and the data of every request of the call — the first attempt and all fallbacks — is zeros, whatever the
caller supplied; the caller's buffer is zeroed. -/
theorem win_send_zeros (k : WinDrv) (hk : ∀ h sh, k ≠ .nvmeWin h sh) (hd : Handle) (dv : Driver) (hdh : hd.dh = some dv)
    (hata : dv.ata = k.isAta) (hnv : dv.nvme = k.isNvme) (dma : Bool) (p : Byte) (c : BitVec 16) (buf : Bytes)
    (to addr base : Nat) (behind : Nat → Byte) (hb : buf ≠ []) (env : Prog.Env WReq WRep) (hist : Prog.Trace WReq WRep) :
    ∃ res t, OutT.run env hist (OutT.interp (winDrv k addr base behind) (hd.securityCommand true dma p c buf to)) =
        (.ret res, t) ∧ t ≠ [] ∧ (∀ x ∈ t, payload x.1 = some (zeros buf.length)) ∧ res.data = zeros buf.length := by
  have hzne : zeros buf.length ≠ [] := by
    intro h0
    have := congrArg List.length h0
    rw [zeros_length] at this
    exact hb (List.length_eq_zero_iff.mp this)
  have hfz : storeInto buf (zeros buf.length) = zeros buf.length := storeInto_full _ _ (zeros_length _)
  have hzz : storeInto (zeros buf.length) (zeros buf.length) = zeros buf.length := storeInto_full _ _ rfl
  have hfull : storeInto buf buf = buf := storeInto_full _ _ rfl
  unfold Handle.securityCommand
  rw [hdh]
  simp only
  rw [winInterp_ask]
  cases k with
  | nvmeWin h sh => exact absurd rfl (hk h sh)
  | ata h =>
    have e1 : OutT.run env hist (winDrv (.ata h) addr base behind (.sec true dma p c buf to)) =
        (.ret { err := some (.msg "not supported"), data := buf, behind := behind }, []) := rfl
    rw [OutT.run_bind_ret env hist e1]
    simp only [hata, WinDrv.isAta, if_true, hfull]
    rw [winInterp_ask]
    obtain ⟨e, t, hrun, hne, hall⟩ := winPass_write (.ataTask (securityTf true dma p c buf.length)) h buf addr base to hb env
      (hist ++ [])
    have e2 : OutT.run env (hist ++ []) (winDrv (.ata h) addr base behind
        (.taskFile true dma (securityTf true dma p c buf.length) buf to)) =
        (.ret { err := e, data := zeros buf.length, behind := behind, tf := securityTf true dma p c buf.length }, t) := by
      show OutT.run env (hist ++ []) (PassOp.prog (.ataTask (securityTf true dma p c buf.length)) h true buf addr base to >>=
        fun x => OutT.ret ({ err := x.1, data := x.2, behind := behind, tf := securityTf true dma p c buf.length } : DrvRep)) = _
      rw [OutT.run_bind_ret env _ hrun]
      simp
    rw [OutT.run_bind_ret env _ e2]
    refine ⟨_, t, by simp only [winInterp_ret, OutT.run_ret, List.append_nil, List.nil_append]; rfl, hne, hall, hfz⟩
  | scsi h =>
    obtain ⟨e, t, hrun, hne, hall⟩ := winPass_write (.scsiSecurity p c) h buf addr base to hb env hist
    have e1 : OutT.run env hist (winDrv (.scsi h) addr base behind (.sec true dma p c buf to)) =
        (.ret { err := e, data := zeros buf.length, behind := behind }, t) := by
      show OutT.run env hist (PassOp.prog (.scsiSecurity p c) h true buf addr base to >>=
        fun x => OutT.ret ({ err := x.1, data := x.2, behind := behind } : DrvRep)) = _
      rw [OutT.run_bind_ret env _ hrun]
      simp
    rw [OutT.run_bind_ret env _ e1]
    dsimp only
    rw [hfz]
    cases e with
    | none =>
      exact ⟨_, t, by simp only [winInterp_ret, OutT.run_ret, List.append_nil]; rfl, hne, hall, rfl⟩
    | some e =>
      simp only [hata, WinDrv.isAta, if_true]
      rw [winInterp_ask]
      obtain ⟨e2, t2, hrun2, hne2, hall2⟩ := winPass_write (.scsiTask (securityTf true dma p c (zeros buf.length).length)) h
        (zeros buf.length) addr base to hzne env (hist ++ t)
      have e3 : OutT.run env (hist ++ t) (winDrv (.scsi h) addr base behind
          (.taskFile true dma (securityTf true dma p c (zeros buf.length).length) (zeros buf.length) to)) =
          (.ret { err := e2, data := zeros buf.length, behind := behind,
                  tf := securityTf true dma p c (zeros buf.length).length }, t2) := by
        show OutT.run env (hist ++ t) (PassOp.prog (.scsiTask (securityTf true dma p c (zeros buf.length).length)) h true
          (zeros buf.length) addr base to >>=
          fun x => OutT.ret ({ err := x.1, data := x.2, behind := behind,
                               tf := securityTf true dma p c (zeros buf.length).length } : DrvRep)) = _
        rw [OutT.run_bind_ret env _ hrun2]
        simp
      rw [OutT.run_bind_ret env _ e3]
      refine ⟨_, t ++ t2, by simp only [winInterp_ret, OutT.run_ret, List.append_nil]; rfl, by simp [hne], ?_, hzz⟩
      intro x hx
      rcases List.mem_append.mp hx with hx | hx
      · exact hall x hx
      · rw [hall2 x hx, zeros_length]
  | windowsNvme h =>
    obtain ⟨e, t, hrun, hne, hall⟩ := winPass_write (.scsiSecurity p c) h buf addr base to hb env hist
    have e1 : OutT.run env hist (winDrv (.windowsNvme h) addr base behind (.sec true dma p c buf to)) =
        (.ret { err := e, data := zeros buf.length, behind := behind }, t) := by
      show OutT.run env hist (PassOp.prog (.scsiSecurity p c) h true buf addr base to >>=
        fun x => OutT.ret ({ err := x.1, data := x.2, behind := behind } : DrvRep)) = _
      rw [OutT.run_bind_ret env _ hrun]
      simp
    rw [OutT.run_bind_ret env _ e1]
    dsimp only
    rw [hfz]
    cases e with
    | none =>
      exact ⟨_, t, by simp only [winInterp_ret, OutT.run_ret, List.append_nil]; rfl, hne, hall, rfl⟩
    | some e =>
      simp only [hata, hnv, WinDrv.isAta, WinDrv.isNvme, Bool.not_false, if_true]
      rw [if_neg (by simp), winInterp_ask]
      have e3 : OutT.run env (hist ++ t) (winDrv (.windowsNvme h) addr base behind
          (.nvmeAdmin (securityNvme true p c (zeros buf.length)))) =
          (.ret { err := some (.msg "not supported"), data := zeros buf.length, behind := behind }, []) := rfl
      rw [OutT.run_bind_ret env _ e3]
      exact ⟨_, t, by simp only [winInterp_ret, OutT.run_ret, List.append_nil]; rfl, hne, hall, hzz⟩

/-- C102: a security command through a drive handle whose driver is the miniport driver. More than 4096 bytes are refused
without a request. Otherwise there is exactly one request: an admin command 81h (send) or 82h (receive) naming protocol,
ComID and length, with the caller's bytes and — also for a send — the direction device to host. If Windows reports no error
the result is success and the start of the record's data area is copied into the caller's buffer, for a send as well. -/
theorem win_security_miniport (h sh : Nat) (hd : Handle) (dv : Driver) (hdh : hd.dh = some dv) (hata : dv.ata = false)
    (hnv : dv.nvme = true) (rw dma : Bool) (p : Byte) (c : BitVec 16) (buf : Bytes) (to addr base : Nat)
    (behind : Nat → Byte) (hb : buf.length < 2 ^ 32) (env : Prog.Env WReq WRep) (hist : Prog.Trace WReq WRep) :
    ∃ res t, OutT.run env hist (OutT.interp (winDrv (.nvmeWin h sh) addr base behind)
        (hd.securityCommand rw dma p c buf to)) = (.ret res, t) ∧
      (buf.length > 4096 → t = [] ∧ res.err = some (.msg "too long data") ∧ res.data = buf) ∧
      (buf.length ≤ 4096 → ∃ inb r, t = [(.ioctl sh 0x4d008 inb 4248 none, r)] ∧ inb.length = 4248 ∧
        miniportView inb = miniportOf (if rw then 0x81 else 0x82) 0 (p.toNat * 2 ^ 24 + c.toNat * 2 ^ 8) buf.length 0 0 0 0
          (delivered (zeros 4096) buf) ∧
        (miniportView inb).direction = 2 ∧ res.err = r.err ∧
        (r.err = none → res.data = delivered buf ((miniportView (delivered inb r.out)).data.take buf.length)) ∧
        (r.err ≠ none → res.data = buf)) := by
  have hfull : storeInto buf buf = buf := storeInto_full _ _ rfl
  obtain ⟨cmd, hcmd⟩ : ∃ cmd, cmd = securityNvme rw p c buf := ⟨_, rfl⟩
  have hlen : cmd.dataLen.toNat = buf.length := by
    rw [hcmd]
    show (BitVec.ofNat 32 buf.length).toNat = _
    rw [BitVec.toNat_ofNat, Nat.mod_eq_of_lt hb]
  have href : referredTo cmd (fun _ => 0#8) = buf := by rw [hcmd]; rfl
  have hop : cmd.opcode = (if rw then 0x81 else 0x82) := by rw [hcmd]; cases rw <;> rfl
  have h10 : cmd.cdw10.toNat = p.toNat * 2 ^ 24 + c.toNat * 2 ^ 8 := by rw [hcmd]; exact securityNvme_cdw10 rw p c buf
  have h11 : cmd.cdw11.toNat = buf.length := by
    rw [hcmd]
    show (BitVec.ofNat 32 buf.length).toNat = _
    rw [BitVec.toNat_ofNat, Nat.mod_eq_of_lt hb]
  have hns : cmd.nsid.toNat = 0 := by rw [hcmd]; rfl
  have h12 : cmd.cdw12.toNat = 0 := by rw [hcmd]; rfl
  have h13 : cmd.cdw13.toNat = 0 := by rw [hcmd]; rfl
  have h14 : cmd.cdw14.toNat = 0 := by rw [hcmd]; rfl
  have h15 : cmd.cdw15.toNat = 0 := by rw [hcmd]; rfl
  have hprog : OutT.run env hist (OutT.interp (winDrv (.nvmeWin h sh) addr base behind)
      (hd.securityCommand rw dma p c buf to)) =
      OutT.run env hist (miniportAdmin sh cmd (fun _ => 0#8) >>= fun x =>
        OutT.ret ({ err := x.1, data := storeInto buf x.2, behind := behind } : SecRep)) := by
    unfold Handle.securityCommand
    rw [hdh]
    simp only
    rw [winInterp_ask]
    have e1 : OutT.run env hist (winDrv (.nvmeWin h sh) addr base behind (.sec rw dma p c buf to)) =
        (.ret { err := some (.msg "not supported"), data := buf, behind := behind }, []) := rfl
    rw [OutT.run_bind_ret env hist e1]
    simp only [hata, hnv, if_true, hfull, List.append_nil, List.nil_append]
    rw [if_neg (by simp), winInterp_ask, ← hcmd]
    show OutT.run env hist ((miniportAdmin sh cmd (fun _ => 0#8) >>= fun x =>
        OutT.ret ({ err := x.1, data := x.2, behind := behind } : DrvRep)) >>= fun r =>
        OutT.ret ({ err := r.err, data := storeInto buf r.data, behind := r.behind } : SecRep)) = _
    rcases hm : OutT.run env hist (miniportAdmin sh cmd (fun _ => 0#8)) with ⟨o, t⟩
    rw [OutT.run_bind, OutT.run_bind, OutT.run_bind, hm]
    cases o <;> simp
  rw [hprog]
  obtain ⟨a1, a2⟩ := win_miniport_admin sh cmd (fun _ => 0#8) env hist
  rw [hlen, href] at a1
  rw [hlen, href, hop, hns, h10, h11, h12, h13, h14, h15] at a2
  by_cases hl : buf.length > 4096
  · rw [OutT.run_bind_ret env hist (a1 hl)]
    exact ⟨_, [], rfl, fun _ => ⟨rfl, rfl, hfull⟩, fun h' => absurd hl (by omega)⟩
  · obtain ⟨inb, r, ht, hinb, hview, he1, he2⟩ := a2 (by omega)
    have hdir : (miniportView inb).direction = 2 := by rw [hview]; rfl
    cases he : r.err with
    | some e =>
      have hrun : OutT.run env hist (miniportAdmin sh cmd (fun _ => 0#8)) = (.ret (some e, buf), [(.ioctl sh 0x4d008 inb 4248 none, r)]) :=
        Prod.ext (he1 e he) ht
      rw [OutT.run_bind_ret env hist hrun]
      refine ⟨_, [(.ioctl sh 0x4d008 inb 4248 none, r)], rfl, fun h' => absurd h' hl, fun _ => ?_⟩
      exact ⟨inb, r, rfl, hinb, hview, hdir, he.symm, fun h' => by rw [he] at h'; simp at h', fun _ => hfull⟩
    | none =>
      have hrun : OutT.run env hist (miniportAdmin sh cmd (fun _ => 0#8)) = (.ret (none, delivered buf ((miniportView (delivered inb r.out)).data.take buf.length)), [(.ioctl sh 0x4d008 inb 4248 none, r)]) :=
        Prod.ext (he2 he) ht
      rw [OutT.run_bind_ret env hist hrun]
      refine ⟨_, [(.ioctl sh 0x4d008 inb 4248 none, r)], rfl, fun h' => absurd h' hl, fun _ => ?_⟩
      refine ⟨inb, r, rfl, hinb, hview, hdir, he.symm, fun _ => ?_, fun h' => absurd he h'⟩
      exact storeInto_full _ _ (delivered_length _ _)

/-! Concrete runs. -/

/-- A Windows on which everything succeeds: SCSI port 12, handle 9, and an answer record whose completion entry carries
the status "invalid opcode" (bit 17 of dword 3) and whose data begins with 7, 8. -/
def sampleMiniport : Prog.Env WReq WRep := fun _ q => match q with
  | .ioctl _ code _ _ _ =>
    if code = 0x41018 then { out := [8, 0, 0, 0, 12, 0, 0, 0] }
    else if code = 0x2d1400 then { out := leBytes 4 48 ++ leBytes 4 48 ++ zeros 40 ++ [7, 8] }
    else { out := zeros 128 ++ [0, 0, 2, 0] ++ zeros 20 ++ [7, 8] }
  | .openDevice _ => { handle := 9 }
  | _ => {}
/-- The same with the last step failing. -/
def sampleMiniportFail : Prog.Env WReq WRep := fun hist q => match q with
  | .ioctl _ 0x4d008 _ _ _ => { err := some (.errno 1) }
  | q => sampleMiniport hist q

/-- C99: success although the completion entry reports a failure; four bytes of data are copied back. -/
example : (OutT.run sampleMiniport [] (miniportAdmin 3 { opcode := 6#8, dataLen := 4#32, dataBuffer := some [1, 1, 1, 1] }
      (fun _ => 0))).1 = .ret (none, [7, 8, 1, 1]) ∧
    completionStatus (miniportView (sampleMiniport [] (.ioctl 3 0x4d008 [] 0 none)).out).completion = 1 ∧
    (OutT.run sampleMiniport [] (miniportAdmin 3 { opcode := 6#8, dataLen := 4097#32 } (fun _ => 0))).1 =
      .ret (some (.msg "too long data"), []) := by decide +kernel
/-- C100: opened by the name of port 12; the extra handle is not closed. -/
example : (match OutT.run sampleMiniport [] (nvmeWinOpen 5) with
    | (.ret (.ok (sh, id)), t) => (sh, id.take 3, handlesOpened t, handlesClosed t)
    | _ => (0, [], [], [])) = (9, [7, 8, 0], [9], []) ∧
    ((OutT.run sampleMiniport [] (nvmeWinOpen 5)).2.map (·.1))[1]? = some (.openDevice (ascii "\\\\.\\SCSI12:")) := by
  decide +kernel
example : (match OutT.run sampleMiniportFail [] (nvmeWinOpen 5) with
    | (.ret (.err e), t) => (e, handlesOpened t, handlesClosed t)
    | _ => (.eof, [], [])) = (.errno 1, [9], [9]) := by decide +kernel
/-- C101 -/
example : (OutT.run sampleMiniport [] (windowsLogPage 5 1 2 true (3 : Nat))).1 = .ret (.ok [7, 8, 0]) ∧
    (OutT.run (fun _ _ => { out := leBytes 4 48 ++ leBytes 4 47 }) [] (windowsLogPage 5 1 2 true (3 : Nat))).1 =
      .ret (.err (.msg "invalid response header")) ∧
    (match (OutT.run sampleMiniport [] (windowsNvmeOpen 5)).1 with | .ret (.ok id) => id.take 2 | _ => []) = [7, 8] := by
  decide +kernel
/-- C102: a send over the SCSI driver reports success; only zeros went out. -/
example : (match OutT.run (fun _ _ => {}) [] (OutT.interp (winDrv (.scsi 5) 512 0 (fun _ => 0))
    (Handle.securityCommand { dh := some { ata := true, nvme := false, identity := [] } } true false 1 0x7fe [9, 9] 5)) with
    | (.ret r, t) => (r.err, r.data, t.map (fun x => payload x.1)) | _ => (none, [], [])) =
    (none, [0, 0], [some [0, 0]]) := by decide +kernel
example : (match OutT.run sampleMiniport [] (OutT.interp (winDrv (.nvmeWin 5 9) 512 0 (fun _ => 0))
    (Handle.securityCommand { dh := some { ata := false, nvme := true, identity := [] } } true false 1 0x7fe [9, 9, 9] 5)) with
    | (.ret r, t) => (r.err, r.data, t.length) | _ => (none, [], 0)) = (none, [7, 8, 9], 1) := by decide +kernel

end Dparm
