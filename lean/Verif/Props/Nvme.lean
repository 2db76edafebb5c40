import Verif.Lemmas.Nvme
/-!
# NVMe on Linux (C62 to C65, C86 to C89)
-/
namespace Dparm
open Spec

/-! ## C62 -/

/-- C62: all attempts are one command, differing only in the buffer's content (what earlier attempts left there); every
attempt but the last failed; there are at most `⌈size/4096⌉`, and exactly that many if none succeeds; none for size 0. The
error is nil exactly if the size is 0 or an attempt succeeded, otherwise it is the last attempt's; the returned bytes are
what the attempts stored into a zeroed buffer. -/
theorem log_page_retries (nsid logId : BitVec 32) (rae : Bool) (size : Nat) (env : Prog.Env DrvReq DrvRep)
    (hist : Prog.Trace DrvReq DrvRep) :
    ∃ (c : NvmeCmd) (out : Bytes) (e : Option GoErr) (tr : Prog.Trace DrvReq DrvRep),
      OutT.run env hist (nvmeLogPage nsid logId rae size) = (.ret (out, e), tr) ∧
      (∀ (i : Nat) (x : DrvReq × DrvRep), tr[i]? = some x → x.1 = .nvmeAdmin { c with
        dataBuffer := some (afterStores (zeros size) ((tr.take i).map (fun y => y.2.data))) }) ∧
      (∀ (i : Nat) (x : DrvReq × DrvRep), tr[i]? = some x → x.2 = env (hist ++ tr.take i) x.1) ∧
      (∀ (i : Nat) (x : DrvReq × DrvRep), tr[i]? = some x → i + 1 < tr.length → x.2.err ≠ none) ∧
      tr.length ≤ (size + 4095) / 4096 ∧
      ((∀ x ∈ tr, x.2.err ≠ none) → tr.length = (size + 4095) / 4096) ∧
      (e = none ↔ size = 0 ∨ ∃ x ∈ tr, x.2.err = none) ∧
      (∀ x, tr.getLast? = some x → e = x.2.err) ∧
      out = afterStores (zeros size) (tr.map (fun y => y.2.data)) ∧ out.length = size := by
  obtain ⟨out, e, tr, h1, h2, h3, h4, h5, h6, h7, h8, h9, h10⟩ :=
    logPageLoop_run nsid logId rae size env size 0 (zeros size) none hist (by omega) (zeros_length _)
  refine ⟨logPageCmd nsid logId rae size (zeros size), out, e, tr, ?_, ?_, h3, h5, ?_, ?_, ?_, h9, h4, ?_⟩
  · rw [← h1]
    unfold nvmeLogPage
    rw [if_neg (by omega)]
    simp
  · intro i x h
    rw [h2 i x h]
    rfl
  · simpa using h6
  · simpa using h10
  · constructor
    · intro he
      by_cases hs : size = 0
      · exact Or.inl hs
      · right
        have hne := h7 (by omega)
        obtain ⟨x, hx⟩ : ∃ x, tr.getLast? = some x := by
          cases h : tr.getLast? with
          | none => exact absurd (List.getLast?_eq_none_iff.1 h) hne
          | some x => exact ⟨x, rfl⟩
        exact ⟨x, List.mem_of_getLast? hx, by rw [← h9 x hx]; exact he⟩
    · intro h
      rcases h with h | ⟨x, hx, hex⟩
      · subst h
        have : tr = [] := by
          apply List.eq_nil_of_length_eq_zero
          simp at h6
          simpa using h6
        exact h8 this
      · obtain ⟨i, hi, hxi⟩ := List.getElem_of_mem hx
        have hget : tr[i]? = some x := by rw [List.getElem?_eq_getElem hi, hxi]
        by_cases hl : i + 1 < tr.length
        · exact absurd hex (h5 i x hget hl)
        · have : tr.getLast? = some x := by
            rw [List.getLast?_eq_getElem?]
            have : tr.length - 1 = i := by omega
            rw [this]; exact hget
          rw [h9 x this]; exact hex
  · rw [h4, afterStores_length, zeros_length]

/-- Three pages, a device that fails twice and then succeeds: three attempts. -/
example :
    let env : Prog.Env DrvReq DrvRep := fun h _ => if h.length < 2 then { err := some .eof } else { data := [7] }
    ((OutT.run env [] (nvmeLogPage 1 2 false 9000)).2.length,
      match (OutT.run env [] (nvmeLogPage 1 2 false 9000)).1 with
      | .ret (d, e) => (d.take 2, d.length, e)
      | _ => ([], 0, some .eof)) = (3, [7, 0], 9000, none) := by decide +kernel

/-! ## C63 -/

theorem logPageCmd_cdw10 (nsid logId : BitVec 32) (rae : Bool) (size : Nat) (buf : Bytes) (hl : logId.toNat < 32768) :
    (logPageCmd nsid logId rae size buf).cdw10.toNat =
      ((size / 4 + 4294967295) % 4294967296) % 65536 * 65536 + (if rae then 32768 else 0) + logId.toNat := by
  have hn : (BitVec.ofInt 32 ((size / 4 : Nat) - 1)).toNat = (size / 4 + 4294967295) % 4294967296 := by
    rw [BitVec.toNat_ofInt]
    have : ((2 ^ 32 : Nat) : Int) = 4294967296 := rfl
    rw [this]
    omega
  obtain ⟨numd, hnd⟩ : ∃ n : BitVec 32, n = BitVec.ofInt 32 ((size / 4 : Nat) - 1) := ⟨_, rfl⟩
  have h0 : (logPageCmd nsid logId rae size buf).cdw10 =
      logId ||| ((numd &&& 0xffff#32) <<< 16) ||| ternary rae 0x8000#32 0#32 ||| (0#32 <<< 8) := by
    rw [hnd]; rfl
  rw [← hnd] at hn
  rw [h0, ← hn]
  have hm : (numd &&& 0xffff#32).toNat = numd.toNat % 65536 := by
    rw [BitVec.toNat_and]
    exact Nat.and_two_pow_sub_one_eq_mod numd.toNat 16
  have hs : ((numd &&& 0xffff#32) <<< 16).toNat = numd.toNat % 65536 * 65536 := by
    rw [toNat_shl _ _ _ (by rw [hm]; omega), hm]
  have hz : (0#32 <<< 8 : BitVec 32) = 0#32 := by decide
  rw [hz, BitVec.or_zero, BitVec.toNat_or, BitVec.toNat_or, hs, Nat.or_assoc, Nat.or_comm (numd.toNat % 65536 * 65536), ← Nat.or_assoc]
  have ht : logId.toNat ||| (ternary rae 0x8000#32 0#32).toNat = (if rae then 32768 else 0) + logId.toNat := by
    cases rae
    · simp [ternary]
    · have := or_mul_two_pow 1 logId.toNat 15 hl
      simpa [ternary] using this
  rw [ht, or_mul_two_pow _ _ 16 (by split <;> omega)]
  omega

theorem logPageCmd_cdw11 (nsid logId : BitVec 32) (rae : Bool) (size : Nat) (buf : Bytes) :
    (logPageCmd nsid logId rae size buf).cdw11.toNat = (size / 4 + 4294967295) % 4294967296 / 65536 := by
  have hn : (BitVec.ofInt 32 ((size / 4 : Nat) - 1)).toNat = (size / 4 + 4294967295) % 4294967296 := by
    rw [BitVec.toNat_ofInt]
    have : ((2 ^ 32 : Nat) : Int) = 4294967296 := rfl
    rw [this]
    omega
  obtain ⟨numd, hnd⟩ : ∃ n : BitVec 32, n = BitVec.ofInt 32 ((size / 4 : Nat) - 1) := ⟨_, rfl⟩
  have h0 : (logPageCmd nsid logId rae size buf).cdw11 = ((numd >>> 16) &&& 0xffff#32) ||| 0#32 := by
    rw [hnd]; rfl
  rw [← hnd] at hn
  rw [h0, ← hn, BitVec.or_zero, BitVec.toNat_and, BitVec.toNat_ushiftRight, Nat.shiftRight_eq_div_pow]
  have h := Nat.and_two_pow_sub_one_eq_mod (numd.toNat / 2 ^ 16) 16
  have hlt := numd.isLt
  exact h.trans (by omega)

/-- C63: for a log identifier of 8 bits and a size from 4 bytes up to what the dword counter can express, every command
issued names that log and flag, no log specific field and offset 0, and asks for exactly `⌊size/4⌋` dwords; the kernel is
told `size` bytes. -/
theorem log_page_fields (nsid logId : BitVec 32) (rae : Bool) (size : Nat) (env : Prog.Env DrvReq DrvRep)
    (hist : Prog.Trace DrvReq DrvRep) (hl : logId.toNat < 256) (h4 : 4 ≤ size) (hmax : size / 4 ≤ 4294967296) :
    ∀ x ∈ (OutT.run env hist (nvmeLogPage nsid logId rae size)).2, ∃ c, x.1 = .nvmeAdmin c ∧
      c.opcode = 0x02 ∧ c.nsid = nsid ∧ c.dataAddr = 0 ∧ c.dataLen.toNat = size % 4294967296 ∧
      (∃ b, c.dataBuffer = some b ∧ b.length = size) ∧
      logPageOf c = { lid := logId.toNat, lsp := 0, reserved := 0, rae := rae, numd := size / 4 - 1, lsi := 0, lpo := 0 } := by
  obtain ⟨out, e, tr, h1, h2, -⟩ :=
    logPageLoop_run nsid logId rae size env size 0 (zeros size) none hist (by omega) (zeros_length _)
  have hrun : OutT.run env hist (nvmeLogPage nsid logId rae size) = (.ret (out, e), tr) := by
    rw [← h1]
    unfold nvmeLogPage
    rw [if_neg (by omega)]
    simp
  rw [hrun]
  intro x hx
  obtain ⟨i, hi, hxi⟩ := List.getElem_of_mem hx
  refine ⟨_, h2 i x (by rw [List.getElem?_eq_getElem hi, hxi]), rfl, rfl, rfl, ?_, ⟨_, rfl, ?_⟩, ?_⟩
  · exact BitVec.toNat_ofNat _ _
  · rw [afterStores_length, zeros_length]
  · have h10 := logPageCmd_cdw10 nsid logId rae size (afterStores (zeros size) ((tr.take i).map (fun y => y.2.data)))
      (by omega)
    have h11 := logPageCmd_cdw11 nsid logId rae size (afterStores (zeros size) ((tr.take i).map (fun y => y.2.data)))
    unfold logPageOf
    rw [h10, h11]
    have hA : (size / 4 + 4294967295) % 4294967296 = size / 4 - 1 := by omega
    rw [hA]
    have hB : (if rae then 32768 else 0) = 32768 * (if rae then 1 else 0) := by cases rae <;> rfl
    have hC : (if rae then 1 else 0) < 2 := by cases rae <;> decide
    rw [hB]
    simp only [LogPage.mk.injEq]
    have h12 : (logPageCmd nsid logId rae size (afterStores (zeros size) ((tr.take i).map (fun y => y.2.data)))).cdw12 =
      0#32 := rfl
    have h13 : (logPageCmd nsid logId rae size (afterStores (zeros size) ((tr.take i).map (fun y => y.2.data)))).cdw13 =
      0#32 := rfl
    refine ⟨by omega, by omega, by omega, ?_, by omega, by omega, by rw [h12, h13]; simp⟩
    have hD : ((size / 4 - 1) % 65536 * 65536 + 32768 * (if rae then 1 else 0) + logId.toNat) / 32768 % 2 =
      (if rae then 1 else 0) := by omega
    rw [hD]
    cases rae <;> rfl

/-- A 16 kB page of log 2 with the retain flag. -/
example : 2 < 256 ∧ 4 ≤ 16384 ∧ 16384 / 4 ≤ 4294967296 ∧
    logPageOf (logPageCmd 0xffffffff 2 true 16384 (zeros 16384)) =
      { lid := 2, lsp := 0, reserved := 0, rae := true, numd := 4095, lsi := 0, lpo := 0 } := by decide +kernel

/-- C63: a size from 1 to 3 bytes asks for `2^32` dwords (the zero-based counter wraps). -/
theorem log_page_small (nsid logId : BitVec 32) (rae : Bool) (size : Nat) (env : Prog.Env DrvReq DrvRep)
    (hist : Prog.Trace DrvReq DrvRep) (hl : logId.toNat < 256) (h1 : 1 ≤ size) (h4 : size < 4) :
    (OutT.run env hist (nvmeLogPage nsid logId rae size)).2 ≠ [] ∧
    ∀ x ∈ (OutT.run env hist (nvmeLogPage nsid logId rae size)).2, ∃ c, x.1 = .nvmeAdmin c ∧
      (logPageOf c).numd + 1 = 4294967296 := by
  obtain ⟨out, e, tr, hr, h2, -, -, -, -, h7, -⟩ :=
    logPageLoop_run nsid logId rae size env size 0 (zeros size) none hist (by omega) (zeros_length _)
  have hrun : OutT.run env hist (nvmeLogPage nsid logId rae size) = (.ret (out, e), tr) := by
    rw [← hr]
    unfold nvmeLogPage
    rw [if_neg (by omega)]
    simp
  rw [hrun]
  refine ⟨h7 (by omega), ?_⟩
  intro x hx
  obtain ⟨i, hi, hxi⟩ := List.getElem_of_mem hx
  refine ⟨_, h2 i x (by rw [List.getElem?_eq_getElem hi, hxi]), ?_⟩
  have h10 := logPageCmd_cdw10 nsid logId rae size (afterStores (zeros size) ((tr.take i).map (fun y => y.2.data)))
    (by omega)
  have h11 := logPageCmd_cdw11 nsid logId rae size (afterStores (zeros size) ((tr.take i).map (fun y => y.2.data)))
  unfold logPageOf
  rw [h10, h11]
  have hC : (if rae then 32768 else 0) < 65536 - 256 := by cases rae <;> decide
  dsimp only
  omega

example : (logPageOf (logPageCmd 0 2 false 3 (zeros 3))).numd = 4294967295 := by decide +kernel

/-- C63: the sizes are `int`s; a negative one panics before any command is issued. -/
theorem log_page_negative (nsid logId : BitVec 32) (rae : Bool) (size : Int) (h : size < 0)
    (env : Prog.Env DrvReq DrvRep) (hist : Prog.Trace DrvReq DrvRep) :
    OutT.run env hist (nvmeLogPage nsid logId rae size) = (.panic, []) := by
  unfold nvmeLogPage
  rw [if_pos h]
  rfl

example : (-1 : Int) < 0 := by decide

/-! ## C64 -/

/-- C64: `DoNvmeAdminPassthru` is one ioctl with a record that agrees with the caller's in every field, the address being
`DataAddr` or else the buffer's. It returns the ioctl's result, and the buffer changes only by what the kernel stored,
within `DataLen`. -/
theorem admin_passthru_faithful (bufAddr : BitVec 64) (c : NvmeCmd) (env : Prog.Env NvReq NvRep)
    (hist : Prog.Trace NvReq NvRep) :
    ∃ (k : KNvme) (r : NvRep), r = env hist (.cmd 0xC0484E41 k c.dataBuffer) ∧
      k.opcode = c.opcode ∧ k.flags = c.flags ∧ k.rsvd1 = c.rsvd1 ∧ k.nsid = c.nsid ∧ k.cdw2 = c.cdw2 ∧ k.cdw3 = c.cdw3 ∧
      k.metadata = c.metadata ∧ k.metadataLen = c.metadataLen ∧ k.dataLen = c.dataLen ∧ k.cdw10 = c.cdw10 ∧
      k.cdw11 = c.cdw11 ∧ k.cdw12 = c.cdw12 ∧ k.cdw13 = c.cdw13 ∧ k.cdw14 = c.cdw14 ∧ k.cdw15 = c.cdw15 ∧
      k.timeoutMs = c.timeoutMs ∧ k.result = c.result ∧ k.addr = addrOf c bufAddr ∧
      OutT.run env hist (nvAdmin bufAddr c) =
        (.ret (if r.errno ≠ 0 then some (.errno r.errno) else if r.ret ≠ 0 then some (.errno r.ret) else none,
          if c.dataAddr ≠ 0 then c.dataBuffer
          else c.dataBuffer.map (fun b => delivered b (r.data.take c.dataLen.toNat))),
         [(.cmd 0xC0484E41 k c.dataBuffer, r)]) := by
  have hop : NVME_IOCTL_ADMIN_CMD = 0xC0484E41#64 := by decide
  refine ⟨adminRecord c bufAddr, env hist (.cmd 0xC0484E41 (adminRecord c bufAddr) c.dataBuffer), rfl, rfl, rfl, rfl, rfl,
    rfl, rfl, rfl, rfl, rfl, rfl, rfl, rfl, rfl, rfl, rfl, rfl, rfl, ?_, ?_⟩
  · show adminDataAddr c bufAddr = _
    unfold adminDataAddr addrOf
    by_cases h0 : c.dataAddr = 0#64
    · rw [if_neg (fun h => h h0), if_neg (fun h => h h0)]
      cases hb : c.dataBuffer with
      | none => rfl
      | some b => cases b <;> rfl
    · rw [if_pos (show c.dataAddr ≠ 0#64 from h0), if_pos (show c.dataAddr ≠ 0 from h0)]
  · unfold nvAdmin
    rw [OutT.run_ask_bind, hop]
    show (_, _) = (_, _)
    congr 1
    unfold NvRep.stored
    simp only [storeInto_delivered]
    rfl

/-- C64: `DoNvmeIoPassthru` copies every field but the data length, which the kernel sees as 0: it can transfer nothing to
the buffer. Without an address and without buffer bytes it panics before the ioctl. -/
theorem io_passthru_no_length (bufAddr : BitVec 64) (c : NvmeCmd) (env : Prog.Env NvReq NvRep)
    (hist : Prog.Trace NvReq NvRep) :
    (c.dataAddr = 0 ∧ (c.dataBuffer.getD []).length = 0 →
      OutT.run env hist (nvIoPassthru bufAddr c) = (.panic, [])) ∧
    (¬ (c.dataAddr = 0 ∧ (c.dataBuffer.getD []).length = 0) →
      ∃ (k : KNvme) (r : NvRep), r = env hist (.cmd 0xC0484E43 k c.dataBuffer) ∧
      k.opcode = c.opcode ∧ k.flags = c.flags ∧ k.rsvd1 = c.rsvd1 ∧ k.nsid = c.nsid ∧ k.cdw2 = c.cdw2 ∧ k.cdw3 = c.cdw3 ∧
      k.metadata = c.metadata ∧ k.metadataLen = c.metadataLen ∧ k.dataLen = 0 ∧ k.cdw10 = c.cdw10 ∧
      k.cdw11 = c.cdw11 ∧ k.cdw12 = c.cdw12 ∧ k.cdw13 = c.cdw13 ∧ k.cdw14 = c.cdw14 ∧ k.cdw15 = c.cdw15 ∧
      k.timeoutMs = c.timeoutMs ∧ k.result = c.result ∧ k.addr = addrOf c bufAddr ∧
      OutT.run env hist (nvIoPassthru bufAddr c) =
        (.ret (if r.errno ≠ 0 then some (.errno r.errno) else if r.ret ≠ 0 then some (.errno r.ret) else none,
          c.dataBuffer), [(.cmd 0xC0484E43 k c.dataBuffer, r)])) := by
  have hop : NVME_IOCTL_IO_CMD = 0xC0484E43#64 := by decide
  constructor
  · intro ⟨h1, h2⟩
    have : passthruDataAddr c bufAddr = .panic := by
      unfold passthruDataAddr
      rw [if_neg (by simp [h1])]
      cases hb : c.dataBuffer with
      | none => rfl
      | some b =>
        cases b with
        | nil => rfl
        | cons x xs => simp [hb] at h2
    unfold nvIoPassthru
    rw [this]
    rfl
  · intro h
    have ha : passthruDataAddr c bufAddr = .ret (addrOf c bufAddr) := by
      unfold passthruDataAddr addrOf
      by_cases h0' : c.dataAddr = 0#64
      · rw [if_neg (fun h => h h0'), if_neg (fun h => h h0')]
        cases hb : c.dataBuffer with
        | none => exact absurd ⟨h0', by simp [hb]⟩ h
        | some b =>
          cases b with
          | nil => exact absurd ⟨h0', by simp [hb]⟩ h
          | cons x xs => rfl
      · rw [if_pos (show c.dataAddr ≠ 0#64 from h0'), if_pos (show c.dataAddr ≠ 0 from h0')]
    refine ⟨ioRecord c (addrOf c bufAddr), env hist (.cmd 0xC0484E43 (ioRecord c (addrOf c bufAddr)) c.dataBuffer), rfl, rfl,
      rfl, rfl, rfl, rfl, rfl, rfl, rfl, rfl, rfl, rfl, rfl, rfl, rfl, rfl, rfl, rfl, rfl, ?_⟩
    unfold nvIoPassthru
    rw [ha, OutT.run_bind_ret env hist (OutT.run_lift_ret env hist _), List.append_nil, OutT.run_ask_bind, hop]
    show (_, _) = (_, _)
    congr 1
    have hst : ∀ r : NvRep, r.stored c (ioRecord c (addrOf c bufAddr)) = c.dataBuffer := by
      intro r
      unfold NvRep.stored
      split
      · rfl
      · show c.dataBuffer.map (fun b => storeInto b (r.data.take 0)) = _
        cases c.dataBuffer with
        | none => rfl
        | some b => simp [storeInto, copyAt]
    show Out.ret (_, NvRep.stored _ c _) = _
    rw [hst]
    rfl

/-- A read command whose eight-byte buffer stays as it was, although the kernel would have delivered data. -/
example :
    let c : NvmeCmd := { opcode := 2, nsid := 1, dataLen := 8, dataBuffer := some (zeros 8) }
    OutT.run (fun _ _ => { data := [1, 2, 3] }) [] (nvIoPassthru 4096 c) =
        (.ret (none, some (zeros 8)), [(.cmd 0xC0484E43 (ioRecord c 4096) (some (zeros 8)), { data := [1, 2, 3] })]) ∧
      OutT.run (fun _ _ => { data := [1, 2, 3] }) [] (nvAdmin 4096 c) =
        (.ret (none, some [1, 2, 3, 0, 0, 0, 0, 0]),
          [(.cmd 0xC0484E41 (adminRecord c 4096) (some (zeros 8)), { data := [1, 2, 3] })]) := by decide +kernel

/-- C64: `DoNvmeIo` hands the kernel the caller's record unchanged. -/
theorem user_io_faithful (io : UserIo) (env : Prog.Env NvReq NvRep) (hist : Prog.Trace NvReq NvRep) :
    let r := env hist (.io 0x40304E42 io)
    OutT.run env hist (nvIo io) =
      (.ret (if r.errno ≠ 0 then some (.errno r.errno) else if r.ret ≠ 0 then some (.errno r.ret) else none),
        [(.io 0x40304E42 io, r)]) := by
  have hop : NVME_IOCTL_SUBMIT_IO = 0x40304E42#64 := by decide
  unfold nvIo
  rw [OutT.run_ask_bind, hop]
  rfl

example : OutT.run (fun _ _ => { ret := 2 }) [] (nvIo { opcode := 1, nblocks := 7, slba := 99 }) =
    (.ret (some (.errno 2)), [(.io 0x40304E42 { opcode := 1, nblocks := 7, slba := 99 }, { ret := 2 })]) := by
  decide +kernel

/-! ## C65 -/

/-- Value of an in-range ioctl number. -/
theorem IOC_toNat (dir t nr size : BitVec 64) (hd : dir.toNat < 4) (ht : t.toNat < 256) (hn : nr.toNat < 256)
    (hs : size.toNat < 16384) :
    (IOC dir t nr size).toNat = dir.toNat * 1073741824 + size.toNat * 65536 + t.toNat * 256 + nr.toNat := by
  unfold IOC
  have h1 : (dir <<< 30).toNat = dir.toNat * 2 ^ 30 := toNat_shl _ _ _ (by omega)
  have h2 : (t <<< 8).toNat = t.toNat * 2 ^ 8 := toNat_shl _ _ _ (by omega)
  have h3 : (nr <<< 0).toNat = nr.toNat := by rw [toNat_shl _ _ _ (by omega)]; omega
  have h4 : (size <<< 16).toNat = size.toNat * 2 ^ 16 := toNat_shl _ _ _ (by omega)
  rw [BitVec.toNat_or, BitVec.toNat_or, BitVec.toNat_or, h1, h2, h3, h4]
  have a1 : t.toNat * 2 ^ 8 ||| nr.toNat = t.toNat * 2 ^ 8 + nr.toNat := by
    rw [Nat.or_comm, or_mul_two_pow _ _ _ (by omega)]
  have a2 : (t.toNat * 2 ^ 8 + nr.toNat) ||| size.toNat * 2 ^ 16 = size.toNat * 2 ^ 16 + (t.toNat * 2 ^ 8 + nr.toNat) :=
    or_mul_two_pow _ _ _ (by omega)
  rw [Nat.or_assoc, Nat.or_assoc, ← Nat.or_assoc (t.toNat * 2 ^ 8), a1, a2, Nat.or_comm,
    or_mul_two_pow _ _ 30 (by omega)]
  omega

/-- C65: the parts of an in-range number are recovered by the kernel's own decoding. -/
theorem ioctl_number_recoverable (dir t nr size : BitVec 64) (hd : dir.toNat < 4) (ht : t.toNat < 256)
    (hn : nr.toNat < 256) (hs : size.toNat < 16384) :
    ioctlParts (IOC dir t nr size) = { dir := dir.toNat, type := t.toNat, nr := nr.toNat, size := size.toNat } := by
  unfold ioctlParts
  rw [IOC_toNat dir t nr size hd ht hn hs]
  simp only [IoctlParts.mk.injEq]
  omega

/-- C65: distinct in-range parts give distinct numbers. -/
theorem ioctl_number_injective (dir t nr size dir' t' nr' size' : BitVec 64)
    (hd : dir.toNat < 4) (ht : t.toNat < 256) (hn : nr.toNat < 256) (hs : size.toNat < 16384)
    (hd' : dir'.toNat < 4) (ht' : t'.toNat < 256) (hn' : nr'.toNat < 256) (hs' : size'.toNat < 16384)
    (h : IOC dir t nr size = IOC dir' t' nr' size') : dir = dir' ∧ t = t' ∧ nr = nr' ∧ size = size' := by
  have h1 := ioctl_number_recoverable dir t nr size hd ht hn hs
  rw [h, ioctl_number_recoverable dir' t' nr' size' hd' ht' hn' hs'] at h1
  simp only [IoctlParts.mk.injEq] at h1
  exact ⟨BitVec.eq_of_toNat_eq h1.1.symm, BitVec.eq_of_toNat_eq h1.2.1.symm, BitVec.eq_of_toNat_eq h1.2.2.1.symm,
    BitVec.eq_of_toNat_eq h1.2.2.2.symm⟩

/-- C65: the directions of the four macros as the kernel decodes them (1 write, 2 read, 3 both): `IOR` claims both where
the kernel's `_IOR` is 2. -/
theorem ioctl_directions (t nr size : BitVec 64) (ht : t.toNat < 256) (hn : nr.toNat < 256) (hs : size.toNat < 16384) :
    ioctlParts (IO' t nr) = { dir := 0, type := t.toNat, nr := nr.toNat, size := 0 } ∧
    ioctlParts (IOW t nr size) = { dir := 1, type := t.toNat, nr := nr.toNat, size := size.toNat } ∧
    ioctlParts (IOWR t nr size) = { dir := 3, type := t.toNat, nr := nr.toNat, size := size.toNat } ∧
    ioctlParts (IOR t nr size) = { dir := 3, type := t.toNat, nr := nr.toNat, size := size.toNat } := by
  refine ⟨?_, ?_, ?_, ?_⟩
  · exact ioctl_number_recoverable 0#64 t nr 0#64 (by decide) ht hn (by decide)
  · exact ioctl_number_recoverable 1#64 t nr size (by decide) ht hn hs
  · exact ioctl_number_recoverable (2#64 ||| 1#64) t nr size (by decide) ht hn hs
  · exact ioctl_number_recoverable (2#64 ||| 1#64) t nr size (by decide) ht hn hs

/-- The numbers the driver uses are the kernel's (include/uapi/linux/nvme_ioctl.h), and its records have the kernel's
sizes. -/
example : NVME_IOCTL_ADMIN_CMD = 0xC0484E41 ∧ NVME_IOCTL_SUBMIT_IO = 0x40304E42 ∧ NVME_IOCTL_IO_CMD = 0xC0484E43 ∧
    NVME_IOCTL_ADMIN64_CMD = 0xC0504E47 ∧ goSizeof passthruFields = 72 ∧ goSizeof userIoFields = 48 := by decide

/-! ## C86: results of the ioctl wrapper -/

/-- C86: the wrapper reports success exactly if both the return value and the error number are zero. -/
theorem ioctl_success_iff (ret errno : Nat) : ioctlErr ret errno = none ↔ ret = 0 ∧ errno = 0 := by
  unfold ioctlErr
  by_cases h1 : errno = 0 <;> by_cases h2 : ret = 0 <;> simp [h1, h2]

/-- C86: an NVMe status `n` returned by the device and the operating-system error `n` give the same error value. -/
theorem nvme_status_looks_like_errno (n : Nat) (h : n ≠ 0) (r : Nat) :
    ioctlErr n 0 = some (.errno n) ∧ ioctlErr r n = some (.errno n) := by
  unfold ioctlErr
  simp [h]

/-- NVMe status 0x0d... below 0x86 are error numbers too: 2 is both "invalid field" and ENOENT. -/
example : (2 : Nat) ≠ 0 ∧ ioctlErr 2 0 = ioctlErr 0 2 := by decide

/-! ## C87: opening an NVMe device -/

/-- C87: opening issues exactly one Identify Controller command for 4096 bytes and succeeds exactly if the ioctl does; the
identity is then what the device delivered into a zeroed 4096-byte buffer. -/
theorem nvme_open (bufAddr : BitVec 64) (env : Prog.Env NvReq NvRep) (hist : Prog.Trace NvReq NvRep) :
    ∃ (k : KNvme) (r : NvRep), r = env hist (.cmd 0xC0484E41 k (some (zeros 4096))) ∧
      k.opcode = 0x06 ∧ k.nsid = 0 ∧ k.cdw10 = 1 ∧ k.cdw11 = 0 ∧ k.dataLen = 4096 ∧ k.addr = bufAddr ∧
      OutT.run env hist (nvOpen bufAddr) =
        (.ret (if r.errno ≠ 0 then .err (.errno r.errno) else if r.ret ≠ 0 then .err (.errno r.ret)
          else .ok (delivered (zeros 4096) (r.data.take 4096))),
         [(.cmd 0xC0484E41 k (some (zeros 4096)), r)]) := by
  obtain ⟨k, r, hr, h1, -, -, h2, -, -, -, -, h3, h4, h5, -, -, -, -, -, -, h6, hrun⟩ :=
    admin_passthru_faithful bufAddr identifyCmd env hist
  refine ⟨k, r, hr, h1, h2, h4, h5, h3, ?_, ?_⟩
  · rw [h6]
    unfold addrOf
    rw [if_neg (by decide), if_neg]
    show ¬ ((some (zeros 4096) : Option Bytes).getD []).length = 0
    rw [Option.getD_some, zeros_length]
    decide
  · unfold nvOpen
    rw [OutT.run_bind_ret env hist hrun]
    have hbuf : (if identifyCmd.dataAddr ≠ 0 then identifyCmd.dataBuffer
        else identifyCmd.dataBuffer.map (fun b => delivered b (r.data.take identifyCmd.dataLen.toNat))) =
        some (delivered (zeros 4096) (r.data.take 4096)) := by
      rw [if_neg (by decide)]; rfl
    rw [hbuf]
    have hb : identifyCmd.dataBuffer = some (zeros 4096) := rfl
    rw [hb]
    by_cases he : r.errno ≠ 0
    · simp only [if_pos he]; rfl
    · simp only [if_neg he]
      by_cases hre : r.ret ≠ 0
      · simp only [if_pos hre]; rfl
      · simp only [if_neg hre, Option.getD_some]
        rw [if_neg]
        · rfl
        · rw [delivered_length, zeros_length]; decide

example : (match (OutT.run (fun _ _ => { data := [0x4d, 0x14] }) [] (nvOpen 8192)).1 with
    | .ret (.ok d) => (d.length, d.take 3)
    | _ => (0, [])) = (4096, [0x4d, 0x14, 0]) := by decide +kernel

/-! ## C88: security commands through the handle on Linux NVMe -/

theorem interp_ask (f : DrvReq → NvM DrvRep) (q : DrvReq) {α : Type} (k : DrvRep → DrvM α) :
    OutT.interp f (OutT.ask q >>= k : DrvM α) = (f q >>= fun r => OutT.interp f (k r)) := rfl

theorem securityNvme_cdw10 (rw : Bool) (p : Byte) (c : BitVec 16) (b : Bytes) :
    (securityNvme rw p c b).cdw10.toNat = p.toNat * 16777216 + c.toNat * 256 := by
  have h0 : (securityNvme rw p c b).cdw10 =
      ((p.setWidth 32 &&& 0xff#32) <<< 24) ||| ((c.setWidth 32 &&& 0xffff#32) <<< 8) := rfl
  have hp := p.isLt
  have hc := c.isLt
  have h1 : (p.setWidth 32 &&& 0xff#32).toNat = p.toNat := by
    rw [BitVec.toNat_and, BitVec.toNat_setWidth]
    have := Nat.and_two_pow_sub_one_eq_mod (p.toNat % 2 ^ 32) 8
    exact this.trans (by omega)
  have h2 : (c.setWidth 32 &&& 0xffff#32).toNat = c.toNat := by
    rw [BitVec.toNat_and, BitVec.toNat_setWidth]
    have := Nat.and_two_pow_sub_one_eq_mod (c.toNat % 2 ^ 32) 16
    exact this.trans (by omega)
  rw [h0, BitVec.toNat_or, toNat_shl _ _ _ (by rw [h1]; omega), toNat_shl _ _ _ (by rw [h2]; omega), h1, h2,
    Nat.or_comm]
  exact or_mul_two_pow _ _ 24 (by omega)

/-- C88: on the Linux NVMe driver a security command through the handle becomes exactly one ioctl: an NVMe Security Send
(81h) or Security Receive (82h) with the caller's protocol and ComID, the buffer's length both as transfer length and as
data length, and the buffer exactly as supplied. The result is that of the ioctl; what the device delivers is found in the
buffer. Neither the caller's timeout nor the DMA flag has any effect: the kernel's default timeout (0) applies. -/
theorem nvme_security_end_to_end (id : Bytes) (info : DriveInfo) (rw dma : Bool) (p : Byte) (c : BitVec 16) (buf : Bytes)
    (to : Nat) (bufAddr : BitVec 64) (behind : Nat → Byte) (hne : buf ≠ []) (hlen : buf.length < 4294967296)
    (env : Prog.Env NvReq NvRep) (hist : Prog.Trace NvReq NvRep) :
    let h : Handle := { dh := some { ata := false, nvme := true, identity := id }, info := info }
    ∃ (k : KNvme) (r : NvRep), r = env hist (.cmd 0xC0484E41 k (some buf)) ∧
      k.opcode = (if rw then 0x81 else 0x82) ∧
      securityOf k = { secp := p.toNat, spsp := c.toNat, nssf := 0, tl := buf.length } ∧
      k.dataLen.toNat = buf.length ∧ k.addr = bufAddr ∧ k.timeoutMs = 0 ∧ k.nsid = 0 ∧
      ∃ rep : SecRep, OutT.run env hist (OutT.interp (nvDriver bufAddr behind) (h.securityCommand rw dma p c buf to)) =
        (.ret rep, [(.cmd 0xC0484E41 k (some buf), r)]) ∧
      rep.err = (if r.errno ≠ 0 then some (.errno r.errno) else if r.ret ≠ 0 then some (.errno r.ret) else none) ∧
      rep.data = delivered buf r.data ∧ rep.behind = behind := by
  intro h
  have hfull : storeInto buf buf = buf := by
    unfold storeInto copyAt; simp
  obtain ⟨k, r, hr, h1, -, -, h2, -, -, -, -, h3, h4, h5, -, -, -, -, h6, -, h7, hrun⟩ :=
    admin_passthru_faithful bufAddr (securityNvme rw p c buf) env hist
  have hdl : (securityNvme rw p c buf).dataLen.toNat = buf.length := by
    show (BitVec.ofNat 32 buf.length).toNat = _
    rw [BitVec.toNat_ofNat, Nat.mod_eq_of_lt (by omega)]
  have h11 : (securityNvme rw p c buf).cdw11.toNat = buf.length := hdl
  refine ⟨k, r, hr, ?_, ?_, ?_, ?_, h6, h2, ?_⟩
  · rw [h1]; cases rw <;> rfl
  · unfold securityOf
    rw [h4, h5, h11, securityNvme_cdw10]
    have hp := p.isLt
    have hc := c.isLt
    rw [Security.mk.injEq]
    exact ⟨by omega, by omega, by omega, rfl⟩
  · rw [h3, hdl]
  · rw [h7]
    unfold addrOf
    rw [if_neg (by exact fun hx => hx rfl), if_neg]
    show ¬ ((some buf : Option Bytes).getD []).length = 0
    rw [Option.getD_some]
    intro hz
    exact hne (List.length_eq_zero_iff.1 hz)
  · have hdelta : (if (securityNvme rw p c buf).dataAddr ≠ 0 then (securityNvme rw p c buf).dataBuffer
        else (securityNvme rw p c buf).dataBuffer.map
          (fun b => delivered b (r.data.take (securityNvme rw p c buf).dataLen.toNat))) =
        some (delivered buf r.data) := by
      rw [if_neg (fun hx => hx rfl), hdl]
      show some (delivered buf (r.data.take buf.length)) = _
      congr 1
      unfold delivered
      rw [List.take_take, Nat.min_self]
    rw [hdelta] at hrun
    refine ⟨{ err := if r.errno ≠ 0 then some (.errno r.errno) else if r.ret ≠ 0 then some (.errno r.ret) else none,
              data := storeInto buf (delivered buf r.data), behind := behind }, ?_, rfl, ?_, rfl⟩
    · have hprog : OutT.interp (nvDriver bufAddr behind) (h.securityCommand rw dma p c buf to) =
          (nvAdmin bufAddr (securityNvme rw p c buf) >>= fun x =>
            OutT.ret { err := x.1, data := storeInto buf (x.2.getD []), behind := behind } : NvM SecRep) := by
        have : storeInto buf buf = buf := hfull
        have h2 : OutT.interp (nvDriver bufAddr behind) (h.securityCommand rw dma p c buf to) =
          OutT.interp (nvDriver bufAddr behind) (OutT.ask (.nvmeAdmin (securityNvme rw p c (storeInto buf buf))) >>= fun r2 =>
            OutT.ret { err := r2.err, data := storeInto (storeInto buf buf) r2.data, behind := r2.behind } : DrvM SecRep) := rfl
        rw [h2, this, interp_ask]
        rfl
      rw [hprog, OutT.run_bind_ret env hist hrun]
      rfl
    · show storeInto buf (delivered buf r.data) = _
      exact storeInto_full _ _ (delivered_length _ _)

/-- A two-byte send whose device answers with a status. -/
example :
    let h : Handle := { dh := some { ata := false, nvme := true, identity := [] } }
    let out := OutT.run (fun _ _ => { ret := 1 }) []
      (OutT.interp (nvDriver 4096 (fun _ => 0)) (h.securityCommand true false 1 0x07fe [0xaa, 0xbb] 5))
    out.2 = [(.cmd 0xC0484E41 (adminRecord (securityNvme true 1 0x07fe [0xaa, 0xbb]) 4096) (some [0xaa, 0xbb]),
        { ret := 1 })] ∧
      (match out.1 with | .ret r => (r.err, r.data) | _ => (none, [])) = (some (.errno 1), [0xaa, 0xbb]) := by
  decide +kernel

end Dparm
