import Verif.Lemmas.Handle
import Verif.Lemmas.Struc
import Verif.Spec.Handle
/-!
# The drive handle (C44 to C50, C79)
-/
namespace Dparm
open Spec

/-- **C44.** `SecurityCommand` on an open handle asks the driver first, with the caller's arguments; on success
it stops. After a failure an ATA driver gets exactly one taskfile command and an NVMe driver exactly one admin
command, whose error is the final result; any other driver's error is returned. A closed handle fails with
"not supported" without any exchange. -/
theorem security_fallback (h : Handle) (rw dma : Bool) (p : Byte) (c : BitVec 16) (buf : Bytes) (to : Nat)
    (env : Prog.Env DrvReq DrvRep) (hist : Prog.Trace DrvReq DrvRep) :
    ∃ res t, OutT.run env hist (h.securityCommand rw dma p c buf to) = (.ret res, t) ∧
      (h.dh = none → res.err = some (.msg "not supported") ∧ res.data = buf ∧ t = []) ∧
      ∀ d, h.dh = some d → ∃ r1 rest, t = (.sec rw dma p c buf to, r1) :: rest ∧
        (r1.err = none → rest = [] ∧ res.err = none ∧ res.data = storeInto buf r1.data) ∧
        ∀ e, r1.err = some e →
          (d.ata = true → ∃ tf r2, rest = [(.taskFile rw dma tf (storeInto buf r1.data) to, r2)] ∧ res.err = r2.err ∧
            res.data = storeInto (storeInto buf r1.data) r2.data) ∧
          (d.ata = false → d.nvme = true → ∃ cmd r2, rest = [(.nvmeAdmin cmd, r2)] ∧ res.err = r2.err ∧
            cmd.dataBuffer = some (storeInto buf r1.data) ∧ res.data = storeInto (storeInto buf r1.data) r2.data) ∧
          (d.ata = false → d.nvme = false → rest = [] ∧ res.err = some e ∧ res.data = storeInto buf r1.data) := by
  unfold Handle.securityCommand
  cases hd : h.dh with
  | none => exact ⟨_, _, rfl, fun _ => ⟨rfl, rfl, rfl⟩, fun d hh => by simp at hh⟩
  | some d =>
    simp only
    rw [OutT.run_ask_bind]
    obtain ⟨q, hq⟩ : ∃ q, q = env hist (.sec rw dma p c buf to) := ⟨_, rfl⟩
    rw [← hq]
    cases he : q.err with
    | none =>
      refine ⟨_, _, rfl, fun hh => by simp at hh, ?_⟩
      intro d' hd'
      exact ⟨q, [], rfl, fun _ => ⟨rfl, rfl, rfl⟩, fun e hh => by rw [he] at hh; simp at hh⟩
    | some e =>
      simp only
      cases ha : d.ata
      · cases hn : d.nvme
        · simp only [Bool.false_eq_true, if_false]
          refine ⟨_, _, rfl, fun hh => by simp at hh, ?_⟩
          intro d' hd'
          simp only [Option.some.injEq] at hd'
          subst hd'
          refine ⟨q, [], rfl, fun hh => by rw [he] at hh; simp at hh, ?_⟩
          intro e' he'
          rw [he] at he'
          simp only [Option.some.injEq] at he'
          subst he'
          refine ⟨fun x => by rw [ha] at x; simp at x, fun _ x => by rw [hn] at x; simp at x, fun _ _ => ⟨rfl, rfl, rfl⟩⟩
        · simp only [if_true, Bool.false_eq_true, if_false]
          rw [OutT.run_ask_bind]
          refine ⟨_, _, rfl, fun hh => by simp at hh, ?_⟩
          intro d' hd'
          simp only [Option.some.injEq] at hd'
          subst hd'
          refine ⟨q, _, rfl, fun hh => by rw [he] at hh; simp at hh, ?_⟩
          intro e' he'
          refine ⟨fun x => by rw [ha] at x; simp at x, fun _ _ => ⟨_, _, rfl, rfl, rfl, rfl⟩,
            fun _ x => by rw [hn] at x; simp at x⟩
      · simp only [if_true]
        rw [OutT.run_ask_bind]
        refine ⟨_, _, rfl, fun hh => by simp at hh, ?_⟩
        intro d' hd'
        simp only [Option.some.injEq] at hd'
        subst hd'
        refine ⟨q, _, rfl, fun hh => by rw [he] at hh; simp at hh, ?_⟩
        intro e' he'
        exact ⟨fun _ => ⟨_, _, rfl, rfl, rfl⟩, fun x => by rw [ha] at x; simp at x, fun x => by rw [ha] at x; simp at x⟩

/-- The requests `SecurityCommand` can make. -/
theorem security_requests (h : Handle) (rw dma : Bool) (p : Byte) (c : BitVec 16) (buf : Bytes) (to : Nat)
    (env : Prog.Env DrvReq DrvRep) (hist : Prog.Trace DrvReq DrvRep) (q : DrvReq) (r : DrvRep)
    (hq : (q, r) ∈ (OutT.run env hist (h.securityCommand rw dma p c buf to)).2) :
    q = .sec rw dma p c buf to ∨
    (∃ b, b.length = buf.length ∧ q = .taskFile rw dma (securityTf rw dma p c buf.length) b to) ∨
    (∃ b, b.length = buf.length ∧ q = .nvmeAdmin (securityNvme rw p c b)) := by
  unfold Handle.securityCommand at hq
  cases hd : h.dh with
  | none => rw [hd] at hq; simp at hq
  | some d =>
    rw [hd] at hq
    simp only at hq
    rw [OutT.run_ask_bind] at hq
    obtain ⟨a, ha⟩ : ∃ a, a = env hist (.sec rw dma p c buf to) := ⟨_, rfl⟩
    rw [← ha] at hq
    rcases List.mem_cons.1 hq with h1 | h1
    · left; exact (Prod.mk.inj h1).1
    · right
      cases he : a.err with
      | none => rw [he] at h1; simp at h1
      | some e =>
        rw [he] at h1
        simp only at h1
        cases hat : d.ata
        · cases hn : d.nvme
          · rw [hat, hn] at h1; simp at h1
          · rw [hat, hn] at h1
            simp only [if_true, Bool.false_eq_true, if_false] at h1
            rw [OutT.run_ask_bind] at h1
            simp only [OutT.run_ret, List.mem_singleton] at h1
            right
            exact ⟨storeInto buf a.data, storeInto_length _ _, (Prod.mk.inj h1).1⟩
        · rw [hat] at h1
          simp only [if_true] at h1
          rw [OutT.run_ask_bind] at h1
          simp only [OutT.run_ret, List.mem_singleton] at h1
          left
          refine ⟨storeInto buf a.data, storeInto_length _ _, ?_⟩
          rw [(Prod.mk.inj h1).1, storeInto_length]

/-- **C45.** Every taskfile `SecurityCommand` sends: opcode 5E/5F to send and 5C/5D to receive, protocol in the
feature register, ComID across LBA mid (low byte) and LBA high (high byte), sector count `len / 512` modulo 256,
all other registers 0; the count describes the buffer exactly if the length is a multiple of 512 below
131072. -/
theorem ata_security_registers (h : Handle) (rw dma : Bool) (p : Byte) (c : BitVec 16) (buf : Bytes) (to : Nat)
    (env : Prog.Env DrvReq DrvRep) (hist : Prog.Trace DrvReq DrvRep) (rw' dma' : Bool) (tf : Tf) (data : Bytes) (to' : Nat)
    (r : DrvRep)
    (hq : (.taskFile rw' dma' tf data to', r) ∈ (OutT.run env hist (h.securityCommand rw dma p c buf to)).2) :
    rw' = rw ∧ dma' = dma ∧ to' = to ∧ data.length = buf.length ∧
    tf.command.toNat = (match rw, dma with
      | true, false => 0x5e | true, true => 0x5f | false, false => 0x5c | false, true => 0x5d) ∧
    tf.lob.feat = p ∧ tf.lob.lbam.toNat + 256 * tf.lob.lbah.toNat = c.toNat ∧
    tf.lob.nsect.toNat = buf.length / 512 % 256 ∧
    (tf.lob.nsect.toNat * 512 = buf.length ↔ buf.length % 512 = 0 ∧ buf.length < 131072) ∧
    tf.dev = 0 ∧ tf.error = 0 ∧ tf.status = 0 ∧ tf.isLba48 = 0 ∧ tf.lob.lbal = 0 ∧ tf.hob = {} := by
  rcases security_requests h rw dma p c buf to env hist _ _ hq with hh | ⟨b, hb, hh⟩ | ⟨b, hb, hh⟩
  · simp at hh
  · simp only [DrvReq.taskFile.injEq] at hh
    obtain ⟨rfl, rfl, rfl, rfl, rfl⟩ := hh
    have hn : (securityTf rw' dma' p c buf.length).lob.nsect.toNat = buf.length / 512 % 256 := by
      simp [securityTf, BitVec.toNat_ofNat]
    refine ⟨rfl, rfl, rfl, hb, ?_, rfl, ?_, hn, ?_, rfl, rfl, rfl, rfl, rfl, rfl⟩
    · cases rw' <;> cases dma' <;> rfl
    · have := c.isLt
      simp only [securityTf, BitVec.toNat_setWidth, BitVec.toNat_ushiftRight, Nat.shiftRight_eq_div_pow]
      omega
    · rw [hn]
      omega
  · simp at hh

/-- **C46.** Every admin command `SecurityCommand` sends: opcode 81h to send and 82h to receive; protocol in bits
31..24 of CDW10, ComID in bits 23..8, zero below; the length in CDW11 and in the data length (exactly, below
2^32); every other field is 0. -/
theorem nvme_security_fields (h : Handle) (rw dma : Bool) (p : Byte) (c : BitVec 16) (buf : Bytes) (to : Nat)
    (env : Prog.Env DrvReq DrvRep) (hist : Prog.Trace DrvReq DrvRep) (cmd : NvmeCmd) (r : DrvRep)
    (hq : (.nvmeAdmin cmd, r) ∈ (OutT.run env hist (h.securityCommand rw dma p c buf to)).2) :
    cmd.opcode.toNat = (if rw then 0x81 else 0x82) ∧
    cmd.cdw10.toNat = p.toNat * 2 ^ 24 + c.toNat * 2 ^ 8 ∧
    cmd.cdw11.toNat = buf.length % 2 ^ 32 ∧ cmd.dataLen.toNat = buf.length % 2 ^ 32 ∧
    (∃ b, cmd.dataBuffer = some b ∧ b.length = buf.length ∧
      cmd = { opcode := cmd.opcode, cdw10 := cmd.cdw10, cdw11 := cmd.cdw11, dataLen := cmd.dataLen,
              dataBuffer := some b }) := by
  rcases security_requests h rw dma p c buf to env hist _ _ hq with hh | ⟨b, hb, hh⟩ | ⟨b, hb, hh⟩
  · simp at hh
  · simp at hh
  · simp only [DrvReq.nvmeAdmin.injEq] at hh
    subst hh
    refine ⟨by cases rw <;> rfl, ?_, ?_, ?_, b, rfl, hb, rfl⟩
    · have hp := p.isLt
      have hc := c.isLt
      have e1 : (p.setWidth 32 &&& 0xff#32) = p.setWidth 32 := by
        apply BitVec.eq_of_toNat_eq
        rw [BitVec.toNat_and, BitVec.toNat_setWidth, Nat.mod_eq_of_lt (a := p.toNat) (by omega)]
        exact (Nat.and_two_pow_sub_one_eq_mod p.toNat 8).trans (Nat.mod_eq_of_lt hp)
      have e2 : (c.setWidth 32 &&& 0xffff#32) = c.setWidth 32 := by
        apply BitVec.eq_of_toNat_eq
        rw [BitVec.toNat_and, BitVec.toNat_setWidth, Nat.mod_eq_of_lt (a := c.toNat) (by omega)]
        exact (Nat.and_two_pow_sub_one_eq_mod c.toNat 16).trans (Nat.mod_eq_of_lt hc)
      show (((p.setWidth 32 &&& 0xff#32) <<< 24) ||| ((c.setWidth 32 &&& 0xffff#32) <<< 8) : BitVec 32).toNat = _
      rw [e1, e2, BitVec.toNat_or, BitVec.toNat_shiftLeft, BitVec.toNat_shiftLeft, BitVec.toNat_setWidth,
        BitVec.toNat_setWidth, Nat.mod_eq_of_lt (a := p.toNat) (by omega), Nat.mod_eq_of_lt (a := c.toNat) (by omega),
        Nat.shiftLeft_eq, Nat.shiftLeft_eq, Nat.mod_eq_of_lt (by omega), Nat.mod_eq_of_lt (by omega),
        Nat.mul_comm p.toNat, Nat.two_pow_add_eq_or_of_lt (by omega)]
    · simp [securityNvme, BitVec.toNat_ofNat, hb]
    · simp [securityNvme, BitVec.toNat_ofNat, hb]


/-! ## C47: closing -/

theorem closed_exec (env : Prog.Env DrvReq DrvRep) (hist : Prog.Trace DrvReq DrvRep) (h : Handle) (op : HandleOp)
    (hd : h.dh = none) : ∃ h', op.exec env hist h = (closedReport op, h', []) ∧ h'.dh = none := by
  obtain ⟨dh, info⟩ := h
  simp only at hd
  subst hd
  cases op with
  | init => exact ⟨_, rfl, rfl⟩
  | discovery => exact ⟨_, rfl, rfl⟩
  | security => exact ⟨_, rfl, rfl⟩
  | taskFile => exact ⟨_, rfl, rfl⟩
  | logPage => exact ⟨_, rfl, rfl⟩
  | drivingType => exact ⟨_, rfl, rfl⟩
  | driverName => exact ⟨_, rfl, rfl⟩
  | close => exact ⟨_, rfl, rfl⟩

theorem closed_execAll (env : Prog.Env DrvReq DrvRep) (ops : List HandleOp) :
    ∀ (hist : Prog.Trace DrvReq DrvRep) (h : Handle), h.dh = none →
    (execAll env hist h ops).1 = ops.map closedReport ∧ (execAll env hist h ops).2.1.dh = none ∧
    (execAll env hist h ops).2.2 = [] := by
  induction ops with
  | nil => intro hist h hd; exact ⟨rfl, hd, rfl⟩
  | cons op ops ih =>
    intro hist h hd
    obtain ⟨h', e, hd'⟩ := closed_exec env hist h op hd
    simp only [execAll, e]
    obtain ⟨a, b, c⟩ := ih (hist ++ []) h' hd'
    exact ⟨by rw [a]; rfl, b, by rw [c]; rfl⟩

/-- Programs that never close the driver keep it (if they return). -/
theorem tcgDiscovery0_dh (h h' : Handle) (e : Option GoErr) (env : Prog.Env DrvReq DrvRep)
    (hist : Prog.Trace DrvReq DrvRep) (hh : (OutT.run env hist h.tcgDiscovery0).1 = .ret (h', e)) : h'.dh = h.dh := by
  obtain ⟨r, t, hr, _⟩ := securityCommand_returns h false false 0x01 0x0001 (zeros Handle.discoverySize) 3 env hist
  cases he : r.err with
  | some e0 =>
    rw [discovery_run_err hr he] at hh
    simp only [Out.ret.injEq, Prod.mk.injEq] at hh
    rw [← hh.1]
  | none =>
    rw [discovery_run_ok hr he] at hh
    split at hh
    · simp at hh
    · simp only [Out.ret.injEq, Prod.mk.injEq] at hh
      rw [← hh.1]

theorem security_no_close (h : Handle) (rw dma : Bool) (p : Byte) (c : BitVec 16) (buf : Bytes) (to : Nat)
    (env : Prog.Env DrvReq DrvRep) (hist : Prog.Trace DrvReq DrvRep) :
    closes (OutT.run env hist (h.securityCommand rw dma p c buf to)).2 = 0 := by
  unfold closes
  rw [List.length_eq_zero_iff, List.filter_eq_nil_iff]
  rintro ⟨q, r⟩ hq
  rcases security_requests h rw dma p c buf to env hist q r hq with rfl | ⟨b, _, rfl⟩ | ⟨b, _, rfl⟩ <;> simp

theorem discovery_no_close (h : Handle) (env : Prog.Env DrvReq DrvRep) (hist : Prog.Trace DrvReq DrvRep) :
    closes (OutT.run env hist h.tcgDiscovery0).2 = 0 := by
  obtain ⟨r, t, hr, _⟩ := securityCommand_returns h false false 0x01 0x0001 (zeros Handle.discoverySize) 3 env hist
  have hc := security_no_close h false false 0x01 0x0001 (zeros Handle.discoverySize) 3 env hist
  rw [hr] at hc
  cases he : r.err with
  | some e0 => rw [discovery_run_err hr he]; exact hc
  | none =>
    rw [discovery_run_ok hr he]
    split <;> exact hc

/-- The outcome of `Init`: an error before discovery, a panic, or the discovery's exchanges. -/
theorem init_run (h : Handle) (env : Prog.Env DrvReq DrvRep) (hist : Prog.Trace DrvReq DrvRep) :
    ((OutT.run env hist h.init).2 = [] ∧ ((OutT.run env hist h.init).1 = .panic ∨
        ∃ i e, (OutT.run env hist h.init).1 = .ret ({ h with info := i }, some e))) ∨
    ∃ i, (OutT.run env hist h.init).2 = (OutT.run env hist (Handle.tcgDiscovery0 { h with info := i })).2 ∧
      ((OutT.run env hist h.init).1 = .panic ∨ (OutT.run env hist h.init).1 = .running ∨
        ∃ h' e, (OutT.run env hist (Handle.tcgDiscovery0 { h with info := i })).1 = .ret (h', e) ∧
          (OutT.run env hist h.init).1 = .ret (h', none)) := by
  unfold Handle.init
  rw [OutT.run_bind]
  cases initAtaPart h.dh h.info with
  | panic => left; exact ⟨rfl, Or.inl rfl⟩
  | ret x =>
    obtain ⟨i1, e1⟩ := x
    simp only [OutT.run_lift_ret]
    cases e1 with
    | some e => left; exact ⟨rfl, Or.inr ⟨_, _, rfl⟩⟩
    | none =>
      simp only
      rw [OutT.run_bind]
      cases initNvmePart h.dh i1 with
      | panic => left; exact ⟨rfl, Or.inl rfl⟩
      | ret x =>
        obtain ⟨i2, e2⟩ := x
        simp only [OutT.run_lift_ret]
        cases e2 with
        | some e => left; exact ⟨rfl, Or.inr ⟨_, _, rfl⟩⟩
        | none =>
          right
          refine ⟨Handle.makeMap i2, ?_⟩
          simp only [List.append_nil, List.nil_append]
          rw [OutT.run_bind]
          rcases hs : OutT.run env hist (Handle.tcgDiscovery0 { h with info := Handle.makeMap i2 }) with ⟨o, t⟩
          cases o with
          | panic => exact ⟨rfl, Or.inl rfl⟩
          | running => exact ⟨rfl, Or.inr (Or.inl rfl)⟩
          | ret x =>
            obtain ⟨h', e⟩ := x
            refine ⟨by simp, Or.inr (Or.inr ⟨h', e, rfl, by simp⟩)⟩

/-- One operation on an open handle: it closes the driver only if it is `Close`. -/
theorem open_exec (env : Prog.Env DrvReq DrvRep) (hist : Prog.Trace DrvReq DrvRep) (h : Handle) (op : HandleOp)
    (d : Driver) (hd : h.dh = some d) :
    (op = .close ∧ (op.exec env hist h).2.1.dh = none ∧ closes (op.exec env hist h).2.2 = 1) ∨
    (op ≠ .close ∧ (op.exec env hist h).2.1.dh = some d ∧ closes (op.exec env hist h).2.2 = 0) := by
  cases op with
  | close =>
    left
    refine ⟨rfl, ?_⟩
    simp only [HandleOp.exec, HandleOp.prog, Handle.close, hd]
    exact ⟨rfl, rfl⟩
  | init =>
    right
    refine ⟨by simp, ?_⟩
    simp only [HandleOp.exec, HandleOp.prog]
    rw [OutT.run_bind]
    rcases hs : OutT.run env hist h.init with ⟨o, t⟩
    have hi := init_run h env hist
    rw [hs] at hi
    simp only at hi
    have ht : closes t = 0 := by
      rcases hi with ⟨rfl, _⟩ | ⟨i, rfl, _⟩
      · rfl
      · exact discovery_no_close _ env hist
    cases o with
    | panic => exact ⟨hd, ht⟩
    | running => exact ⟨hd, ht⟩
    | ret x =>
      obtain ⟨h', e⟩ := x
      simp only [OutT.run_ret, List.append_nil]
      refine ⟨?_, ht⟩
      rcases hi with ⟨_, hx | ⟨i, e, hx⟩⟩ | ⟨i, _, hx | hx | ⟨h2, e, hy, hx⟩⟩
      · simp at hx
      · simp only [Out.ret.injEq, Prod.mk.injEq] at hx; rw [hx.1]; exact hd
      · simp at hx
      · simp at hx
      · simp only [Out.ret.injEq, Prod.mk.injEq] at hx
        rw [hx.1, tcgDiscovery0_dh _ _ _ _ _ hy]
        exact hd
  | discovery =>
    right
    refine ⟨by simp, ?_⟩
    simp only [HandleOp.exec, HandleOp.prog]
    rw [OutT.run_bind]
    have ht := discovery_no_close h env hist
    rcases hs : OutT.run env hist h.tcgDiscovery0 with ⟨o, t⟩
    rw [hs] at ht
    cases o with
    | panic => exact ⟨hd, ht⟩
    | running => exact ⟨hd, ht⟩
    | ret x =>
      obtain ⟨h', e⟩ := x
      simp only [OutT.run_ret, List.append_nil]
      exact ⟨by rw [tcgDiscovery0_dh h h' e env hist (by rw [hs]), hd], ht⟩
  | security rw dma p c b to =>
    right
    refine ⟨by simp, ?_⟩
    have ht := security_no_close h rw dma p c b to env hist
    obtain ⟨r, t, hr, _⟩ := securityCommand_returns h rw dma p c b to env hist
    simp only [HandleOp.exec, HandleOp.prog]
    rw [OutT.run_bind_ret env hist hr]
    rw [hr] at ht
    simp only [OutT.run_ret, List.append_nil]
    exact ⟨hd, ht⟩
  | taskFile rw dma tf b to =>
    right
    refine ⟨by simp, ?_⟩
    simp only [HandleOp.exec, HandleOp.prog, Handle.ataDoTaskFileCmd, hd]
    cases d.ata <;> exact ⟨hd, rfl⟩
  | logPage n l r sz =>
    right
    refine ⟨by simp, ?_⟩
    simp only [HandleOp.exec, HandleOp.prog, Handle.nvmeGetLogPage, hd]
    cases d.nvme <;> exact ⟨hd, rfl⟩
  | drivingType =>
    right
    refine ⟨by simp, ?_⟩
    simp only [HandleOp.exec, HandleOp.prog, Handle.getDrivingType, hd]
    exact ⟨hd, rfl⟩
  | driverName =>
    right
    refine ⟨by simp, ?_⟩
    simp only [HandleOp.exec, HandleOp.prog, Handle.getDriverName, hd]
    exact ⟨hd, rfl⟩

/-- **C47.** In every history of operations on a handle, with callers recovering from panics or not: the driver
is closed at most once, exactly once if the handle had a driver and some operation is `Close`. -/
theorem close_once (env : Prog.Env DrvReq DrvRep) (ops : List HandleOp) :
    ∀ (hist : Prog.Trace DrvReq DrvRep) (h : Handle),
    closes (execAll env hist h ops).2.2 = if h.dh.isSome ∧ HandleOp.close ∈ ops then 1 else 0 := by
  have happ : ∀ a b, closes (a ++ b) = closes a + closes b := by
    intro a b; simp [closes]
  induction ops with
  | nil => intro hist h; simp [execAll, closes]
  | cons op ops ih =>
    intro hist h
    cases hd : h.dh with
    | none =>
      rw [(closed_execAll env (op :: ops) hist h hd).2.2]
      simp [closes]
    | some d =>
      simp only [execAll]
      rw [happ]
      rcases open_exec env hist h op d hd with ⟨rfl, h1, h2⟩ | ⟨h0, h1, h2⟩
      · rw [h2, (closed_execAll env ops _ _ h1).2.2]
        simp [closes]
      · rw [h2, ih, h1]
        have : (HandleOp.close ∈ op :: ops) ↔ HandleOp.close ∈ ops := by
          simp only [List.mem_cons]
          constructor
          · rintro (e | e)
            · exact absurd e.symm h0
            · exact e
          · exact Or.inr
        simp [this]

theorem execAll_append (env : Prog.Env DrvReq DrvRep) (a b : List HandleOp) :
    ∀ (hist : Prog.Trace DrvReq DrvRep) (h : Handle),
    execAll env hist h (a ++ b) =
      ((execAll env hist h a).1 ++ (execAll env (hist ++ (execAll env hist h a).2.2) (execAll env hist h a).2.1 b).1,
       (execAll env (hist ++ (execAll env hist h a).2.2) (execAll env hist h a).2.1 b).2.1,
       (execAll env hist h a).2.2 ++ (execAll env (hist ++ (execAll env hist h a).2.2) (execAll env hist h a).2.1 b).2.2) := by
  induction a with
  | nil => intro hist h; simp [execAll]
  | cons op a ih => intro hist h; simp [execAll, ih, List.append_assoc]

/-- **C47.** After `Close`, whatever follows: nothing reaches the driver any more, and every operation reports
what `closedReport` says: "not supported" for security commands and discovery, "not supported in this driver"
for taskfile and log-page calls, a panic for the two name queries. -/
theorem close_final (env : Prog.Env DrvReq DrvRep) (hist : Prog.Trace DrvReq DrvRep) (h : Handle)
    (before after : List HandleOp) :
    ∃ rs, (execAll env hist h (before ++ .close :: after)).1 = rs ++ after.map closedReport ∧
      rs.length = before.length + 1 ∧
      (execAll env hist h (before ++ .close :: after)).2.2 = (execAll env hist h (before ++ [.close])).2.2 := by
  have hsplit : before ++ HandleOp.close :: after = (before ++ [.close]) ++ after := by simp
  have hlen : ∀ (ops : List HandleOp) (hist : Prog.Trace DrvReq DrvRep) (h : Handle),
      (execAll env hist h ops).1.length = ops.length := by
    intro ops
    induction ops with
    | nil => intro hist h; rfl
    | cons op ops ih => intro hist h; simp [execAll, ih]
  have hclosed : (execAll env hist h (before ++ [.close])).2.1.dh = none := by
    rw [execAll_append]
    simp only [execAll]
    generalize (execAll env hist h before).2.1 = h1
    cases hd : h1.dh with
    | none => exact (closed_exec env _ h1 .close hd).elim (fun h' hh => by rw [hh.1]; exact hh.2)
    | some d =>
      rcases open_exec env (hist ++ (execAll env hist h before).2.2) h1 .close d hd with ⟨_, h2, _⟩ | ⟨h0, _⟩
      · exact h2
      · exact absurd rfl h0
  refine ⟨(execAll env hist h (before ++ [.close])).1, ?_, ?_, ?_⟩
  · rw [hsplit, execAll_append env (before ++ [HandleOp.close]) after]
    rw [(closed_execAll env after _ _ hclosed).1]
  · rw [hlen]; simp
  · rw [hsplit, execAll_append env (before ++ [HandleOp.close]) after]
    rw [(closed_execAll env after _ _ hclosed).2.2, List.append_nil]

example : closes (execAll (fun _ _ => {}) [] { dh := some { ata := true, nvme := false, identity := [] } }
    [.driverName, .close, .close, .security true false 1 1 [1, 2, 3] 5]).2.2 = 1 ∧
    (execAll (fun _ _ => {}) [] { dh := some { ata := true, nvme := false, identity := [] } }
    [.driverName, .close, .close, .security true false 1 1 [1, 2, 3] 5]).1 =
      [.value, .value, .value, .err (some (.msg "not supported"))] := by decide

/-- C44 to C46 have cases: an ATA driver whose own command fails gets the taskfile, an NVMe driver the admin
command. -/
example : ((OutT.run (fun _ _ => { err := some .eof }) [] (Handle.securityCommand
    { dh := some { ata := true, nvme := false, identity := [] } } true false 1 0x07fe (zeros 1024) 5)).2[1]?).map (·.1) =
    some (.taskFile true false { command := 0x5e, lob := { feat := 1, nsect := 2, lbam := 0xfe, lbah := 0x07 } }
      (zeros 1024) 5) := by decide +kernel
example : ((OutT.run (fun _ _ => { err := some .eof }) [] (Handle.securityCommand
    { dh := some { ata := false, nvme := true, identity := [] } } false false 1 0x07fe (zeros 512) 5)).2[1]?).map (·.1) =
    some (.nvmeAdmin { opcode := 0x82, dataBuffer := some (zeros 512), dataLen := 512, cdw10 := 0x0107fe00,
                       cdw11 := 512 }) := by decide +kernel

end Dparm
