import Verif.Lemmas.TcgScsi
import Verif.Spec.HandleSystem
import Verif.Props.Nvme
/-!
# One ATA command on a SCSI generic drive, as system calls
-/
namespace Dparm
open Spec

theorem sgTask_data (rw dma : Bool) (tf : Tf) (data : Option Bytes) (addr to : Nat) (hlen : (data.getD []).length < 4294967296)
    {x : Dxfer} {d1 : Option Bytes} {q : SgReq} {r : SgRep} (hq : q = sgTaskReq rw dma tf (sgZeroOut rw data) to x)
    (hn : data = none → x = .sliceHeader ∧ d1 = none)
    (hs : ∀ d, sgZeroOut rw data = some d → ∃ a c d', x = .mem a c ∧ a % 512 = 0 ∧ d1 = some d' ∧ d'.length = d.length ∧
        c.length = d.length ∧ (rw = true → c = d) ∧
        (addr % 512 = 0 → a = addr ∧ c = d ∧ d' = q.kernelStore d r) ∧
        (addr % 512 ≠ 0 → (rw = false → c = zeros d.length) ∧ (rw = true ∨ r.err ≠ none → d' = d) ∧
          (rw = false → r.err = none → d' = q.kernelStore (zeros d.length) r))) {rep : LRep} (hrep : rep.sg = r) :
    AtaData rw q rep data d1 ∧ (data.isSome → (d1.getD []).length = (data.getD []).length ∧ d1.isSome) := by
  cases data with
  | none =>
    obtain ⟨rfl, rfl⟩ := hn rfl
    exact ⟨⟨by rw [hq]; rfl, rfl⟩, fun h => by cases h⟩
  | some b =>
    obtain ⟨d, hz, hdv⟩ : ∃ d, sgZeroOut rw (some b) = some d ∧ d = (if rw then zeros b.length else b) := by
      cases rw
      · exact ⟨_, rfl, rfl⟩
      · exact ⟨_, rfl, rfl⟩
    obtain ⟨a, m, d', hx, ha, hd1, hl, hcl, hw1, hal, hun⟩ := hs d hz
    have hdl : d.length = b.length := by rw [hdv]; cases rw <;> simp
    have hqx : q.dxferp = .mem a m := by rw [hq, hx]; rfl
    have hdir : q.dir = if rw then -2 else -3 := by rw [hq, hz]; cases rw <;> rfl
    have hdxl : q.dxferLen = d.length := by
      rw [hq, hz]
      show (BitVec.ofNat 32 d.length).toNat = _
      rw [BitVec.toNat_ofNat, Nat.mod_eq_of_lt (by rw [hdl]; exact hlen)]
    have hks : ∀ m : Bytes, m.length = d.length → rw = false → q.kernelStore m r = delivered m r.data := by
      intro m hm hw
      unfold SgReq.kernelStore
      rw [if_pos (by rw [hdir, hw]; rfl), hdxl, ← hm, storeInto_eq_delivered]
      unfold delivered
      simp only [List.take_take, Nat.min_self]
    subst hrep
    refine ⟨⟨a, m, d', hqx, ha, hd1, ?_⟩, fun _ => by rw [hd1]; exact ⟨hl.trans hdl, rfl⟩⟩
    cases hw : rw with
    | true =>
      have hd0 : d = zeros b.length := by rw [hdv, hw]; rfl
      rw [if_pos rfl]
      refine ⟨by rw [hw1 hw, hd0], ?_⟩
      by_cases h0 : addr % 512 = 0
      · rw [(hal h0).2.2]
        unfold SgReq.kernelStore
        rw [if_neg (by rw [hdir, hw]; decide), hd0]
      · rw [(hun h0).2.1 (.inl hw), hd0]
    | false =>
      rw [if_neg (by simp)]
      have hd0 : d = b := by rw [hdv, hw]; rfl
      by_cases h0 : addr % 512 = 0
      · obtain ⟨-, k1, k2⟩ := hal h0
        have : d' = delivered m rep.sg.data := by rw [k2, k1]; exact hks d rfl hw
        exact ⟨.inl (k1.trans hd0), fun _ => this, .inl this⟩
      · obtain ⟨k1, k2, k3⟩ := hun h0
        have hm0 : m = zeros d.length := k1 hw
        refine ⟨.inr (by rw [hm0, hd0]), ?_, ?_⟩
        · intro he
          rw [k3 hw he, hm0]
          exact hks _ (by simp) hw
        · cases he : rep.sg.err with
          | none => exact .inl (by rw [k3 hw he, hm0]; exact hks _ (by simp) hw)
          | some e => exact .inr (by rw [k2 (.inr (by rw [he]; simp)), hd0])

/-- The taskfile command of the SCSI generic driver, as ioctls on a descriptor. -/
theorem sgTask_io (fd : Nat) (rw dma : Bool) (tf : Tf) (data : Option Bytes) (addr base to : Nat) (hd : data ≠ some [])
    (hlen : (data.getD []).length < 4294967296) (env : Prog.Env KReq SgRep) (hist : Prog.Trace KReq SgRep) (pl : LRep) :
    ∃ e tf' d' T, OutT.run env hist (sgTaskFile rw dma tf data addr base to) = (.ret (e, tf', d'), T) ∧
      (data.isSome → (d'.getD []).length = (data.getD []).length ∧ d'.isSome) ∧
      ∀ u, SgWire fd T u → AtaOnScsi fd rw dma tf data to ((.place, pl) :: u) e tf' d' := by
  have hcdb := (sg_cdb_faithful rw dma tf data addr base to env hist).2 hd
  obtain ⟨e0, tf0, d0, q0, r0, rest0, hsr, hsense⟩ := sg_sense rw dma tf data addr base to env hist hd
  obtain ⟨x, d1, q, r, hq, hr, hn, hs, g1, g2⟩ := sgTaskFile_run rw dma tf data addr base to env hist hd
  have hto : q.timeout.toNat = to % 2 ^ 32 := by rw [hq]; exact BitVec.toNat_ofNat ..
  have hdata := fun rep h => sgTask_data rw dma tf data addr to hlen hq hn hs (rep := rep) h
  have hlen' : (data.isSome → (d1.getD []).length = (data.getD []).length ∧ d1.isSome) :=
    (hdata { sg := r } rfl).2
  have hcmd : ∀ T res, OutT.run env hist (sgTaskFile rw dma tf data addr base to) = (res, (.sgIo q, r) :: T) →
      satDecode q.cdb = some (satOf tf data.isSome rw dma) ∧ q.cdb.length = (if tf.isLba48 = 0 then 12 else 16) ∧
      q.dir = (if data.isSome then (if rw then -2 else -3) else -1) ∧ q.dxferLen = (data.getD []).length := by
    intro T res hrun
    obtain ⟨q', hq', k1, k2, k3, k4⟩ := hcdb (.sgIo q) r (by rw [hrun]; exact List.mem_cons_self)
    cases hq'
    exact ⟨k1, k2, k3, by rw [k4, Nat.mod_eq_of_lt hlen]⟩
  cases he : r.err with
  | none =>
    have hrun := g1 he
    refine ⟨_, _, _, _, hrun, hlen', ?_⟩
    obtain ⟨c1, c2, c3, c4⟩ := hcmd _ _ hrun
    rw [hrun] at hsr
    simp only [Prod.mk.injEq, Out.ret.injEq, List.cons.injEq, KReq.sgIo.injEq] at hsr
    obtain ⟨⟨rfl, rfl, rfl⟩, ⟨rfl, rfl⟩, rfl⟩ := hsr
    intro u hu
    cases hu with
    | io hu =>
      cases hu
      rename_i rep
      refine .mk c1 c2 c3 c4 hto (.once he) (hdata rep rfl).1 ⟨(fun x hx => by cases hx), fun _ => ?_⟩
      exact (hsense _ rfl).1 ⟨_, _, List.mem_cons_self, he⟩
  | some e =>
    obtain ⟨q2, r2, hq2, hr2, k1, k2⟩ := g2 e he
    cases he2 : r2.err with
    | none =>
      have hrun := k1 he2
      refine ⟨_, _, _, _, hrun, hlen', ?_⟩
      obtain ⟨c1, c2, c3, c4⟩ := hcmd _ _ hrun
      rw [hrun] at hsr
      simp only [Prod.mk.injEq, Out.ret.injEq, List.cons.injEq, KReq.sgIo.injEq] at hsr
      obtain ⟨⟨rfl, rfl, rfl⟩, ⟨rfl, rfl⟩, rfl⟩ := hsr
      intro u hu
      rw [hq2] at hu
      cases hu with
      | io hu =>
        cases hu with
        | io hu =>
          cases hu
          rename_i rep rep2
          refine .mk c1 c2 c3 c4 hto (.twice (by rw [he]; simp)) (hdata rep rfl).1 ⟨fun x hx hb => ?_, fun _ => ?_⟩
          · cases hx
            exact absurd he2 hb
          · exact (hsense _ rfl).1 ⟨_, _, List.mem_cons_of_mem _ List.mem_cons_self, he2⟩
    | some e2 =>
      have hrun := k2 e2 he2
      refine ⟨_, _, _, _, hrun, hlen', ?_⟩
      obtain ⟨c1, c2, c3, c4⟩ := hcmd _ _ hrun
      rw [hrun] at hsr
      simp only [Prod.mk.injEq, Out.ret.injEq, List.cons.injEq, KReq.sgIo.injEq] at hsr
      obtain ⟨⟨rfl, rfl, rfl⟩, ⟨rfl, rfl⟩, rfl⟩ := hsr
      intro u hu
      rw [hq2] at hu
      cases hu with
      | io hu =>
        cases hu with
        | io hu =>
          cases hu
          rename_i rep rep2
          refine .mk c1 c2 c3 c4 hto (.twice (by rw [he]; simp)) (hdata rep rfl).1 ⟨fun x hx hb => ?_, fun hg => ?_⟩
          · cases hx
            obtain ⟨k, r2', hk, h1, h2⟩ := (hsense _ rfl).2 (fun k r' hm => by
              simp only [List.mem_cons, Prod.mk.injEq, List.not_mem_nil, or_false] at hm
              rcases hm with h | h
              · rw [h.2, he]; simp
              · rw [h.2, he2]; simp)
            simp only [List.cons.injEq, Prod.mk.injEq, and_true] at hk
            obtain ⟨-, rfl⟩ := hk
            exact ⟨h1, h2⟩
          · have := hg rep2 rfl
            rw [he2] at this
            cases this

/-! ## NVMe log pages -/

theorem logPage_is (nsid logId : BitVec 32) (rae : Bool) (size : Nat) (buf : Bytes) (a : BitVec 64) (hl : logId.toNat < 256)
    (h4 : 4 ≤ size) (hmax : size < 4294967296) : IsGetLogPage nsid logId rae size (adminRecord (logPageCmd nsid logId rae size buf) a) := by
  have h10 := logPageCmd_cdw10 nsid logId rae size buf (by omega)
  have h11 := logPageCmd_cdw11 nsid logId rae size buf
  have hA : (size / 4 + 4294967295) % 4294967296 = size / 4 - 1 := by omega
  have hB : (if rae then 32768 else 0) = 32768 * (if rae then 1 else 0) := by cases rae <;> rfl
  have hC : (if rae then 1 else 0) < 2 := by cases rae <;> decide
  rw [hA] at h10 h11
  rw [hB] at h10
  have e10 : (adminRecord (logPageCmd nsid logId rae size buf) a).cdw10 = (logPageCmd nsid logId rae size buf).cdw10 := rfl
  have e11 : (adminRecord (logPageCmd nsid logId rae size buf) a).cdw11 = (logPageCmd nsid logId rae size buf).cdw11 := rfl
  constructor
  · rfl
  · rfl
  · rw [e10, h10]; omega
  · rw [e10, h10]; omega
  · rw [e10, h10]; omega
  · rw [e10, e11, h10, h11]; omega
  · rw [e11, h11]; omega
  · exact ⟨rfl, rfl⟩
  · exact ⟨rfl, rfl, rfl, rfl, rfl, rfl, rfl⟩
  · show (BitVec.ofNat 32 size).toNat = size
    rw [BitVec.toNat_ofNat, Nat.mod_eq_of_lt hmax]
  · rfl

/-- The loop of the log page reader as system calls. -/
def logLoop (fd : Nat) (a : BitVec 64) (bh : Nat → Byte) (nsid logId : BitVec 32) (rae : Bool) (size offset : Nat) (buf : Bytes)
    (last : Option GoErr) : LM (Bytes × Option GoErr) :=
  OutT.interp (nvSys fd) (OutT.interp (nvDriver0 a bh) (logPageLoop nsid logId rae size offset buf last))

theorem logLoop_done {fd : Nat} {a : BitVec 64} {bh : Nat → Byte} {nsid logId : BitVec 32} {rae : Bool} {size offset : Nat}
    {buf : Bytes} {last : Option GoErr} (h : size ≤ offset) :
    logLoop fd a bh nsid logId rae size offset buf last = OutT.ret (buf, last) := by
  unfold logLoop
  rw [logPageLoop, dif_pos h]
  rfl

theorem logLoop_step {fd : Nat} {a : BitVec 64} {bh : Nat → Byte} {nsid logId : BitVec 32} {rae : Bool} {size offset : Nat}
    {buf : Bytes} {last : Option GoErr} (h : ¬ size ≤ offset) :
    logLoop fd a bh nsid logId rae size offset buf last =
      (OutT.ask (.nvme fd NVME_IOCTL_ADMIN_CMD (adminRecord (logPageCmd nsid logId rae size buf) a) (some buf)) >>= fun r =>
        let buf' := storeInto buf (storeInto buf (r.nv.data.take (adminRecord (logPageCmd nsid logId rae size buf) a).dataLen.toNat))
        match ioctlErr r.nv.ret r.nv.errno with
        | none => OutT.ret (buf', none)
        | some e => logLoop fd a bh nsid logId rae size (offset + min (size - offset) 4096) buf' (some e)) := by
  conv => lhs; unfold logLoop
  rw [logPageLoop, dif_neg h]
  show OutT.ask _ >>= _ = _
  congr 1
  funext r
  obtain ⟨b', hb'⟩ : ∃ b', b' = storeInto buf (storeInto buf (r.nv.data.take (adminRecord (logPageCmd nsid logId rae size buf) a).dataLen.toNat)) :=
    ⟨_, rfl⟩
  dsimp only
  rw [← hb']
  refine Eq.trans (b := OutT.interp (nvSys fd) (OutT.interp (nvDriver0 a bh) (match ioctlErr r.nv.ret r.nv.errno with
    | none => OutT.ret (b', none)
    | some e => logPageLoop nsid logId rae size (offset + min (size - offset) 4096) b' (some e)))) ?_ ?_
  · rw [hb']; rfl
  · cases ioctlErr r.nv.ret r.nv.errno <;> rfl

theorem logLoop_run (fd : Nat) (a : BitVec 64) (bh : Nat → Byte) (nsid logId : BitVec 32) (rae : Bool) (size : Nat)
    (hl : logId.toNat < 256) (h4 : 4 ≤ size) (hmax : size < 4294967296) (env : Prog.Env LReq LRep) :
    ∀ (n offset : Nat) (buf : Bytes) (last : Option GoErr) (hist : Prog.Trace LReq LRep), size - offset ≤ n →
    buf.length = size →
    ∃ t out e, OutT.run env hist (logLoop fd a bh nsid logId rae size offset buf last) = (.ret (out, e), t) ∧
      LogReads fd (IsGetLogPage nsid logId rae size) buf t out ∧
      (∀ x ∈ t.dropLast, nvmeVerdict x.2.nv ≠ none) ∧
      t.length ≤ (size - offset + 4095) / 4096 ∧
      ((∀ x ∈ t, nvmeVerdict x.2.nv ≠ none) → t.length = (size - offset + 4095) / 4096) ∧
      (t = [] → e = last) ∧
      (∀ x, t.getLast? = some x → e = nvmeVerdict x.2.nv) ∧ out.length = size := by
  intro n
  induction n with
  | zero =>
    intro offset buf last hist hn hb
    rw [logLoop_done (by omega)]
    exact ⟨[], buf, last, rfl, .nil, (fun x hx => by cases hx), Nat.zero_le _, (fun _ => by simp; omega), fun _ => rfl,
      (fun x hx => by cases hx), hb⟩
  | succ n ih =>
    intro offset buf last hist hn hb
    by_cases ho : size ≤ offset
    · rw [logLoop_done ho]
      exact ⟨[], buf, last, rfl, .nil, (fun x hx => by cases hx), Nat.zero_le _, (fun _ => by simp; omega), fun _ => rfl,
        (fun x hx => by cases hx), hb⟩
    · rw [logLoop_step ho, OutT.run_ask_bind]
      obtain ⟨r, hr⟩ : ∃ r, r = env hist (.nvme fd NVME_IOCTL_ADMIN_CMD (adminRecord (logPageCmd nsid logId rae size buf) a) (some buf)) :=
        ⟨_, rfl⟩
      rw [← hr]
      have his := logPage_is nsid logId rae size buf a hl h4 hmax
      have hst : storeInto buf (storeInto buf (r.nv.data.take (adminRecord (logPageCmd nsid logId rae size buf) a).dataLen.toNat)) =
          delivered buf r.nv.data := by
        rw [storeInto_full buf _ (storeInto_length _ _), storeInto_eq_delivered, his.length, ← hb]
        unfold delivered
        simp only [List.take_take, Nat.min_self]
      have hop : NVME_IOCTL_ADMIN_CMD = 0xC0484E41#64 := by decide
      have hdl : (delivered buf r.nv.data).length = size := by
        rw [← hb]
        unfold delivered
        simp only [List.length_append, List.length_take, List.length_drop]
        omega
      dsimp only
      rw [hst, hop]
      have hv : ioctlErr r.nv.ret r.nv.errno = nvmeVerdict r.nv := rfl
      rw [hv]
      have hN : 1 + (size - (offset + min (size - offset) 4096) + 4095) / 4096 = (size - offset + 4095) / 4096 := by omega
      cases hvv : nvmeVerdict r.nv with
      | none =>
        refine ⟨[(.nvme fd 0xC0484E41#64 (adminRecord (logPageCmd nsid logId rae size buf) a) (some buf), r)], _, none, rfl,
          .cons his .nil, (fun x hx => by cases hx), (by simp; omega), fun h => ?_, (fun h => by cases h), fun x hx => ?_, hdl⟩
        · exact absurd hvv (h _ (List.mem_singleton.2 rfl))
        · simp only [List.getLast?_singleton, Option.some.injEq] at hx
          rw [← hx]; exact hvv.symm
      | some e0 =>
        obtain ⟨t, out, e, k1, k2, k3, k4, k5, k6, k7, k8⟩ := ih (offset + min (size - offset) 4096) (delivered buf r.nv.data) (some e0)
          (hist ++ [(.nvme fd 0xC0484E41#64 (adminRecord (logPageCmd nsid logId rae size buf) a) (some buf), r)]) (by omega) hdl
        refine ⟨(.nvme fd 0xC0484E41#64 (adminRecord (logPageCmd nsid logId rae size buf) a) (some buf), r) :: t, out, e, ?_,
          .cons his k2, ?_, ?_, ?_, (fun h => by cases h), ?_, k8⟩
        · dsimp only
          rw [k1]
        · intro x hx
          cases t with
          | nil => cases hx
          | cons y t =>
            rw [List.dropLast_cons_of_ne_nil (by simp)] at hx
            rcases List.mem_cons.1 hx with rfl | hx
            · rw [hvv]; simp
            · exact k3 x hx
        · simp only [List.length_cons]; omega
        · intro h
          have := k5 (fun x hx => h x (List.mem_cons_of_mem _ hx))
          simp only [List.length_cons]; omega
        · intro x hx
          cases t with
          | nil =>
            simp only [List.getLast?_singleton, Option.some.injEq] at hx
            rw [← hx, hvv]; exact k6 rfl
          | cons y t =>
            rw [List.getLast?_cons_cons] at hx
            exact k7 x hx

end Dparm
