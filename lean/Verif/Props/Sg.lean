import Verif.Lemmas.Sg
import Verif.Spec.Sg
/-!
# The Linux SG driver (C57 to C61, C82 to C85)
-/
namespace Dparm
open Spec

theorem sgZeroOut_isSome (rw : Bool) (data : Option Bytes) : (sgZeroOut rw data).isSome = data.isSome := by
  unfold sgZeroOut
  cases rw <;> cases data <;> rfl

theorem sgZeroOut_ne (rw : Bool) (data : Option Bytes) (h : data ≠ some []) : sgZeroOut rw data ≠ some [] := by
  unfold sgZeroOut
  cases rw
  · simpa using h
  · cases data with
    | none => simp
    | some d =>
      simp only [ne_eq, Option.some.injEq] at h
      simp only [if_true, Option.map_some, ne_eq, Option.some.injEq]
      intro hz
      have := congrArg List.length hz
      simp only [zeros_length, List.length_nil] at this
      exact h (List.length_eq_zero_iff.1 this)

theorem sgTaskReq_congr (rw dma : Bool) (tf : Tf) (d d' : Option Bytes) (to : Nat) (x y : Dxfer)
    (h1 : d.isSome = d'.isSome) (h2 : ∀ a b, d = some a → d' = some b → a.length = b.length) :
    sgTaskReq rw dma tf d' to y = { sgTaskReq rw dma tf d to x with dxferp := y } := by
  cases d <;> cases d'
  · rfl
  · simp at h1
  · simp at h1
  · have := h2 _ _ rfl rfl
    simp only [sgTaskReq, this, Option.isSome_some]

/-- All runs of the taskfile command. -/
theorem sgTaskFile_run (rw dma : Bool) (tf : Tf) (data : Option Bytes) (addr base to : Nat)
    (env : Prog.Env KReq SgRep) (hist : Prog.Trace KReq SgRep) (hd : data ≠ some []) :
    ∃ x d1 q r, q = sgTaskReq rw dma tf (sgZeroOut rw data) to x ∧ r = env hist (.sgIo q) ∧
      (data = none → x = .sliceHeader ∧ d1 = none) ∧
      (∀ d, sgZeroOut rw data = some d → ∃ a c d', x = .mem a c ∧ a % 512 = 0 ∧ d1 = some d' ∧ d'.length = d.length ∧
        c.length = d.length ∧ (rw = true → c = d) ∧
        (addr % 512 = 0 → a = addr ∧ c = d ∧ d' = q.kernelStore d r) ∧
        (addr % 512 ≠ 0 → (rw = false → c = zeros d.length) ∧ (rw = true ∨ r.err ≠ none → d' = d) ∧
          (rw = false → r.err = none → d' = q.kernelStore (zeros d.length) r))) ∧
      (r.err = none → OutT.run env hist (sgTaskFile rw dma tf data addr base to) =
        (.ret ((sgTaskFinish none (SgOut.after {} q r) tf).1, (sgTaskFinish none (SgOut.after {} q r) tf).2, d1),
          [(.sgIo q, r)])) ∧
      (∀ e, r.err = some e → ∃ q2 r2, q2 = { q with dxferp := .raw 128 } ∧
        r2 = env (hist ++ [(.sgIo q, r)]) (.sgIo q2) ∧
        (r2.err = none → OutT.run env hist (sgTaskFile rw dma tf data addr base to) =
          (.ret ((sgTaskFinish none (SgOut.after {} q r) tf).1, (sgTaskFinish none (SgOut.after {} q r) tf).2, d1),
            [(.sgIo q, r), (.sgIo q2, r2)])) ∧
        (∀ e2, r2.err = some e2 → OutT.run env hist (sgTaskFile rw dma tf data addr base to) =
          (.ret (some e2, sgTfFromSense tf ((SgOut.after {} q r).after q2 r2).sense, d1),
            [(.sgIo q, r), (.sgIo q2, r2)]))) := by
  have hmem : ∃ x ab, sgTaskMem rw (sgZeroOut rw data) addr base = .ret (x, ab) := by
    cases hz : sgZeroOut rw data with
    | none => exact ⟨_, _, rfl⟩
    | some d =>
      have : d ≠ [] := fun h => sgZeroOut_ne rw data hd (by rw [hz, h])
      obtain ⟨a, c, ab, h1, -⟩ := sgFirstMem_spec rw d addr base this
      exact ⟨_, _, h1⟩
  obtain ⟨x, ab, hm⟩ := hmem
  obtain ⟨q, hq⟩ : ∃ q, q = sgTaskReq rw dma tf (sgZeroOut rw data) to x := ⟨_, rfl⟩
  obtain ⟨r, hr⟩ : ∃ r, r = env hist (.sgIo q) := ⟨_, rfl⟩
  have haft : ∃ d1, sgTaskAfter rw (sgZeroOut rw data) ab q r = .ret d1 ∧ d1.isSome = data.isSome ∧
      (data = none → x = .sliceHeader ∧ d1 = none) ∧
      (∀ d, sgZeroOut rw data = some d → ∃ a c d', x = .mem a c ∧ a % 512 = 0 ∧ d1 = some d' ∧ d'.length = d.length ∧
        c.length = d.length ∧ (rw = true → c = d) ∧
        (addr % 512 = 0 → a = addr ∧ c = d ∧ d' = q.kernelStore d r) ∧
        (addr % 512 ≠ 0 → (rw = false → c = zeros d.length) ∧ (rw = true ∨ r.err ≠ none → d' = d) ∧
          (rw = false → r.err = none → d' = q.kernelStore (zeros d.length) r))) := by
    rw [← sgZeroOut_isSome rw data]
    cases hz : sgZeroOut rw data with
    | none =>
      refine ⟨none, rfl, rfl, fun _ => ?_, fun d h => by simp at h⟩
      rw [hz] at hm
      simp only [sgTaskMem, P.ret.injEq, Prod.mk.injEq] at hm
      exact ⟨hm.1.symm, rfl⟩
    | some d =>
      have hne : d ≠ [] := fun h => sgZeroOut_ne rw data hd (by rw [hz, h])
      rw [hz] at hm
      have hm' : sgFirstMem rw d addr base = .ret (x, ab) := hm
      obtain ⟨a, c, ab', h1, h2, h3, h4, h5, h6⟩ := sgFirstMem_spec rw d addr base hne
      obtain ⟨d', g1, g2, g3, g4⟩ := sgAfterFirst_spec rw d addr base hne q r x ab hm'
      rw [hm'] at h1
      simp only [P.ret.injEq, Prod.mk.injEq] at h1
      refine ⟨some d', ?_, rfl, ?_, ?_⟩
      · simp [sgTaskAfter, g1]
      · intro h
        rw [h] at hz
        cases rw <;> simp [sgZeroOut] at hz
      · intro d0 hd0
        simp only [Option.some.injEq] at hd0
        subst hd0
        exact ⟨a, c, d', h1.1, h2, rfl, g2, h3, h4, fun h => ⟨(h5 h).1, (h5 h).2.1, g3 h⟩,
          fun h => ⟨(h6 h).1, (g4 h).1, (g4 h).2⟩⟩
  obtain ⟨d1, ha, hs, hnone, hsome⟩ := haft
  refine ⟨x, d1, q, r, hq, hr, hnone, hsome, ?_, ?_⟩
  · intro he
    unfold sgTaskFile
    simp only [hm]
    rw [OutT.run_bind_ret env hist (OutT.run_lift_ret env hist (x, ab))]
    simp only [List.append_nil, List.nil_append]
    rw [OutT.run_ask_bind, ← hq, ← hr]
    simp only [ha]
    rw [OutT.run_bind_ret env _ (OutT.run_lift_ret env _ d1)]
    simp only [he, OutT.run_ret, List.append_nil]
  · intro e he
    obtain ⟨q2, hq2⟩ : ∃ q2, q2 = sgTaskReq rw dma tf d1 to (.raw sgHdrSize) := ⟨_, rfl⟩
    obtain ⟨r2, hr2⟩ : ∃ r2, r2 = env (hist ++ [(.sgIo q, r)]) (.sgIo q2) := ⟨_, rfl⟩
    have hcongr : q2 = { q with dxferp := .raw 128 } := by
      rw [hq2, hq]
      apply sgTaskReq_congr
      · rw [hs, sgZeroOut_isSome]
      · intro a b h1 h2
        obtain ⟨_, _, d', -, -, h3, h4, -⟩ := hsome a h1
        rw [h2] at h3
        simp only [Option.some.injEq] at h3
        rw [h3, h4]
    refine ⟨q2, r2, hcongr, hr2, ?_, ?_⟩
    · intro he2
      unfold sgTaskFile
      simp only [hm]
      rw [OutT.run_bind_ret env hist (OutT.run_lift_ret env hist (x, ab))]
      simp only [List.append_nil, List.nil_append]
      rw [OutT.run_ask_bind, ← hq, ← hr]
      simp only [ha]
      rw [OutT.run_bind_ret env _ (OutT.run_lift_ret env _ d1)]
      simp only [he, List.append_nil]
      rw [OutT.run_ask_bind, ← hq2, ← hr2]
      simp only [he2, OutT.run_ret, List.nil_append]
    · intro e2 he2
      unfold sgTaskFile
      simp only [hm]
      rw [OutT.run_bind_ret env hist (OutT.run_lift_ret env hist (x, ab))]
      simp only [List.append_nil, List.nil_append]
      rw [OutT.run_ask_bind, ← hq, ← hr]
      simp only [ha]
      rw [OutT.run_bind_ret env _ (OutT.run_lift_ret env _ d1)]
      simp only [he, List.append_nil]
      rw [OutT.run_ask_bind, ← hq2, ← hr2]
      simp [he2, sgTaskFinish]


theorem sgSecReq_congr (rw : Bool) (p : Byte) (c : BitVec 16) (d d' : Bytes) (to : Nat) (x y : Dxfer)
    (h : d.length = d'.length) :
    sgSecReq rw p c d' to y = { sgSecReq rw p c d to x with dxferp := y } := by
  simp only [sgSecReq, h]

theorem senseKey_zero (o : SgOut) (h : o.sense = zeros 32) : senseKey o.sense = 0#8 := by
  rw [h]; decide

/-- The security command asks for no sense data, so none arrives. -/
theorem after_noSense (o : SgOut) (q : SgReq) (r : SgRep) (hq : q.mxSbLen = 0) : (o.after q r).sense = o.sense := by
  unfold SgOut.after storeInto
  rw [hq]
  simp

/-- All runs of the security command. -/
theorem sgSecurity_run (rw : Bool) (p : Byte) (c : BitVec 16) (data : Bytes) (addr base to : Nat)
    (env : Prog.Env KReq SgRep) (hist : Prog.Trace KReq SgRep) (hd : data ≠ []) :
    ∃ a m d1 q r, q = sgSecReq rw p c data to (.mem a m) ∧ r = env hist (.sgIo q) ∧ a % 512 = 0 ∧
      d1.length = data.length ∧
      (rw = true → m = data ∧ d1 = data) ∧ (rw = false → m = zeros data.length) ∧
      (rw = false → addr % 512 = 0 ∨ r.err = none → d1 = q.kernelStore (zeros data.length) r) ∧
      (rw = false → addr % 512 ≠ 0 → r.err ≠ none → d1 = zeros data.length) ∧
      (r.err = none → OutT.run env hist (sgSecurity rw p c data addr base to) = (.ret (none, d1), [(.sgIo q, r)])) ∧
      (∀ e, r.err = some e → ∃ q2 r2, q2 = { q with dxferp := .raw 128 } ∧
        r2 = env (hist ++ [(.sgIo q, r)]) (.sgIo q2) ∧
        OutT.run env hist (sgSecurity rw p c data addr base to) =
          (.ret (r2.err, d1), [(.sgIo q, r), (.sgIo q2, r2)])) := by
  obtain ⟨d, hdd⟩ : ∃ d, d = (if rw then data else zeros data.length) := ⟨_, rfl⟩
  have hdl : d.length = data.length := by rw [hdd]; split <;> simp
  have hne : d ≠ [] := by
    intro h
    rw [h] at hdl
    exact hd (List.length_eq_zero_iff.1 hdl.symm)
  obtain ⟨a, m, ab, h1, h2, h3, h4, h5, h6⟩ := sgFirstMem_spec rw d addr base hne
  obtain ⟨q, hq⟩ : ∃ q, q = sgSecReq rw p c d to (.mem a m) := ⟨_, rfl⟩
  obtain ⟨r, hr⟩ : ∃ r, r = env hist (.sgIo q) := ⟨_, rfl⟩
  obtain ⟨d1, g1, g2, g3, g4⟩ := sgAfterFirst_spec rw d addr base hne q r (.mem a m) ab h1
  have hqe : q = sgSecReq rw p c data to (.mem a m) := by
    rw [hq]; simp only [sgSecReq, hdl]
  have hmx : q.mxSbLen = 0 := by rw [hq]; rfl
  have hk : senseKey (SgOut.after {} q r).sense = 0#8 := senseKey_zero _ (after_noSense _ _ _ hmx)
  have hfin : sgSecFinish none (SgOut.after {} q r) = none := by
    unfold sgSecFinish
    rw [hk]
    simp
  refine ⟨a, m, d1, q, r, hqe, hr, h2, by rw [g2, hdl], ?_, ?_, ?_, ?_, ?_, ?_⟩
  · intro hw
    have : d = data := by rw [hdd, if_pos hw]
    refine ⟨by rw [h4 hw, this], ?_⟩
    by_cases ha : addr % 512 = 0
    · rw [g3 ha, this]
      unfold SgReq.kernelStore
      rw [if_neg]
      rw [hq]
      simp [sgSecReq, hw]
    · rw [(g4 ha).1 (.inl hw), this]
  · intro hw
    have : d = zeros data.length := by rw [hdd, hw]; rfl
    by_cases ha : addr % 512 = 0
    · rw [(h5 ha).2.1, this]
    · rw [(h6 ha).1 hw, hdl]
  · intro hw hor
    have : d = zeros data.length := by rw [hdd, hw]; rfl
    by_cases ha : addr % 512 = 0
    · rw [g3 ha, this]
    · rcases hor with h | h
      · exact absurd h ha
      · rw [(g4 ha).2 hw h, hdl]
  · intro hw ha he
    have : d = zeros data.length := by rw [hdd, hw]; rfl
    rw [(g4 ha).1 (.inr he), this]
  · intro he
    unfold sgSecurity
    rw [← hdd]
    simp only [h1]
    rw [OutT.run_bind_ret env hist (OutT.run_lift_ret env hist (Dxfer.mem a m, ab))]
    simp only [List.append_nil, List.nil_append]
    rw [OutT.run_ask_bind, ← hq, ← hr]
    simp only [g1]
    rw [OutT.run_bind_ret env _ (OutT.run_lift_ret env _ d1)]
    simp only [he, OutT.run_ret, List.append_nil, hfin]
  · intro e he
    obtain ⟨q2, hq2⟩ : ∃ q2, q2 = sgSecReq rw p c d1 to (.raw sgHdrSize) := ⟨_, rfl⟩
    obtain ⟨r2, hr2⟩ : ∃ r2, r2 = env (hist ++ [(.sgIo q, r)]) (.sgIo q2) := ⟨_, rfl⟩
    refine ⟨q2, r2, ?_, hr2, ?_⟩
    · rw [hq2, hq]
      exact sgSecReq_congr _ _ _ _ _ _ _ _ g2.symm
    · unfold sgSecurity
      rw [← hdd]
      simp only [h1]
      rw [OutT.run_bind_ret env hist (OutT.run_lift_ret env hist (Dxfer.mem a m, ab))]
      simp only [List.append_nil, List.nil_append]
      rw [OutT.run_ask_bind, ← hq, ← hr]
      simp only [g1]
      rw [OutT.run_bind_ret env _ (OutT.run_lift_ret env _ d1)]
      simp only [he, List.append_nil]
      rw [OutT.run_ask_bind, ← hq2, ← hr2]
      cases he2 : r2.err with
      | none =>
        simp only [OutT.run_ret, hfin, List.nil_append]
      | some e2 => simp [sgSecFinish]


/-- Every ioctl of the taskfile command carries the same header up to the memory. -/
theorem sgTaskFile_reqs (rw dma : Bool) (tf : Tf) (data : Option Bytes) (addr base to : Nat)
    (env : Prog.Env KReq SgRep) (hist : Prog.Trace KReq SgRep) (hd : data ≠ some []) (k : KReq) (r : SgRep)
    (hk : (k, r) ∈ (OutT.run env hist (sgTaskFile rw dma tf data addr base to)).2) :
    ∃ y, k = .sgIo (sgTaskReq rw dma tf (sgZeroOut rw data) to y) := by
  obtain ⟨x, d1, q, r1, hq, hr, -, -, h1, h2⟩ := sgTaskFile_run rw dma tf data addr base to env hist hd
  cases he : r1.err with
  | none =>
    rw [h1 he] at hk
    simp only [List.mem_singleton, Prod.mk.injEq] at hk
    exact ⟨x, by rw [hk.1, hq]⟩
  | some e =>
    obtain ⟨q2, r2, hq2, hr2, g1, g2⟩ := h2 e he
    have hmem : (k, r) ∈ [(KReq.sgIo q, r1), (KReq.sgIo q2, r2)] := by
      cases he2 : r2.err with
      | none => rw [g1 he2] at hk; exact hk
      | some e2 => rw [g2 e2 he2] at hk; exact hk
    simp only [List.mem_cons, Prod.mk.injEq, List.not_mem_nil, or_false] at hmem
    rcases hmem with h | h
    · exact ⟨x, by rw [h.1, hq]⟩
    · exact ⟨.raw 128, by rw [h.1, hq2, hq]; rfl⟩

theorem satDecode_sgTaskCdb (tf : Tf) (hasData rw dma : Bool) :
    satDecode (sgTaskCdb tf hasData rw dma) = some (satOf tf hasData rw dma) ∧
    (sgTaskCdb tf hasData rw dma).length = if tf.isLba48 = 0 then 12 else 16 := by
  unfold sgTaskCdb
  by_cases h : tf.isLba48 = 0
  · have h' : ¬ tf.isLba48 ≠ 0#8 := fun hh => hh h
    rw [if_neg h', if_pos h]
    refine ⟨?_, rfl⟩
    have hx : (tf.isLba48 != 0) = false := by rw [h]; rfl
    unfold satOf
    rw [hx]
    cases hasData <;> cases rw <;> cases dma <;> rfl
  · have h' : tf.isLba48 ≠ 0#8 := h
    rw [if_pos h', if_neg h]
    refine ⟨?_, rfl⟩
    have hx : (tf.isLba48 != 0) = true := by simpa using h
    unfold satOf
    rw [hx]
    cases hasData <;> cases rw <;> cases dma <;> rfl

/-- **C57.** Every ioctl of a taskfile command carries a pass-through command that a SAT layer decodes to exactly the
taskfile: the 16-byte form with EXTEND and 16-bit registers when LBA48 is set, the 12-byte form otherwise; protocol,
length, block, direction and check-condition fields follow data presence, direction and DMA flag; the transfer direction
of the header agrees and its length is that of the buffer. An empty non-nil buffer panics before any ioctl. -/
theorem sg_cdb_faithful (rw dma : Bool) (tf : Tf) (data : Option Bytes) (addr base to : Nat)
    (env : Prog.Env KReq SgRep) (hist : Prog.Trace KReq SgRep) :
    (data = some [] → OutT.run env hist (sgTaskFile rw dma tf data addr base to) = (.panic, [])) ∧
    (data ≠ some [] → ∀ k r, (k, r) ∈ (OutT.run env hist (sgTaskFile rw dma tf data addr base to)).2 →
      ∃ q, k = .sgIo q ∧ satDecode q.cdb = some (satOf tf data.isSome rw dma) ∧
        q.cdb.length = (if tf.isLba48 = 0 then 12 else 16) ∧
        q.dir = (if data.isSome then (if rw then -2 else -3) else -1) ∧
        q.dxferLen = (data.getD []).length % 2 ^ 32) := by
  constructor
  · intro h
    subst h
    unfold sgTaskFile
    have hz : sgTaskMem rw (sgZeroOut rw (some [])) addr base = .panic := by
      cases rw <;> rfl
    simp only [hz]
    rw [OutT.run_bind, OutT.run_lift_panic]
  · intro hd k r hk
    obtain ⟨y, hy⟩ := sgTaskFile_reqs rw dma tf data addr base to env hist hd k r hk
    refine ⟨_, hy, ?_⟩
    obtain ⟨h1, h2⟩ := satDecode_sgTaskCdb tf (sgZeroOut rw data).isSome rw dma
    rw [sgZeroOut_isSome] at h1 h2
    refine ⟨?_, ?_, ?_, ?_⟩
    · show satDecode (sgTaskCdb tf (sgZeroOut rw data).isSome rw dma) = _
      rw [sgZeroOut_isSome]; exact h1
    · show (sgTaskCdb tf (sgZeroOut rw data).isSome rw dma).length = _
      rw [sgZeroOut_isSome]; exact h2
    · show sgDir (sgZeroOut rw data).isSome rw = _
      rw [sgZeroOut_isSome]; rfl
    · cases data with
      | none => cases rw <;> rfl
      | some d =>
        cases rw
        · simp [sgTaskReq, sgZeroOut]
        · simp [sgTaskReq, sgZeroOut]

/-- **C58.** A taskfile write: whatever the caller's buffer held, it holds zeros afterwards, the first ioctl names memory
holding zeros of the same length, and the only other ioctl names no memory of the program. -/
theorem sg_write_zeros (dma : Bool) (tf : Tf) (d : Bytes) (addr base to : Nat)
    (env : Prog.Env KReq SgRep) (hist : Prog.Trace KReq SgRep) (hd : d ≠ []) :
    ∃ e tf' q r rest a, OutT.run env hist (sgTaskFile true dma tf (some d) addr base to) =
        (.ret (e, tf', some (zeros d.length)), (.sgIo q, r) :: rest) ∧
      q.dir = -2 ∧ q.dxferp = .mem a (zeros d.length) ∧
      ∀ k r', (k, r') ∈ rest → ∃ q2, k = .sgIo q2 ∧ q2.dxferp = .raw 128 := by
  obtain ⟨x, d1, q, r, hq, hr, -, hs, h1, h2⟩ := sgTaskFile_run true dma tf (some d) addr base to env hist (by simpa using hd)
  obtain ⟨a, c, d', hx, ha, hd1, hl, hcl, hc, hal, hun⟩ := hs (zeros d.length) rfl
  have hdir : q.dir = -2 := by rw [hq]; rfl
  have hd' : d' = zeros d.length := by
    by_cases h : addr % 512 = 0
    · rw [(hal h).2.2]
      unfold SgReq.kernelStore
      rw [hdir]; rfl
    · exact (hun h).2.1 (.inl rfl)
  have hqx : q.dxferp = .mem a (zeros d.length) := by
    have : q.dxferp = x := by rw [hq]; rfl
    rw [this, hx, hc rfl]
  subst hd1
  subst hd'
  cases he : r.err with
  | none => exact ⟨_, _, q, r, [], a, h1 he, hdir, hqx, fun k r' h => by simp at h⟩
  | some e =>
    obtain ⟨q2, r2, hq2, hr2, g1, g2⟩ := h2 e he
    have hrest : ∀ k r', (k, r') ∈ [(KReq.sgIo q2, r2)] → ∃ q2, k = .sgIo q2 ∧ q2.dxferp = .raw 128 := by
      intro k r' h
      simp only [List.mem_singleton, Prod.mk.injEq] at h
      exact ⟨q2, h.1, by rw [hq2]⟩
    cases he2 : r2.err with
    | none => exact ⟨_, _, q, r, _, a, g1 he2, hdir, hqx, hrest⟩
    | some e2 => exact ⟨_, _, q, r, _, a, g2 e2 he2, hdir, hqx, hrest⟩

theorem storeInto_eq_delivered (m got : Bytes) : storeInto m got = delivered m got := by
  unfold storeInto copyAt delivered
  simp

/-- **C58.** A taskfile read does not clear the caller's buffer: with an aligned buffer the caller's bytes are what the
ioctl's memory holds before the transfer, and bytes the kernel does not deliver keep their values. With an unaligned one
the buffer keeps its content if the first ioctl fails, and otherwise shows the delivered bytes followed by zeros. The
second ioctl changes nothing. -/
theorem sg_read_buffer (dma : Bool) (tf : Tf) (d : Bytes) (addr base to : Nat)
    (env : Prog.Env KReq SgRep) (hist : Prog.Trace KReq SgRep) (hd : d ≠ []) (hlen : d.length < 2 ^ 32) :
    ∃ e tf' d' q r rest a m, OutT.run env hist (sgTaskFile false dma tf (some d) addr base to) =
        (.ret (e, tf', some d'), (.sgIo q, r) :: rest) ∧ q.dxferp = .mem a m ∧ a % 512 = 0 ∧
      (addr % 512 = 0 → a = addr ∧ m = d ∧ d' = delivered d r.data) ∧
      (addr % 512 ≠ 0 → r.err ≠ none → d' = d) ∧
      (addr % 512 ≠ 0 → r.err = none → m = zeros d.length ∧ d' = delivered (zeros d.length) r.data) := by
  obtain ⟨x, d1, q, r, hq, hr, -, hs, h1, h2⟩ := sgTaskFile_run false dma tf (some d) addr base to env hist (by simpa using hd)
  obtain ⟨a, c, d', hx, ha, hd1, hl, hcl, -, hal, hun⟩ := hs d rfl
  have hdir : q.dir = -3 := by rw [hq]; rfl
  have hdl : q.dxferLen = d.length := by
    rw [hq]
    show (BitVec.ofNat 32 d.length).toNat = d.length
    rw [BitVec.toNat_ofNat, Nat.mod_eq_of_lt hlen]
  have hks : ∀ m : Bytes, m.length = d.length → q.kernelStore m r = delivered m r.data := by
    intro m hm
    unfold SgReq.kernelStore
    rw [if_pos hdir, hdl, storeInto_eq_delivered]
    unfold delivered
    rw [← hm]
    simp only [List.take_take, Nat.min_self]
  have hqx : q.dxferp = .mem a c := by
    have : q.dxferp = x := by rw [hq]; rfl
    rw [this, hx]
  have facts : (addr % 512 = 0 → a = addr ∧ c = d ∧ d' = delivered d r.data) ∧
      (addr % 512 ≠ 0 → r.err ≠ none → d' = d) ∧
      (addr % 512 ≠ 0 → r.err = none → c = zeros d.length ∧ d' = delivered (zeros d.length) r.data) := by
    refine ⟨fun h => ⟨(hal h).1, (hal h).2.1, ?_⟩, fun h he => (hun h).2.1 (.inr he), fun h he => ⟨(hun h).1 rfl, ?_⟩⟩
    · rw [(hal h).2.2, hks d rfl]
    · rw [(hun h).2.2 rfl he, hks _ (zeros_length _)]
  subst hd1
  cases he : r.err with
  | none => exact ⟨_, _, d', q, r, [], a, c, h1 he, hqx, ha, facts⟩
  | some e =>
    obtain ⟨q2, r2, hq2, hr2, g1, g2⟩ := h2 e he
    cases he2 : r2.err with
    | none => exact ⟨_, _, d', q, r, _, a, c, g1 he2, hqx, ha, facts⟩
    | some e2 => exact ⟨_, _, d', q, r, _, a, c, g2 e2 he2, hqx, ha, facts⟩

/-- **C59.** The taskfile command issues one ioctl, or two if the first failed; the second is the same command with the
data address 128; it returns nil only if one of them succeeded, and if both failed the second's error. -/
theorem sg_ioctl_count (rw dma : Bool) (tf : Tf) (data : Option Bytes) (addr base to : Nat)
    (env : Prog.Env KReq SgRep) (hist : Prog.Trace KReq SgRep) (hd : data ≠ some []) :
    ∃ e tf' d' q r rest, OutT.run env hist (sgTaskFile rw dma tf data addr base to) =
        (.ret (e, tf', d'), (.sgIo q, r) :: rest) ∧
      (r.err = none → rest = []) ∧
      (r.err ≠ none → ∃ r2, rest = [(.sgIo { q with dxferp := .raw 128 }, r2)] ∧ (r2.err ≠ none → e = r2.err)) ∧
      (e = none → ∃ k r', (k, r') ∈ (KReq.sgIo q, r) :: rest ∧ r'.err = none) := by
  obtain ⟨x, d1, q, r, hq, hr, -, -, h1, h2⟩ := sgTaskFile_run rw dma tf data addr base to env hist hd
  cases he : r.err with
  | none =>
    exact ⟨_, _, _, q, r, [], h1 he, fun _ => rfl, fun h => absurd he h, fun _ => ⟨.sgIo q, r, by simp, he⟩⟩
  | some e =>
    obtain ⟨q2, r2, hq2, hr2, g1, g2⟩ := h2 e he
    cases he2 : r2.err with
    | none =>
      exact ⟨_, _, _, q, r, _, g1 he2, fun h => by rw [he] at h; simp at h, fun _ => ⟨r2, by rw [hq2], fun h => absurd he2 h⟩,
        fun _ => ⟨.sgIo q2, r2, by simp, he2⟩⟩
    | some e2 =>
      exact ⟨_, _, _, q, r, _, g2 e2 he2, fun h => by rw [he] at h; simp at h, fun _ => ⟨r2, by rw [hq2], fun _ => he2.symm⟩,
        fun h => by simp at h⟩

/-- **C59.** The same for the security command; here the result is nil exactly if one of the ioctls succeeded. -/
theorem sgSec_ioctl_count (rw : Bool) (p : Byte) (c : BitVec 16) (data : Bytes) (addr base to : Nat)
    (env : Prog.Env KReq SgRep) (hist : Prog.Trace KReq SgRep) (hd : data ≠ []) :
    ∃ e d' q r rest, OutT.run env hist (sgSecurity rw p c data addr base to) = (.ret (e, d'), (.sgIo q, r) :: rest) ∧
      (r.err = none → rest = [] ∧ e = none) ∧
      (r.err ≠ none → ∃ r2, rest = [(.sgIo { q with dxferp := .raw 128 }, r2)] ∧ e = r2.err) := by
  obtain ⟨a, m, d1, q, r, hq, hr, -, -, -, -, -, -, h1, h2⟩ := sgSecurity_run rw p c data addr base to env hist hd
  cases he : r.err with
  | none => exact ⟨_, _, q, r, [], h1 he, fun _ => ⟨rfl, rfl⟩, fun h => absurd he h⟩
  | some e =>
    obtain ⟨q2, r2, hq2, hr2, g⟩ := h2 e he
    exact ⟨_, _, q, r, _, g, fun h => by rw [he] at h; simp at h, fun _ => ⟨r2, by rw [hq2], rfl⟩⟩

theorem after_sense (q : SgReq) (r : SgRep) (o : SgOut) (hq : q.mxSbLen = 32) (ho : o.sense.length = 32) :
    (o.after q r).sense = senseArea o.sense r.sense ∧ (o.after q r).sense.length = 32 := by
  have : (o.after q r).sense = senseArea o.sense r.sense := by
    unfold SgOut.after senseArea
    rw [hq, storeInto_eq_delivered]
    unfold delivered
    rw [ho]
    simp only [List.take_take, Nat.min_self]
  refine ⟨this, ?_⟩
  unfold SgOut.after
  simp only [storeInto_length, ho]

theorem senseKey_fixedKey (s : Bytes) : (senseKey s).toNat = fixedKey s := by
  unfold senseKey fixedKey
  rw [BitVec.toNat_and]
  exact Nat.and_two_pow_sub_one_eq_mod _ 4

theorem sgTfFromSense_return (tf : Tf) (s : Bytes) : AtaReturn s tf (sgTfFromSense tf s) := by
  have hb : ∀ i, (s.drop 8).getD i 0#8 = s.getD (8 + i) 0 := by
    intro i
    simp [List.getD_eq_getElem?_getD, List.getElem?_drop]
  have h1 : ∀ x : Byte, (x &&& 1#8).toNat = x.toNat % 2 := by decide +kernel
  have h2 : ∀ x : Byte, x &&& 1#8 ≠ 0#8 ↔ x.toNat % 2 = 1 := by decide +kernel
  unfold AtaReturn sgTfFromSense
  simp only [hb]
  refine ⟨h1 _, trivial, trivial, trivial, trivial, trivial, trivial, trivial, trivial, trivial, ?_, ?_⟩
  · split <;> rfl
  · by_cases hx : (s.getD (8 + 2) 0).toNat % 2 = 1
    · rw [if_pos hx, if_pos ((h2 _).2 hx)]
      exact ⟨rfl, rfl, rfl, rfl⟩
    · rw [if_neg hx, if_neg (fun h => hx ((h2 _).1 h))]
      exact ⟨rfl, rfl, rfl, rfl⟩

theorem sgTaskFinish_cases (o : SgOut) (tf : Tf) :
    (fixedKey o.sense ≠ 0 → sgTaskFinish none o tf = (some (.dparm o.status (o.sense.take 18)), tf)) ∧
    (fixedKey o.sense = 0 → (sgTaskFinish none o tf).1 = none ∧ AtaReturn o.sense tf (sgTaskFinish none o tf).2) := by
  have hk := senseKey_fixedKey o.sense
  unfold sgTaskFinish
  constructor
  · intro h
    have : senseKey o.sense ≠ 0#8 := by
      intro hz; rw [hz] at hk; exact h hk.symm
    simp [this]
  · intro h
    have : senseKey o.sense = 0#8 := by
      apply BitVec.eq_of_toNat_eq; rw [hk, h]; rfl
    simp only [this, bne_self_eq_false, Bool.and_false, Bool.false_eq_true, if_false]
    exact ⟨trivial, sgTfFromSense_return _ _⟩

/-- **C60.** Result and taskfile after a taskfile command. Let `s` be the sense area after the first ioctl. If an ioctl
succeeded, a non-zero key in byte 2 of `s` gives an error carrying the first ioctl's status and the first 18 bytes of `s`,
and the taskfile is unchanged; a zero key gives nil and the registers found in `s`. This is so also if it was the second
ioctl that succeeded: its sense data and status have no influence. If both failed, the taskfile is overwritten from the
sense area as the two left it. -/
theorem sg_sense (rw dma : Bool) (tf : Tf) (data : Option Bytes) (addr base to : Nat)
    (env : Prog.Env KReq SgRep) (hist : Prog.Trace KReq SgRep) (hd : data ≠ some []) :
    ∃ e tf' d' q r rest, OutT.run env hist (sgTaskFile rw dma tf data addr base to) =
        (.ret (e, tf', d'), (.sgIo q, r) :: rest) ∧
      (∀ s, s = senseArea (zeros 32) r.sense →
        ((∃ k r', (k, r') ∈ (KReq.sgIo q, r) :: rest ∧ r'.err = none) →
          (fixedKey s ≠ 0 → e = some (.dparm r.status (s.take 18)) ∧ tf' = tf) ∧
          (fixedKey s = 0 → e = none ∧ AtaReturn s tf tf')) ∧
        ((∀ k r', (k, r') ∈ (KReq.sgIo q, r) :: rest → r'.err ≠ none) →
          ∃ k r2, rest = [(k, r2)] ∧ e = r2.err ∧ AtaReturn (senseArea s r2.sense) tf tf')) := by
  obtain ⟨x, d1, q, r, hq, hr, -, -, h1, h2⟩ := sgTaskFile_run rw dma tf data addr base to env hist hd
  have hmx : q.mxSbLen = 32 := by rw [hq]; rfl
  obtain ⟨o, ho⟩ : ∃ o, o = SgOut.after {} q r := ⟨_, rfl⟩
  obtain ⟨hs1, hs2⟩ := after_sense q r {} hmx rfl
  rw [← ho] at hs1 hs2
  have hst : o.status = r.status := by rw [ho]; rfl
  obtain ⟨c1, c2⟩ := sgTaskFinish_cases o tf
  have key : ∀ s, s = senseArea (zeros 32) r.sense →
      (fixedKey s ≠ 0 → (sgTaskFinish none o tf).1 = some (.dparm r.status (s.take 18)) ∧ (sgTaskFinish none o tf).2 = tf) ∧
      (fixedKey s = 0 → (sgTaskFinish none o tf).1 = none ∧ AtaReturn s tf (sgTaskFinish none o tf).2) := by
    intro s hs
    rw [← hs] at hs1
    rw [hs1] at c1 c2
    refine ⟨fun h => ?_, fun h => c2 h⟩
    rw [c1 h, hst]
    exact ⟨rfl, rfl⟩
  cases he : r.err with
  | none =>
    refine ⟨_, _, _, q, r, [], h1 he, ?_⟩
    rw [← ho]
    intro s hs
    exact ⟨fun _ => key s hs, fun h => absurd he (h (.sgIo q) r (by simp))⟩
  | some e =>
    obtain ⟨q2, r2, hq2, hr2, g1, g2⟩ := h2 e he
    cases he2 : r2.err with
    | none =>
      refine ⟨_, _, _, q, r, _, g1 he2, ?_⟩
      rw [← ho]
      intro s hs
      exact ⟨fun _ => key s hs, fun h => absurd he2 (h (.sgIo q2) r2 (by simp))⟩
    | some e2 =>
      refine ⟨_, _, _, q, r, _, g2 e2 he2, ?_⟩
      rw [← ho]
      intro s hs
      refine ⟨fun ⟨k, r', hk, hn⟩ => ?_, fun _ => ⟨_, r2, rfl, he2.symm, ?_⟩⟩
      · simp only [List.mem_cons, Prod.mk.injEq, List.not_mem_nil, or_false] at hk
        rcases hk with h | h
        · rw [h.2, he] at hn; simp at hn
        · rw [h.2, he2] at hn; simp at hn
      · have hmx2 : q2.mxSbLen = 32 := by rw [hq2]; exact hmx
        obtain ⟨t1, -⟩ := after_sense q2 r2 o hmx2 hs2
        rw [t1, hs1, ← hs]
        exact sgTfFromSense_return _ _


/-- Every ioctl of the security command carries the same header up to the memory. -/
theorem sgSecurity_reqs (rw : Bool) (p : Byte) (c : BitVec 16) (data : Bytes) (addr base to : Nat)
    (env : Prog.Env KReq SgRep) (hist : Prog.Trace KReq SgRep) (hd : data ≠ []) (k : KReq) (r : SgRep)
    (hk : (k, r) ∈ (OutT.run env hist (sgSecurity rw p c data addr base to)).2) :
    ∃ y, k = .sgIo (sgSecReq rw p c data to y) := by
  obtain ⟨a, m, d1, q, r1, hq, hr, -, -, -, -, -, -, h1, h2⟩ := sgSecurity_run rw p c data addr base to env hist hd
  cases he : r1.err with
  | none =>
    rw [h1 he] at hk
    simp only [List.mem_singleton, Prod.mk.injEq] at hk
    exact ⟨_, by rw [hk.1, hq]⟩
  | some e =>
    obtain ⟨q2, r2, hq2, hr2, g⟩ := h2 e he
    rw [g] at hk
    simp only [List.mem_cons, Prod.mk.injEq, List.not_mem_nil, or_false] at hk
    rcases hk with h | h
    · exact ⟨_, by rw [h.1, hq]⟩
    · exact ⟨.raw 128, by rw [h.1, hq2, hq]; rfl⟩

/-- **C61.** Every ioctl of a security command carries a 12-byte SECURITY PROTOCOL OUT (B5) or IN (A2) command with the
protocol in byte 1, the ComID big-endian in bytes 2 and 3, the buffer's length big-endian in bytes 6 to 9 and zeros
elsewhere. -/
theorem sgSec_cdb (rw : Bool) (p : Byte) (c : BitVec 16) (data : Bytes) (addr base to : Nat)
    (env : Prog.Env KReq SgRep) (hist : Prog.Trace KReq SgRep) (hd : data ≠ []) (k : KReq) (r : SgRep)
    (hk : (k, r) ∈ (OutT.run env hist (sgSecurity rw p c data addr base to)).2) :
    ∃ q, k = .sgIo q ∧ q.cdb.length = 12 ∧ q.cdb[0]? = some (if rw then 0xb5 else 0xa2) ∧ q.cdb[1]? = some p ∧
      beVal (slice q.cdb 2 2) = c.toNat ∧ slice q.cdb 4 2 = [0, 0] ∧
      beVal (slice q.cdb 6 4) = data.length % 2 ^ 32 ∧ slice q.cdb 10 2 = [0, 0] ∧
      q.dir = (if rw then -2 else -3) ∧ q.dxferLen = data.length % 2 ^ 32 := by
  obtain ⟨y, hy⟩ := sgSecurity_reqs rw p c data addr base to env hist hd k r hk
  refine ⟨_, hy, ?_⟩
  obtain ⟨n, hn⟩ : ∃ n, n = (BitVec.ofNat 32 data.length).toNat := ⟨_, rfl⟩
  have hnv : n = data.length % 2 ^ 32 := by rw [hn, BitVec.toNat_ofNat]
  have hcdb : (sgSecReq rw p c data to y).cdb =
      [if rw then 0xb5#8 else 0xa2#8, p] ++ beBytes 2 c.toNat ++ [0#8, 0#8] ++ beBytes 4 n ++ [0#8, 0#8] := by
    rw [hn]; rfl
  rw [hcdb]
  refine ⟨?_, ?_, ?_, ?_, ?_, ?_, ?_, rfl, ?_⟩
  · simp
  · cases rw <;> rfl
  · rfl
  · have : slice ([if rw then 0xb5#8 else 0xa2#8, p] ++ beBytes 2 c.toNat ++ [0#8, 0#8] ++ beBytes 4 n ++ [0#8, 0#8]) 2 2 =
        beBytes 2 c.toNat := rfl
    rw [this, beVal_beBytes]
    exact Nat.mod_eq_of_lt c.isLt
  · rfl
  · have : slice ([if rw then 0xb5#8 else 0xa2#8, p] ++ beBytes 2 c.toNat ++ [0#8, 0#8] ++ beBytes 4 n ++ [0#8, 0#8]) 6 4 =
        beBytes 4 n := rfl
    rw [this, beVal_beBytes, hnv]
    omega
  · rfl
  · show (BitVec.ofNat 32 data.length).toNat = _
    rw [← hn, hnv]

/-- **C61.** The data of a security command: a send names memory holding the caller's bytes and leaves them alone; a
receive starts from zeros, and afterwards the caller's buffer holds what the first ioctl delivered over zeros, or zeros if
that ioctl failed on an unaligned buffer. -/
theorem sgSec_data (rw : Bool) (p : Byte) (c : BitVec 16) (data : Bytes) (addr base to : Nat)
    (env : Prog.Env KReq SgRep) (hist : Prog.Trace KReq SgRep) (hd : data ≠ []) (hlen : data.length < 2 ^ 32) :
    ∃ e d' q r rest a, OutT.run env hist (sgSecurity rw p c data addr base to) =
        (.ret (e, d'), (.sgIo q, r) :: rest) ∧ a % 512 = 0 ∧
      (rw = true → q.dxferp = .mem a data ∧ d' = data) ∧
      (rw = false → q.dxferp = .mem a (zeros data.length) ∧
        (addr % 512 = 0 ∨ r.err = none → d' = delivered (zeros data.length) r.data) ∧
        (addr % 512 ≠ 0 → r.err ≠ none → d' = zeros data.length)) := by
  obtain ⟨a, m, d1, q, r, hq, hr, ha, -, hs, hz, hz1, hz2, h1, h2⟩ :=
    sgSecurity_run rw p c data addr base to env hist hd
  have hqx : q.dxferp = .mem a m := by rw [hq]; rfl
  have hks : rw = false → q.kernelStore (zeros data.length) r = delivered (zeros data.length) r.data := by
    intro hw
    unfold SgReq.kernelStore
    have hdir : q.dir = -3 := by rw [hq, hw]; rfl
    have hdl : q.dxferLen = (zeros data.length).length := by
      rw [hq]
      show (BitVec.ofNat 32 data.length).toNat = _
      rw [BitVec.toNat_ofNat, Nat.mod_eq_of_lt hlen, zeros_length]
    rw [if_pos hdir, hdl, storeInto_eq_delivered]
    unfold delivered
    simp only [List.take_take, Nat.min_self]
  have facts : (rw = true → q.dxferp = .mem a data ∧ d1 = data) ∧
      (rw = false → q.dxferp = .mem a (zeros data.length) ∧
        (addr % 512 = 0 ∨ r.err = none → d1 = delivered (zeros data.length) r.data) ∧
        (addr % 512 ≠ 0 → r.err ≠ none → d1 = zeros data.length)) := by
    refine ⟨fun h => ⟨by rw [hqx, (hs h).1], (hs h).2⟩, fun h => ⟨by rw [hqx, hz h], fun ho => ?_, hz2 h⟩⟩
    rw [hz1 h ho, hks h]
  cases he : r.err with
  | none => exact ⟨_, d1, q, r, [], a, h1 he, ha, facts⟩
  | some e =>
    obtain ⟨q2, r2, hq2, hr2, g⟩ := h2 e he
    exact ⟨_, d1, q, r, _, a, g, ha, facts⟩

/-- **C82.** The security command asks the kernel for 0 bytes of sense data, and its verdict is the ioctl's alone: it
returns nil exactly if one of its ioctls returned nil, whatever status and sense data the drive produced; it never returns
an error with sense data that did not come from the ioctl. -/
theorem sgSec_ignores_sense (rw : Bool) (p : Byte) (c : BitVec 16) (data : Bytes) (addr base to : Nat)
    (env : Prog.Env KReq SgRep) (hist : Prog.Trace KReq SgRep) (hd : data ≠ []) :
    ∃ e d' t, OutT.run env hist (sgSecurity rw p c data addr base to) = (.ret (e, d'), t) ∧
      (∀ q r, (.sgIo q, r) ∈ t → q.mxSbLen = 0) ∧
      (e = none ↔ ∃ k r, (k, r) ∈ t ∧ r.err = none) := by
  obtain ⟨a, m, d1, q, r, hq, hr, -, -, -, -, -, -, h1, h2⟩ := sgSecurity_run rw p c data addr base to env hist hd
  have hmx : q.mxSbLen = 0 := by rw [hq]; rfl
  cases he : r.err with
  | none =>
    refine ⟨_, _, _, h1 he, ?_, ⟨fun _ => ⟨.sgIo q, r, by simp, he⟩, fun _ => rfl⟩⟩
    intro q' r' h
    simp only [List.mem_singleton, Prod.mk.injEq, KReq.sgIo.injEq] at h
    rw [h.1, hmx]
  | some e =>
    obtain ⟨q2, r2, hq2, hr2, g⟩ := h2 e he
    refine ⟨_, _, _, g, ?_, ⟨fun h => ⟨.sgIo q2, r2, by simp, h⟩, ?_⟩⟩
    · intro q' r' h
      simp only [List.mem_cons, Prod.mk.injEq, KReq.sgIo.injEq, List.not_mem_nil, or_false] at h
      rcases h with h | h
      · rw [h.1, hmx]
      · rw [h.1, hq2]; exact hmx
    · rintro ⟨k, r', hk, hn⟩
      simp only [List.mem_cons, Prod.mk.injEq, List.not_mem_nil, or_false] at hk
      rcases hk with h | h
      · rw [h.2, he] at hn; simp at hn
      · rw [← h.2]; exact hn

/-- **C83.** The timeout field, which SG_IO counts in milliseconds: taskfile commands put the caller's number of seconds
there, security commands 1000 times that number (both modulo 2^32). -/
theorem sg_timeouts (rw dma : Bool) (tf : Tf) (data : Option Bytes) (p : Byte) (c : BitVec 16) (buf : Bytes)
    (addr base secs : Nat) (env : Prog.Env KReq SgRep) (hist : Prog.Trace KReq SgRep) :
    (data ≠ some [] → ∀ q r, (.sgIo q, r) ∈ (OutT.run env hist (sgTaskFile rw dma tf data addr base secs)).2 →
      q.timeout.toNat = secs % 2 ^ 32) ∧
    (buf ≠ [] → ∀ q r, (.sgIo q, r) ∈ (OutT.run env hist (sgSecurity rw p c buf addr base secs)).2 →
      q.timeout.toNat = secs * 1000 % 2 ^ 32) := by
  constructor
  · intro hd q r h
    obtain ⟨y, hy⟩ := sgTaskFile_reqs rw dma tf data addr base secs env hist hd _ r h
    simp only [KReq.sgIo.injEq] at hy
    rw [hy]
    show (BitVec.ofNat 32 secs).toNat = _
    rw [BitVec.toNat_ofNat]
  · intro hd q r h
    obtain ⟨y, hy⟩ := sgSecurity_reqs rw p c buf addr base secs env hist hd _ r h
    simp only [KReq.sgIo.injEq] at hy
    rw [hy]
    show (BitVec.ofNat 32 secs * 1000#32).toNat = _
    rw [BitVec.toNat_mul, BitVec.toNat_ofNat]
    show secs % 2 ^ 32 * 1000 % 2 ^ 32 = _
    rw [Nat.mod_mul_mod]

/-- **C84.** When the first ioctl succeeds, the verdict is right for sense data in fixed format: nil exactly if the sense
key is 0. For descriptor format it is decided by the low half of byte 2, which is the additional sense code: every error
whose code has a zero low half, whatever its key, is reported as success. -/
theorem sg_verdict_by_format (rw dma : Bool) (tf : Tf) (data : Option Bytes) (addr base to : Nat)
    (env : Prog.Env KReq SgRep) (hist : Prog.Trace KReq SgRep) (hd : data ≠ some [])
    (hok : ∀ h q, (env h q).err = none) :
    ∃ e tf' d' q r, OutT.run env hist (sgTaskFile rw dma tf data addr base to) = (.ret (e, tf', d'), [(.sgIo q, r)]) ∧
      ∀ s, s = senseArea (zeros 32) r.sense →
        ((s.getD 0 0).toNat % 128 = 0x70 ∨ (s.getD 0 0).toNat % 128 = 0x71 → (e = none ↔ trueKey s = 0)) ∧
        ((s.getD 0 0).toNat % 128 = 0x72 ∨ (s.getD 0 0).toNat % 128 = 0x73 →
          trueKey s = (s.getD 1 0).toNat % 16 ∧ (e = none ↔ (s.getD 2 0).toNat % 16 = 0)) := by
  obtain ⟨e, tf', d', q, r, rest, h1, h2⟩ := sg_sense rw dma tf data addr base to env hist hd
  obtain ⟨e', tf'', d'', q', r', rest', g1, g2, -, -⟩ := sg_ioctl_count rw dma tf data addr base to env hist hd
  rw [h1] at g1
  simp only [Prod.mk.injEq, Out.ret.injEq, List.cons.injEq, KReq.sgIo.injEq] at g1
  have hq : r.err = none := by
    have := sgTaskFile_run rw dma tf data addr base to env hist hd
    obtain ⟨x, d1, q0, r0, -, hr0, -, -, k1, -⟩ := this
    have h0 : r0.err = none := by rw [hr0]; exact hok _ _
    rw [k1 h0] at h1
    simp only [Prod.mk.injEq, List.cons.injEq] at h1
    rw [← h1.2.1.2]; exact h0
  have hrest : rest = [] := by
    rw [g1.2.2]
    apply g2
    rw [← g1.2.1.2]; exact hq
  subst hrest
  refine ⟨e, tf', d', q, r, h1, ?_⟩
  intro s hs
  obtain ⟨hsucc, -⟩ := h2 s hs
  obtain ⟨ha, hb⟩ := hsucc ⟨.sgIo q, r, by simp, hq⟩
  have hiff : e = none ↔ (s.getD 2 0).toNat % 16 = 0 := by
    constructor
    · intro he
      apply Decidable.byContradiction
      intro hne
      have := (ha hne).1
      rw [he] at this
      simp at this
    · intro hz
      exact (hb hz).1
  constructor
  · intro hc
    rw [hiff]
    unfold trueKey
    simp only [hc, if_true]
  · intro hc
    refine ⟨?_, hiff⟩
    unfold trueKey
    have : ¬ ((s.getD 0 0).toNat % 128 = 0x70 ∨ (s.getD 0 0).toNat % 128 = 0x71) := by omega
    simp only [this, hc, if_true, if_false]


theorem delivered_length (m got : Bytes) : (delivered m got).length = m.length := by
  rw [← storeInto_eq_delivered]; exact storeInto_length _ _

/-- Error or identity. -/
def openResult (e : Option GoErr) (d : Bytes) : Res Bytes := match e with
  | some e => .err e
  | none => .ok d

/-- **C85.** Opening a drive through the SG driver sends one IDENTIFY DEVICE (one sector, PIO data-in, 3 ms), repeated once if
the ioctl fails; it never panics. It succeeds exactly if an ioctl succeeded and byte 2 of the first one's sense area has a
zero low half; the identity kept by the handle is then what the first ioctl delivered, followed by zeros, even if that
ioctl failed. -/
theorem sgOpen_spec (base base' : Nat) (env : Prog.Env KReq SgRep) (hist : Prog.Trace KReq SgRep) :
    ∃ res q r rest, OutT.run env hist (sgOpen base base') = (.ret res, (.sgIo q, r) :: rest) ∧
      satDecode q.cdb = some (satOf { command := 0xec, lob := { nsect := 1 } } true false false) ∧ q.timeout.toNat = 3 ∧
      (r.err = none → rest = []) ∧ (r.err ≠ none → rest.length = 1) ∧
      ((∃ k r', (k, r') ∈ (KReq.sgIo q, r) :: rest ∧ r'.err = none) ∧ fixedKey (senseArea (zeros 32) r.sense) = 0 →
        res = .ok (delivered (zeros 512) r.data)) ∧
      (¬ ((∃ k r', (k, r') ∈ (KReq.sgIo q, r) :: rest ∧ r'.err = none) ∧ fixedKey (senseArea (zeros 32) r.sense) = 0) →
        ∃ e, res = .err e) := by
  obtain ⟨hf, hp, hl, hb⟩ := newAligned_fits base 512
  have hne : zeros 512 ≠ [] := by intro h; have := congrArg List.length h; simp at this
  obtain ⟨e, tf', d', q, r, rest, a, m, h1, hq, -, hal, -, -⟩ :=
    sg_read_buffer false identifyTf (zeros 512) (newAlignedBuffer base 512 512).pointer base' 3 env hist hne (by simp)
  obtain ⟨e2, tf2, d2, q2, r2, rest2, h2, hs⟩ := sg_sense false false identifyTf (some (zeros 512))
    (newAlignedBuffer base 512 512).pointer base' 3 env hist (by simpa using hne)
  obtain ⟨e3, tf3, d3, q3, r3, rest3, h3, hc1, hc2, -⟩ := sg_ioctl_count false false identifyTf (some (zeros 512))
    (newAlignedBuffer base 512 512).pointer base' 3 env hist (by simpa using hne)
  rw [h1] at h2 h3
  simp only [Prod.mk.injEq, Out.ret.injEq, List.cons.injEq, KReq.sgIo.injEq] at h2 h3
  obtain ⟨⟨rfl, rfl, rfl⟩, ⟨rfl, rfl⟩, rfl⟩ := h2
  obtain ⟨⟨rfl, rfl, rfl⟩, ⟨rfl, rfl⟩, rfl⟩ := h3
  have hd' : d' = delivered (zeros 512) r.data := (hal hp).2.2
  have hdl : d'.length = 512 := by rw [hd', delivered_length, zeros_length]
  obtain ⟨hs1, hs2⟩ := hs _ rfl
  have hcdb := (sg_cdb_faithful false false identifyTf (some (zeros 512)) (newAlignedBuffer base 512 512).pointer base' 3
    env hist).2 (by simpa using hne) (.sgIo q) r (by rw [h1]; simp)
  obtain ⟨q', hq', hdec, -⟩ := hcdb
  simp only [KReq.sgIo.injEq] at hq'
  subst hq'
  have hto := (sg_timeouts false false identifyTf (some (zeros 512)) 0 0 [] (newAlignedBuffer base 512 512).pointer base' 3
    env hist).1 (by simpa using hne) q r (by rw [h1]; simp)
  have hrest : (r.err = none → rest = []) ∧ (r.err ≠ none → rest.length = 1) := by
    refine ⟨hc1, fun h => ?_⟩
    obtain ⟨r2, hr2, -⟩ := hc2 h
    rw [hr2]; rfl
  -- reading the identity back
  have hread : ∀ ab : ABuf, ab = { newAlignedBuffer base 512 512 with
      mem := copyAt (newAlignedBuffer base 512 512).mem (newAlignedBuffer base 512 512).off d' } →
      ∃ b e, (ab.resetRead).read 512 = .ret (b, d', e) := by
    intro ab hab
    subst hab
    unfold ABuf.read ABuf.resetRead
    simp only [hl, Nat.sub_zero, Nat.min_self, Nat.not_lt_zero, if_false, Nat.add_zero, gt_iff_lt]
    rw [if_neg (by omega)]
    have e1 : slice (copyAt (newAlignedBuffer base 512 512).mem (newAlignedBuffer base 512 512).off d')
        (newAlignedBuffer base 512 512).off 512 = d' := by
      have := slice_copyAt_same (newAlignedBuffer base 512 512).mem (newAlignedBuffer base 512 512).off d' (by rw [hdl]; exact hf)
      rw [hdl] at this
      exact this
    rw [e1]
    exact ⟨_, none, rfl⟩
  have hrun : OutT.run env hist (sgOpen base base') =
      (.ret (openResult e d'), (.sgIo q, r) :: rest) := by
    unfold sgOpen
    dsimp only
    rw [hb]
    rw [OutT.run_bind_ret env hist h1]
    cases e with
    | some e => simp [openResult]
    | none =>
      obtain ⟨b, er, hr⟩ := hread _ rfl
      simp only [Option.getD_some, hr]
      rw [OutT.run_bind_ret env _ (OutT.run_lift_ret env _ (b, d', er))]
      simp only [OutT.run_ret, List.append_nil]
      rw [storeInto_full _ _ (by rw [hdl, zeros_length])]
      rfl
  refine ⟨_, q, r, rest, hrun, hdec, hto, hrest.1, hrest.2, ?_, ?_⟩
  · rintro ⟨hex, hk⟩
    have := ((hs1 hex).2 hk).1
    rw [this, hd']
    rfl
  · intro hn
    by_cases hex : ∃ k r', (k, r') ∈ (KReq.sgIo q, r) :: rest ∧ r'.err = none
    · have hk : fixedKey (senseArea (zeros 32) r.sense) ≠ 0 := fun h => hn ⟨hex, h⟩
      rw [((hs1 hex).1 hk).1]
      exact ⟨_, rfl⟩
    · obtain ⟨k, r2, hr2, he2, -⟩ := hs2 (fun k r' hm hno => hex ⟨k, r', hm, hno⟩)
      cases he : e with
      | some e' => exact ⟨e', rfl⟩
      | none =>
        exfalso
        apply hex
        exact ⟨k, r2, by rw [hr2]; simp, by rw [← he2, he]⟩

/-- The handle's requests answered by the SG driver. -/
theorem interp_ask_bind {α : Type} (f : DrvReq → SgM DrvRep) (q : DrvReq) (k : DrvRep → DrvM α) :
    OutT.interp f (OutT.ask q >>= k : DrvM α) = (f q >>= fun r => OutT.interp f (k r)) := rfl

theorem interp_ret {α : Type} (f : DrvReq → SgM DrvRep) (a : α) :
    OutT.interp f (OutT.ret a : DrvM α) = OutT.ret a := rfl

/-- **C78.** A send through a drive handle that uses the SG driver. The first ioctl is a SECURITY PROTOCOL OUT whose memory
holds the caller's bytes. If it or its repetition succeeds, that is all and the caller's buffer is unchanged. Otherwise the
handle falls back to ATA TRUSTED SEND: a third ioctl whose memory holds only zeros, whatever the caller supplied, and the
caller's buffer is zeroed. -/
theorem linux_send_fallback_zeros (h : Handle) (dv : Driver) (hdh : h.dh = some dv) (hata : dv.ata = true) (dma : Bool)
    (p : Byte) (c : BitVec 16) (buf : Bytes) (to addr base : Nat) (behind : Nat → Byte) (hb : buf ≠ [])
    (env : Prog.Env KReq SgRep) (hist : Prog.Trace KReq SgRep) :
    ∃ res q1 r1 rest a, OutT.run env hist (OutT.interp (sgDriver addr base behind)
        (h.securityCommand true dma p c buf to)) = (.ret res, (.sgIo q1, r1) :: rest) ∧
      q1.cdb[0]? = some 0xb5 ∧ q1.dxferp = .mem a buf ∧
      (r1.err = none → rest = [] ∧ res.err = none ∧ res.data = buf) ∧
      (r1.err ≠ none → ∃ r2 rest2, rest = (.sgIo { q1 with dxferp := .raw 128 }, r2) :: rest2 ∧
        (r2.err = none → rest2 = [] ∧ res.err = none ∧ res.data = buf) ∧
        (r2.err ≠ none → ∃ q3 r3 rest3 a3 sat, rest2 = (.sgIo q3, r3) :: rest3 ∧ satDecode q3.cdb = some sat ∧
          sat.command = (if dma then 0x5f else 0x5e) ∧ q3.dir = -2 ∧ q3.dxferp = .mem a3 (zeros buf.length) ∧
          res.data = zeros buf.length)) := by
  obtain ⟨a, m, d1, q, r, hq, hr, -, -, hsend, -, -, -, h1, h2⟩ := sgSecurity_run true p c buf addr base to env hist hb
  obtain ⟨hm, hd1⟩ := hsend rfl
  have hop : q.cdb[0]? = some 0xb5 := by rw [hq]; rfl
  have hqm : q.dxferp = .mem a buf := by rw [hq, hm]; rfl
  unfold Handle.securityCommand
  rw [hdh]
  simp only
  rw [interp_ask_bind]
  have hdrv : sgDriver addr base behind (.sec true dma p c buf to) =
      (sgSecurity true p c buf addr base to >>= fun x => OutT.ret { err := x.1, data := x.2, behind := behind }) := rfl
  have hfull : storeInto buf buf = buf := storeInto_full _ _ rfl
  cases he : r.err with
  | none =>
    have e1 : OutT.run env hist (sgDriver addr base behind (.sec true dma p c buf to)) =
        (.ret { err := none, data := buf, behind := behind }, [(.sgIo q, r)]) := by
      rw [hdrv, OutT.run_bind_ret env hist (h1 he), hd1]
      simp
    rw [OutT.run_bind_ret env hist e1]
    refine ⟨_, q, r, [], a, rfl, hop, hqm, fun _ => ⟨rfl, rfl, hfull⟩, fun hh => absurd he hh⟩
  | some e =>
    obtain ⟨q2, r2, hq2, hr2, g⟩ := h2 e he
    have e1 : OutT.run env hist (sgDriver addr base behind (.sec true dma p c buf to)) =
        (.ret { err := r2.err, data := buf, behind := behind }, [(.sgIo q, r), (.sgIo q2, r2)]) := by
      rw [hdrv, OutT.run_bind_ret env hist g, hd1]
      simp
    rw [OutT.run_bind_ret env hist e1]
    cases he2 : r2.err with
    | none =>
      refine ⟨_, q, r, [(.sgIo q2, r2)], a, rfl, hop, hqm, fun hh => by rw [he] at hh; simp at hh, fun _ => ?_⟩
      refine ⟨r2, [], by rw [hq2], fun _ => ⟨rfl, rfl, hfull⟩, fun hh => absurd he2 hh⟩
    | some e2 =>
      simp only [hata, if_true, hfull]
      rw [interp_ask_bind]
      obtain ⟨e3, tf3, q3, r3, rest3, a3, w1, w2, w3, -⟩ := sg_write_zeros dma (securityTf true dma p c buf.length) buf addr base to
        env (hist ++ [(.sgIo q, r), (.sgIo q2, r2)]) hb
      have hdec := (sg_cdb_faithful true dma (securityTf true dma p c buf.length) (some buf) addr base to
        env (hist ++ [(.sgIo q, r), (.sgIo q2, r2)])).2 (by simpa using hb) (.sgIo q3) r3 (by rw [w1]; simp)
      obtain ⟨q3', hq3, hdec, -⟩ := hdec
      simp only [KReq.sgIo.injEq] at hq3
      subst hq3
      have hdrv3 : sgDriver addr base behind (.taskFile true dma (securityTf true dma p c buf.length) buf to) =
          (sgTaskFile true dma (securityTf true dma p c buf.length) (some buf) addr base to >>= fun x =>
            OutT.ret { err := x.1, data := x.2.2.getD [], behind := behind, tf := x.2.1 }) := rfl
      have e3 : OutT.run env (hist ++ [(.sgIo q, r), (.sgIo q2, r2)])
          (sgDriver addr base behind (.taskFile true dma (securityTf true dma p c buf.length) buf to)) =
          (.ret { err := e3, data := zeros buf.length, behind := behind, tf := tf3 }, (.sgIo q3, r3) :: rest3) := by
        rw [hdrv3, OutT.run_bind_ret env _ w1]
        simp
      rw [OutT.run_bind_ret env _ e3]
      refine ⟨_, q, r, _, a, rfl, hop, hqm, fun hh => by rw [he] at hh; simp at hh, fun _ => ?_⟩
      refine ⟨r2, _, by rw [hq2]; rfl, fun hh => by rw [he2] at hh; simp at hh, fun _ => ?_⟩
      refine ⟨q3, r3, rest3, a3, _, ?_, hdec, ?_, w2, w3, ?_⟩
      · simp [interp_ret]
      · cases dma <;> rfl
      · exact storeInto_full _ _ (zeros_length _)


/-! Concrete runs. -/

/-- A kernel that rejects everything. -/
def exFail : Prog.Env KReq SgRep := fun _ _ => { err := some (.errno 22) }
/-- A kernel on which every command ends with an aborted-command sense in descriptor format. -/
def exAborted : Prog.Env KReq SgRep := fun _ _ => { status := 2, sense := [0x72, 0x0b, 0, 0, 0, 0, 0, 14, 9, 12, 0, 4, 0, 0, 0, 0, 0, 0, 0, 0, 0xe0, 0x51] }

/-- C59/C60: both ioctls fail. -/
example : ((OutT.run exFail [] (sgTaskFile true false identifyTf none 0 0 3)).2).length = 2 := by decide +kernel
/-- C58: three bytes at an odd address are written as zeros. -/
example : (match (OutT.run exFail [] (sgTaskFile true false identifyTf (some [1, 2, 3]) 5 7 3)).1 with
    | .ret (e, _, d) => (e, d) | _ => (none, none)) = (some (.errno 22), some [0, 0, 0]) := by decide +kernel
/-- C84: an aborted command (ABRT, status 51h) is reported as success. -/
example : (match (OutT.run exAborted [] (sgTaskFile false false identifyTf none 0 0 3)).1 with
    | .ret (e, tf, _) => (e, tf.status, tf.error) | _ => (some .eof, 0, 0)) = (none, 0x51, 4) ∧
    trueKey (senseArea (zeros 32) (exAborted [] .close).sense) = 11 := by decide +kernel
/-- C78: a handle on the SG driver; all three ioctls fail, the caller's buffer is zeroed. -/
example : (match (OutT.run exFail [] (OutT.interp (sgDriver 512 0 (fun _ => 0))
    (Handle.securityCommand { dh := some { ata := true, nvme := false, identity := [] } } true false 1 0x7fe [9, 9] 5))).1 with
    | .ret r => (r.err, r.data) | _ => (none, [])) = (some (.errno 22), [0, 0]) := by decide +kernel

end Dparm
