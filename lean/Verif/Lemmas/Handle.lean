import Verif.Model.DriveHandle
import Verif.Lemmas.Discovery
/-!
# Lemmas on the drive handle
-/
namespace Dparm
open Spec

theorem storeInto_length (b d : Bytes) : (storeInto b d).length = b.length := by
  unfold storeInto
  rw [copyAt_length]
  rw [List.length_take]; omega

theorem storeInto_full (b d : Bytes) (h : d.length = b.length) : storeInto b d = d := by
  unfold storeInto copyAt
  rw [← h, List.take_of_length_le (Nat.le_refl _)]
  simp [h]

/-- `SecurityCommand` always returns, and the buffer keeps its size. -/
theorem securityCommand_returns (h : Handle) (rw dma : Bool) (p : Byte) (c : BitVec 16) (buf : Bytes) (to : Nat)
    (env : Prog.Env DrvReq DrvRep) (hist : Prog.Trace DrvReq DrvRep) :
    ∃ r t, OutT.run env hist (h.securityCommand rw dma p c buf to) = (.ret r, t) ∧ r.data.length = buf.length := by
  unfold Handle.securityCommand
  cases hd : h.dh with
  | none => exact ⟨_, _, rfl, rfl⟩
  | some d =>
    simp only
    rw [OutT.run_ask_bind]
    obtain ⟨q, hq⟩ : ∃ q, q = env hist (.sec rw dma p c buf to) := ⟨_, rfl⟩
    rw [← hq]
    cases q.err with
    | none => exact ⟨_, _, rfl, storeInto_length _ _⟩
    | some e =>
      simp only
      cases d.ata
      · cases d.nvme
        · exact ⟨_, _, rfl, storeInto_length _ _⟩
        · simp only [if_true, Bool.false_eq_true, if_false]
          rw [OutT.run_ask_bind]
          exact ⟨_, _, rfl, by simp only [storeInto_length]⟩
      · simp only [if_true]
        rw [OutT.run_ask_bind]
        exact ⟨_, _, rfl, by simp only [storeInto_length]⟩

/-- The security command issued by discovery. -/
abbrev discoveryRun (h : Handle) (env : Prog.Env DrvReq DrvRep) (hist : Prog.Trace DrvReq DrvRep) :
    Out SecRep × Prog.Trace DrvReq DrvRep :=
  OutT.run env hist (h.securityCommand false false 0x01 0x0001 (zeros Handle.discoverySize) 3)

theorem discovery_run_err {h : Handle} {env : Prog.Env DrvReq DrvRep} {hist : Prog.Trace DrvReq DrvRep}
    {r : SecRep} {t : Prog.Trace DrvReq DrvRep} {e : GoErr} (hr : discoveryRun h env hist = (.ret r, t))
    (he : r.err = some e) :
    OutT.run env hist h.tcgDiscovery0 = (.ret ({ h with info := Handle.afterFailure h.info e }, some e), t) := by
  unfold Handle.tcgDiscovery0
  rw [OutT.run_bind_ret env hist hr, he]
  simp

theorem discovery_run_ok {h : Handle} {env : Prog.Env DrvReq DrvRep} {hist : Prog.Trace DrvReq DrvRep}
    {r : SecRep} {t : Prog.Trace DrvReq DrvRep} (hr : discoveryRun h env hist = (.ret r, t)) (he : r.err = none) :
    OutT.run env hist h.tcgDiscovery0 = match discoveryParse h.info.level0 r.data r.behind with
      | .panic => (.panic, t)
      | .ret (l, e) => (.ret ({ h with info := Handle.afterParse h.info l }, e), t) := by
  unfold Handle.tcgDiscovery0
  rw [OutT.run_bind_ret env hist hr, he]
  simp only
  rw [OutT.run_bind]
  cases discoveryParse h.info.level0 r.data r.behind with
  | panic => simp
  | ret x => obtain ⟨l, e⟩ := x; simp

theorem discovery_data_length {h : Handle} {env : Prog.Env DrvReq DrvRep} {hist : Prog.Trace DrvReq DrvRep}
    {r : SecRep} {t : Prog.Trace DrvReq DrvRep} (hr : discoveryRun h env hist = (.ret r, t)) :
    r.data.length = 2048 := by
  obtain ⟨r', t', h1, h2⟩ := securityCommand_returns h false false 0x01 0x0001 (zeros Handle.discoverySize) 3 env hist
  unfold discoveryRun at hr
  rw [h1] at hr
  simp only [Prod.mk.injEq, Out.ret.injEq] at hr
  rw [← hr.1, h2, zeros_length]

/-- Parsing: the three outcomes. -/
theorem parse_spec (info : Level0) (buf : Bytes) (behind : Nat → Byte) (hm : info.made = true) :
    (announcedEnd buf > buf.length ∧ discoveryParse info buf behind =
      .ret (info, some (.msg "invalid data: length overflow"))) ∨
    (announcedEnd buf ≤ buf.length ∧ Overruns buf 32 (announcedEnd buf) ∧ discoveryParse info buf behind = .panic) ∨
    (announcedEnd buf ≤ buf.length ∧ ∃ ds, Cut buf 32 (announcedEnd buf) ds ∧
      discoveryParse info buf behind = .ret (learn buf behind 32 info ds, none)) := by
  have ha : beVal (slice buf 0 4) = announcedEnd buf := by simp [slice, announcedEnd]
  have hs : Layout.header.sum = 32 := by decide
  unfold discoveryParse
  simp only [ha, hs]
  by_cases h : buf.length < announcedEnd buf
  · left
    rw [if_pos h]
    exact ⟨h, rfl⟩
  · right
    rw [if_neg h]
    rcases walk_spec buf behind (announcedEnd buf) 32 (zeros 16) info (zeros_length 16) hm with ⟨o, w⟩ | ⟨ds, c, w⟩
    · left
      rw [w]
      exact ⟨by omega, o, rfl⟩
    · right
      rw [w]
      exact ⟨by omega, ds, c, rfl⟩

end Dparm
