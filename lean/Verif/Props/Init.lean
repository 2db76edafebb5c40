import Verif.Props.Discovery
import Verif.Props.Identity
/-!
# What `Init` learns about TCG (C134)
-/
namespace Dparm
open Spec

theorem initAta_level0 {raw : Bytes} {i i' : DriveInfo} {e : Option GoErr} (h : initAta raw i = .ret (i', e)) :
    i'.level0 = i.level0 := by
  unfold initAta at h
  cases hu : unpackBytes Layout.ataIdentity raw with
  | panic => rw [hu] at h; simp at h
  | ret x =>
    rw [hu] at h
    simp only [P.ret_bind] at h
    cases x with
    | panic => simp at h
    | err e => simp only [P.ret.injEq, Prod.mk.injEq] at h; rw [← h.1]
    | ok fs =>
      dsimp only at h
      cases hs : swapIdentity fs with
      | panic => rw [hs] at h; simp at h
      | ret fs' =>
        rw [hs] at h
        simp only [P.ret_bind, P.ret.injEq, Prod.mk.injEq] at h
        rw [← h.1]
        rfl

theorem initNvme_level0 {raw : Bytes} {i i' : DriveInfo} {e : Option GoErr} (h : initNvme raw i = .ret (i', e)) :
    i'.level0 = i.level0 := by
  unfold initNvme at h
  cases hu : unpackBytes Layout.nvmeIdentity raw with
  | panic => rw [hu] at h; simp at h
  | ret x =>
    rw [hu] at h
    simp only [P.ret_bind] at h
    cases x with
    | panic => simp at h
    | err e => simp only [P.ret.injEq, Prod.mk.injEq] at h; rw [← h.1]
    | ok fs =>
      simp only [P.ret.injEq, Prod.mk.injEq] at h
      rw [← h.1]
      rfl

/-- The identity parts leave the discovery information alone. -/
theorem parts_level0 (h : Handle)
    (hb : ∀ d, h.dh = some d → (d.ata = true → 512 ≤ d.identity.length) ∧ (d.nvme = true → 4096 ≤ d.identity.length)) :
    ∃ i1 i2, initAtaPart h.dh h.info = .ret (i1, none) ∧ initNvmePart h.dh i1 = .ret (i2, none) ∧
      i2.level0 = h.info.level0 := by
  cases hd : h.dh with
  | none => exact ⟨_, _, rfl, rfl, rfl⟩
  | some d =>
    obtain ⟨i1, i2, h1, h2, a1, a2, b1, b2⟩ := parts_ok h d hd (hb d hd).1 (hb d hd).2
    rw [hd] at h1 h2
    refine ⟨i1, i2, h1, h2, ?_⟩
    have e1 : i1.level0 = h.info.level0 := by
      cases ha : d.ata with
      | true => exact initAta_level0 (a1 ha)
      | false => rw [a2 ha]
    have e2 : i2.level0 = i1.level0 := by
      cases ha : d.nvme with
      | true => exact initNvme_level0 (b1 ha)
      | false => rw [b2 ha]
    rw [e2, e1]

/-- **C134.** `Init` on any handle with a complete identity block (whatever it knew before, whatever the driver answers)
sends the level 0 discovery command and nothing else. It never reports what became of it: the error is nil. All raw
features known before are forgotten, while the flags stay:
1. if the command failed, no raw feature is known, the flags are the old ones and the support indicator is -1 or 0;
2. if the response announces more than 2048 bytes, the same with the indicator 1;
3. if a descriptor does not fit, `Init` panics;
4. otherwise the raw features are exactly the descriptors of the response (the last one of each code) and a flag is set
if it was set before or the response reports its feature. -/
theorem init_tcg {h : Handle} {env : Prog.Env DrvReq DrvRep} {hist : Prog.Trace DrvReq DrvRep} {r : SecRep}
    {t : Prog.Trace DrvReq DrvRep}
    (hb : ∀ d, h.dh = some d → (d.ata = true → 512 ≤ d.identity.length) ∧ (d.nvme = true → 4096 ≤ d.identity.length))
    (hr : discoveryRun h env hist = (.ret r, t)) :
    (∀ e, r.err = some e → ∃ h', OutT.run env hist h.init = (.ret (h', none), t) ∧
      h'.info.tcgSupport = (if e = .msg "not supported" then -1 else 0) ∧
      (∀ c, h'.info.level0.raw c = none) ∧ flags h'.info.level0 = flags h.info.level0) ∧
    (r.err = none → announcedEnd r.data > 2048 → ∃ h', OutT.run env hist h.init = (.ret (h', none), t) ∧
      h'.info.tcgSupport = 1 ∧ (∀ c, h'.info.level0.raw c = none) ∧ flags h'.info.level0 = flags h.info.level0) ∧
    (r.err = none → announcedEnd r.data ≤ 2048 → Overruns r.data 32 (announcedEnd r.data) →
      OutT.run env hist h.init = (.panic, t)) ∧
    (∀ ds, r.err = none → announcedEnd r.data ≤ 2048 → Cut r.data 32 (announcedEnd r.data) ds →
      ∃ h', OutT.run env hist h.init = (.ret (h', none), t) ∧ h'.info.tcgSupport = 1 ∧
        (∀ c : BitVec 16, (h'.info.level0.raw c).map (·.data) = lastWith ds c.toNat) ∧
        ∀ code before after, (code, before) ∈ flags h.info.level0 → (code, after) ∈ flags h'.info.level0 →
          (after = true ↔ before = true ∨ Reports ds code)) := by
  obtain ⟨i1, i2, p1, p2, hl⟩ := parts_level0 h hb
  have hi := init_parts env hist p1 p2
  obtain ⟨g, hg⟩ : ∃ g, g = { h with info := Handle.makeMap i2 } := ⟨_, rfl⟩
  rw [← hg] at hi
  have hm : g.info.level0.made = true := by rw [hg]; rfl
  have hraw : ∀ c, g.info.level0.raw c = none := by intro c; rw [hg]; rfl
  have hfl : flags g.info.level0 = flags h.info.level0 := by rw [← hl, hg]; rfl
  have hr' : discoveryRun g env hist = (.ret r, t) := by rw [← hr, hg]; rfl
  obtain ⟨s1, s2⟩ := discovery_support hm hr'
  refine ⟨?_, ?_, ?_, ?_⟩
  · intro e he
    obtain ⟨h', k1, k2, k3, k4⟩ := s1 e he
    rw [k1] at hi
    refine ⟨h', hi, ?_, fun c => by rw [k4]; exact hraw c, by rw [k4]; exact hfl⟩
    by_cases hn : e = .msg "not supported"
    · rw [if_pos hn]; exact k2.2 hn
    · rw [if_neg hn]; exact k3.2 hn
  · intro he ha
    obtain ⟨-, ⟨-, o2⟩, -, -, o5⟩ := discovery_outcome hm hr' he
    obtain ⟨h', k1⟩ := o2 ha
    have k : OutT.run env hist g.tcgDiscovery0 = (.ret (h', some (.msg "invalid data: length overflow")), t) := Prod.ext k1 o5
    obtain ⟨k2, k3⟩ := s2 he h' _ k1
    have k4 := k3 (by simp)
    rw [k] at hi
    exact ⟨h', hi, k2, fun c => by rw [k4]; exact hraw c, by rw [k4]; exact hfl⟩
  · intro he ha ho
    obtain ⟨⟨-, o1⟩, -, -, -, o5⟩ := discovery_outcome hm hr' he
    have k : OutT.run env hist g.tcgDiscovery0 = (.panic, t) := Prod.ext (o1 ⟨ha, ho⟩) o5
    rw [k] at hi
    exact hi
  · intro ds he ha hc
    have k := discovery_learns hm hr' he ha hc
    obtain ⟨h1, a1, a2⟩ := discovery_raw hm hr' he ha hc
    obtain ⟨h2, b1, b2⟩ := discovery_flags hm hr' he ha hc
    rw [k] at a1 b1 hi
    simp only [Out.ret.injEq, Prod.mk.injEq, and_true] at a1 b1
    subst a1
    subst b1
    refine ⟨_, hi, rfl, fun c => ?_, fun code before after hb ha => ?_⟩
    · rw [a2 c, hraw c]
      cases lastWith ds c.toNat <;> rfl
    · exact b2 code before after (by rw [hfl]; exact hb) ha

/-- A handle with stale features that is initialised again on a drive that refuses: the flag stays, the feature is gone. -/
def staleHandle : Handle :=
  { dh := some { ata := false, nvme := false, identity := [] },
    info := { level0 := { opalV200 := true, raw := fun _ => some { data := [2, 3, 0x10, 0], behind := fun _ => 0 }, made := true } } }

example : ∃ h', (OutT.run (fun _ _ => { err := some (.msg "EIO") }) [] staleHandle.init).1 = .ret (h', none) ∧
    h'.info.tcgSupport = 0 ∧ h'.info.level0.raw 0x203 = none ∧ h'.info.level0.opalV200 = true := by
  obtain ⟨h', k1, k2, k3, k4⟩ := (init_tcg (h := staleHandle) (env := fun _ _ => { err := some (.msg "EIO") }) (hist := [])
    (r := _) (t := _) (fun d hd => by cases hd; exact ⟨(fun h => by cases h), (fun h => by cases h)⟩) rfl).1 (.msg "EIO") rfl
  refine ⟨h', by rw [k1], k2, k3 _, ?_⟩
  have : (0x203, true) ∈ flags h'.info.level0 := by rw [k4]; decide
  simp only [flags, List.mem_cons, Prod.mk.injEq, List.not_mem_nil, or_false] at this
  simpa using this

/-- A fresh handle on an Opal 2 drive. -/
example : ∃ h' t, OutT.run (answering sampleResponse) [] { freshHandle with dh := some { ata := false, nvme := false, identity := [] } }.init =
      (.ret (h', none), t) ∧ h'.info.tcgSupport = 1 ∧ (h'.info.level0.raw 0x203).map (·.data) = some (sampleDescriptors.getD 2 []) := by
  have hz : slice sampleResponse 32 16 = zeros 16 := by decide +kernel
  obtain ⟨t, ht⟩ := discoveryRun_answering sampleResponse sample_length
  obtain ⟨zs, hz1, hzs⟩ := cut_from_32 hz sample_cut48
  obtain ⟨h', k1, k2, k3, -⟩ := (init_tcg (h := { freshHandle with dh := some { ata := false, nvme := false, identity := [] } })
    (env := answering sampleResponse) (hist := []) (r := _) (t := t)
    (fun d hd => by cases hd; exact ⟨(fun h => by cases h), (fun h => by cases h)⟩) ht).2.2.2 _ rfl (by decide +kernel)
    (by rw [show announcedEnd sampleResponse = 96 by decide +kernel]; exact hzs)
  refine ⟨h', t, k1, k2, ?_⟩
  rw [k3]
  unfold lastWith
  rw [List.filter_append, List.filter_eq_nil_iff.2, List.nil_append]
  · decide +kernel
  · intro z hz
    rw [hz1 z hz]
    decide

end Dparm
