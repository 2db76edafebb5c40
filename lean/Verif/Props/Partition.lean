import Verif.Spec.Partition
import Verif.Props.Volume
import Verif.Props.WinVolume
/-!
# Partitions through the interface (C161)
-/
namespace Dparm
open Spec

theorem upper_capital (s : Bytes) : ∀ c ∈ upper s, ¬ (0x61 ≤ c.toNat ∧ c.toNat ≤ 0x7a) := by
  have key : ∀ c : Byte, ¬ (0x61 ≤ (if 0x61#8 ≤ c ∧ c ≤ 0x7a#8 then c - 0x20#8 else c).toNat ∧
      (if 0x61#8 ≤ c ∧ c ≤ 0x7a#8 then c - 0x20#8 else c).toNat ≤ 0x7a) := by decide +kernel
  intro c hc
  unfold upper at hc
  obtain ⟨x, _, rfl⟩ := List.mem_map.mp hc
  exact key x

theorem guidForm_upper (m : Bytes) : GuidForm (upper (ascii "{" ++ m ++ ascii "}")) := by
  refine ⟨⟨upper m, ?_⟩, upper_capital _⟩
  rw [upper_append, upper_append]
  rfl

theorem guidForm_uuid (g : Bytes) : GuidForm (uuidUpper g) := by
  refine ⟨⟨uuidWith (ascii "0123456789ABCDEF") g, rfl⟩, ?_⟩
  rw [← guidText_upper]
  exact upper_capital _

/-- C161 (Linux): the partitions of the volumes that `EnumVolumes` reports. -/
theorem linux_partition_view (m : Mounts) (env : Prog.Env FReq FRep) (hist : Prog.Trace FReq FRep) (vols : VolMap)
    (h : (OutT.run env hist (enumVolumes m)).1 = .ret (.ok vols)) :
    ∀ v ∈ volList vols, v.2.2.2.length ≤ 1 ∧
      ∀ p ∈ v.2.2.2, SoundView p.view ∧ p.view.style ≠ 0 ∧ p.view.size = p.view.start := by
  intro v hv
  unfold volList at hv
  obtain ⟨e, he, rfl⟩ := List.mem_map.mp hv
  cases hp : e.2.partition with
  | none =>
    unfold VolInfo.toVolumeInfo
    simp [hp]
  | some q =>
    unfold VolInfo.toVolumeInfo
    simp only [hp]
    refine ⟨by simp, fun p hm => ?_⟩
    have : p = q := by simpa using hm
    subst this
    obtain ⟨parent, digits, d, _, _, _, _, _, hs, _, ht⟩ := reported_partition m env hist vols h e he p hp
    cases hdt : d.table with
    | none => rw [hdt] at ht; exact ht.elim
    | gpt guid parts =>
      rw [hdt] at ht
      obtain ⟨h1, h2, x, _, _, h3⟩ := ht
      refine ⟨⟨.inr (.inr h1), ?_, ?_, ?_⟩, ?_, hs⟩
      · show p.mbrInfo ≠ none ↔ p.style = 1
        rw [h1, h2]; simp
      · show p.gptInfo ≠ none ↔ p.style = 2
        rw [h1, h3]; simp
      · intro ty id hg
        have hg' : p.gptInfo = some (ty, id) := hg
        rw [h3] at hg'
        cases hg'
        exact ⟨guidForm_upper _, guidForm_upper _⟩
      · show p.style ≠ 0
        omega
    | mbr parts =>
      rw [hdt] at ht
      obtain ⟨h1, h2, x, _, _, h3⟩ := ht
      refine ⟨⟨.inr (.inl h1), ?_, ?_, ?_⟩, ?_, hs⟩
      · show p.mbrInfo ≠ none ↔ p.style = 1
        rw [h1, h3]; simp
      · show p.gptInfo ≠ none ↔ p.style = 2
        rw [h1, h2]; simp
      · intro ty id hg
        have hg' : p.gptInfo = some (ty, id) := hg
        rw [h2] at hg'
        cases hg'
      · show p.style ≠ 0
        omega

theorem itemPart_sound (disk : BitVec 32) (e : Bytes) (a b : BitVec 64) :
    SoundView ({ itemPart disk e with start := a, length := b } : WinPart).view := by
  unfold itemPart WinPart.view WinPart.partitionStyle
  dsimp only
  by_cases h0 : leVal (slice e 0 4) = 0
  · rw [if_pos h0, if_pos h0, if_pos h0, if_neg (by omega), if_neg (by omega)]
    exact ⟨by simp, by simp, by simp, by simp⟩
  · rw [if_neg h0, if_neg h0, if_neg h0]
    by_cases h1 : leVal (slice e 0 4) = 1
    · rw [if_pos h1, if_pos h1, if_pos h1]
      refine ⟨by simp, by simp, by simp, ?_⟩
      intro ty id hg
      cases hg
      exact ⟨guidForm_uuid _, guidForm_uuid _⟩
    · rw [if_neg h1, if_neg h1]
      exact ⟨by simp, by simp, by simp, by simp⟩

theorem volumeSeen_view {conv : Wide → Bytes} {beyond : Nat → Byte} {name : Wide} {t : Prog.Trace WReq WRep} {v : WinVol}
    {o : Option Nat} (h : VolumeSeen conv beyond name t v o) :
    v.info.partitions.length ≤ 1 ∧ ∀ p ∈ v.info.partitions, SoundView p.view ∧
      ∃ x, v.extents.head? = some x ∧ p.view.start = x.start ∧ p.view.size = x.length := by
  have none' : v.partition = none → v.info.partitions.length ≤ 1 ∧ ∀ p ∈ v.info.partitions, SoundView p.view ∧
      ∃ x, v.extents.head? = some x ∧ p.view.start = x.start ∧ p.view.size = x.length := by
    intro hn
    unfold WinVol.info
    simp [hn]
  cases h with
  | closed bare p i d o e v _ _ _ _ _ _ _ hp => exact none' hp
  | opened bare p i d o t v _ _ _ _ _ _ hx =>
    obtain ⟨pt, hpt⟩ : ∃ pt, v.partition = pt := ⟨_, rfl⟩
    obtain ⟨es, hes⟩ : ∃ es, v.extents = es := ⟨_, rfl⟩
    rw [hpt, hes] at hx
    cases hx with
    | failed => exact none' hpt
    | none => exact none' hpt
    | some r q old n _ ho _ hn _ =>
      obtain ⟨k, rfl⟩ : ∃ k, n = k + 1 := ⟨n - 1, by omega⟩
      have hl : (delivered old r.out).length = 4096 := by
        rw [← storeInto_delivered, storeInto_length, ho]
      rw [extentsIn_head _ hl] at hes
      unfold partitionSeen at hpt
      by_cases hq : q.err = .none
      · rw [if_pos hq] at hpt
        unfold WinVol.info
        rw [hpt]
        refine ⟨by simp, fun p' hp' => ?_⟩
        have : p' = { itemPart (extentAt (delivered old r.out) 8).disk (delivered (zeros 144) q.out) with
            start := (extentAt (delivered old r.out) 8).start, length := (extentAt (delivered old r.out) 8).length } := by
          simpa using hp'
        subst this
        refine ⟨itemPart_sound _ _ _ _, extentAt (delivered old r.out) 8, ?_, rfl, rfl⟩
        rw [hes]
        rfl
      · rw [if_neg hq] at hpt
        exact none' hpt

theorem volumes_view {conv : Wide → Bytes} {beyond : Nat → Byte} {find : Nat} {name : Wide} {t : Prog.Trace WReq WRep}
    {vs : List WinVol} {hs : List Nat} (h : Volumes conv beyond find name t vs hs) :
    ∀ v ∈ vs, v.info.partitions.length ≤ 1 ∧ ∀ p ∈ v.info.partitions, SoundView p.view ∧
      ∃ x, v.extents.head? = some x ∧ p.view.start = x.start ∧ p.view.size = x.length := by
  induction h with
  | last name t v h n e hv _ =>
    intro w hw
    have : w = v := by simpa using hw
    subst this
    exact volumeSeen_view hv
  | more name name' t u v h n vs hs hv _ _ _ ih =>
    intro w hw
    rcases List.mem_cons.mp hw with rfl | hw
    · exact volumeSeen_view hv
    · exact ih w hw

/-- C161 (Windows): the partitions of the volumes that `EnumVolumes` reports; start and size are those of the volume's first
extent. -/
theorem win_partition_view (conv : Wide → Bytes) (beyond : Nat → Byte) (fuel : Nat) (env : Prog.Env WReq WRep)
    (hist : Prog.Trace WReq WRep) (vs : List WinVol)
    (h : (OutT.run env hist (winEnumVolumes conv beyond fuel)).1 = .ret (.ok vs)) :
    ∀ v ∈ vs, v.info.partitions.length ≤ 1 ∧ ∀ p ∈ v.info.partitions, SoundView p.view ∧
      ∃ x, v.extents.head? = some x ∧ p.view.start = x.start ∧ p.view.size = x.length := by
  rcases hr : OutT.run env hist (winEnumVolumes conv beyond fuel) with ⟨o, t⟩
  rw [hr] at h
  have h' : o = .ret (.ok vs) := h
  subst h'
  obtain ⟨m, f, x, hc⟩ := win_enum_volumes conv beyond fuel env hist t _ hr
  rcases hc with ⟨e, _, he, _⟩ | ⟨_, name, vs', hs, tv, tc, y, he, _, hv, _, _⟩
  · cases he
  · cases he
    exact volumes_view hv

theorem basic_partitions (h : Nat) (env : Prog.Env WReq WRep) (hist : Prog.Trace WReq WRep) (b : WinBasic)
    (hb : (OutT.run env hist (winBasicInfo h)).1 = .ret b) :
    ∀ p ∈ b.partitions, SoundView p.view ∧ p.view.style = b.style ∧ b.style ≠ 0 := by
  obtain ⟨n, g, t, f, o, _, hrun, hm⟩ := win_basic_info h env hist
  rw [hrun] at hb
  have hb' : o = .ret b := hb
  subst hb'
  cases f with
  | crashed => cases hm
  | failed e => cases hm; intro p hp; cases hp
  | data buf k =>
    dsimp only at hm
    obtain ⟨hpan, hret, _⟩ := hm
    obtain ⟨_, _, hs, _, _, hps⟩ := hret b rfl
    have hn : ¬ (leVal (slice (buf.take k) 0 4) ≤ 1 ∧ MixedStyles (buf.take k)) := fun hh => by
      cases hpan.mpr (.inr hh)
    generalize buf.take k = data at *
    by_cases h1 : leVal (slice data 0 4) ≤ 1
    · rw [if_pos h1] at hps
      rw [hps]
      intro p hp
      obtain ⟨e, he, rfl⟩ := List.mem_map.mp hp
      have hst : leVal (slice e 0 4) = leVal (slice data 0 4) := by
        refine Decidable.byContradiction (fun hh => hn ⟨h1, e, he, hh⟩)
      refine ⟨itemPart_sound _ e _ _, ?_, ?_⟩
      · show (if leVal (slice e 0 4) = 1 then 2 else if leVal (slice e 0 4) = 0 then 1 else 0) = b.style
        rw [hs, hst]
      · rw [hs]
        by_cases h0 : leVal (slice data 0 4) = 1
        · rw [if_pos h0]; decide
        · rw [if_neg h0, if_pos (by omega)]; decide
    · rw [if_neg h1] at hps
      rw [hps]
      intro p hp
      cases hp

/-- C161 (Windows): the partitions listed with an opened drive; all have the style of the drive. -/
theorem win_drive_partition_view (w : WinRun) (ds : List WinOpener) (h : Nat) (path : Bytes) (env : Prog.Env WReq WRep)
    (hist : Prog.Trace WReq WRep) (o : WinOpened) (hrun : (OutT.run env hist (winOpenByHandle w ds h path)).1 = .ret o) :
    ∀ p ∈ o.partitions, SoundView p.view ∧ p.view.style = o.partitionStyle ∧ o.partitionStyle ≠ 0 := by
  rcases hr : OutT.run env hist (winOpenByHandle w ds h path) with ⟨o', t⟩
  rw [hr] at hrun
  have h' : o' = .ret o := hrun
  subst h'
  obtain ⟨b, tb, segs, rest, hb, _, hf, _⟩ := win_open_by_handle w ds h path env hist t o hr
  have := basic_partitions h env hist b (by rw [hb])
  rw [hf.partitions, hf.style]
  exact this

/-- C161: an NVMe drive with a GPT: the second partition through the interface. -/
example : (match (OutT.run twoPartitions [] (enumVolumes sampleMounts)).1 with
    | .ret (.ok vols) => (volList vols).map (fun v => v.2.2.2.map (fun p => p.view))
    | _ => []) = [[{ start := 4096, size := 4096, style := 2, mbr := none, gpt := some (ascii "{T2}", ascii "{G2}") }], [], []] := by
  decide +kernel
/-- C161: a volume of an MBR disk, and one that cannot be opened. -/
example : (match (OutT.run sampleVolumes [] (winEnumVolumes sampleConv (fun _ => 0) 2)).1 with
    | .ret (.ok vs) => (winVolumeList vs).map (fun v => v.partitions.map (fun p => p.view))
    | _ => []) = [[{ start := 1048576, size := 4096, style := 1, mbr := some (7, true), gpt := none }], []] := by decide +kernel
/-- C161: a drive whose layout lists one GPT partition of 200 bytes at 100 (no driver accepts it). -/
example : let layout : Bytes := leBytes 4 1 ++ leBytes 4 1 ++ zeros 40 ++ leBytes 8 1 ++ leBytes 8 100 ++ leBytes 8 200 ++ zeros 120
    (match (OutT.run (fun _ q => match q with
        | .ioctl _ 0x70050 _ _ _ => { out := layout, n := 192 }
        | .ioctl _ 0x2d1400 _ _ _ => { err := some (.errno 1) }
        | _ => {}) [] (winOpenByHandle { addr := 0, base := 0, base' := 0, behind := fun _ => 0, beyond := fun _ => 0 } [] 7 (ascii "d"))).1 with
      | .ret o => (o.partitionStyle, o.partitions.map (fun p => (p.view.start, p.view.size, p.view.style, p.view.mbr.isSome, p.view.gpt.isSome)))
      | _ => (7, [])) = (2, [(100, 200, 2, false, true)]) := by decide +kernel

end Dparm
