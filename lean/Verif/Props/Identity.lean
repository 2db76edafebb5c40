import Verif.Props.Handle
import Verif.Props.Utils
import Verif.Props.Discovery
/-!
# What `Init` learns from the identity block (C48, C49, C50, C79)
-/
namespace Dparm
open Spec

/-! ## Helpers -/

theorem field_set_same (fs : List Bytes) (k : Nat) (v : Bytes) (h : k < fs.length) : field (fs.set k v) k = v := by
  unfold field
  rw [List.getD_eq_getElem?_getD, List.getElem?_set_self h]
  rfl

theorem field_set_other (fs : List Bytes) (k j : Nat) (v : Bytes) (h : k ≠ j) : field (fs.set k v) j = field fs j := by
  unfold field
  rw [List.getD_eq_getElem?_getD, List.getElem?_set_ne h, List.getD_eq_getElem?_getD]

theorem ata_field (raw : Bytes) (i : Nat) (h : i < Layout.ataIdentity.length) :
    field (pieces Layout.ataIdentity raw) i = slice raw (Layout.ataIdentity.take i).sum (Layout.ataIdentity.getD i 0) :=
  pieces_getD _ _ _ h

theorem nvme_field (raw : Bytes) (i : Nat) (h : i < Layout.nvmeIdentity.length) :
    field (pieces Layout.nvmeIdentity raw) i =
      slice raw (Layout.nvmeIdentity.take i).sum (Layout.nvmeIdentity.getD i 0) :=
  pieces_getD _ _ _ h

theorem ata_sum : Layout.ataIdentity.sum = 512 := by decide +kernel
theorem ata_count : Layout.ataIdentity.length = 111 := by decide +kernel
theorem nvme_sum : Layout.nvmeIdentity.sum = 4096 := by decide +kernel
theorem nvme_count : Layout.nvmeIdentity.length = 566 := by decide +kernel

/-- What a complete ATA identity block tells. -/
structure AtaFacts (raw : Bytes) (i0 i : DriveInfo) : Prop where
  strings : ∃ m s f, PairSwapped (slice raw 54 40) m ∧ PairSwapped (slice raw 20 20) s ∧ PairSwapped (slice raw 46 8) f ∧
    Trimmed m i.model ∧ Trimmed s i.serial ∧ Trimmed f i.firmware ∧ i.rawSerial = storeInto i0.rawSerial s
  smart : i.smartEnabled = true ↔ word raw 82 % 2 = 1 ∧ word raw 85 % 2 = 1
  weight : i.ssdCheckWeight = (if word raw 168 % 16 = 5 then 1 else 0) +
    (if word raw 217 = 0 ∨ word raw 217 = 1 then 1 else 0)
  ssd : i.isSsd = true ↔ i.ssdCheckWeight > 0
  keptLevel0 : i.level0 = i0.level0
  keptSupport : i.tcgSupport = i0.tcgSupport

theorem initAta_ok (raw : Bytes) (i0 : DriveInfo) (hl : 512 ≤ raw.length) :
    ∃ i, initAta raw i0 = .ret (i, none) ∧ AtaFacts raw i0 i ∧ i.ataIdentityRaw = some raw ∧
      ∃ fs, i.ataIdentity = some fs ∧ ∀ j, j ≠ Layout.ixModel → j ≠ Layout.ixSerial → j ≠ Layout.ixFirmware →
        field fs j = field (pieces Layout.ataIdentity raw) j := by
  obtain ⟨fs0, hfs0⟩ : ∃ fs0, fs0 = pieces Layout.ataIdentity raw := ⟨_, rfl⟩
  have hu := (unpackBytes_spec Layout.ataIdentity raw).1 (by rw [ata_sum]; exact hl)
  have hc : fs0.length = 111 := by rw [hfs0, pieces_length, ata_count]
  have hm : field fs0 Layout.ixModel = slice raw 54 40 := by
    rw [hfs0, ata_field _ _ (by decide +kernel)]; rfl
  have hs : field fs0 Layout.ixSerial = slice raw 20 20 := by
    rw [hfs0, ata_field _ _ (by decide +kernel)]; rfl
  have hf : field fs0 Layout.ixFirmware = slice raw 46 8 := by
    rw [hfs0, ata_field _ _ (by decide +kernel)]; rfl
  have h82 : field fs0 Layout.ixSupport = slice raw 164 2 := by
    rw [hfs0, ata_field _ _ (by decide +kernel)]; rfl
  have h85 : field fs0 Layout.ixActive = slice raw 170 2 := by
    rw [hfs0, ata_field _ _ (by decide +kernel)]; rfl
  have h168 : field fs0 Layout.ixWord168 = slice raw 336 2 := by
    rw [hfs0, ata_field _ _ (by decide +kernel)]; rfl
  have h217 : field fs0 Layout.ixRotation = slice raw 434 2 := by
    rw [hfs0, ata_field _ _ (by decide +kernel)]; rfl
  obtain ⟨m, em, pm, -⟩ := (swap_ok (slice raw 54 40)).1 (by rw [slice_length _ _ _ (by omega)])
  obtain ⟨s, es, ps, -⟩ := (swap_ok (slice raw 20 20)).1 (by rw [slice_length _ _ _ (by omega)])
  obtain ⟨f, ef, pf, -⟩ := (swap_ok (slice raw 46 8)).1 (by rw [slice_length _ _ _ (by omega)])
  obtain ⟨fs, hfs⟩ : ∃ fs, fs = ((fs0.set Layout.ixModel m).set Layout.ixSerial s).set Layout.ixFirmware f := ⟨_, rfl⟩
  have hsw : swapIdentity fs0 = .ret fs := by
    unfold swapIdentity
    rw [hm, hs, hf, em, es, ef, hfs]
    rfl
  have gm : field fs Layout.ixModel = m := by
    rw [hfs, field_set_other _ _ _ _ (by decide), field_set_other _ _ _ _ (by decide),
      field_set_same _ _ _ (by rw [hc]; decide)]
  have gs : field fs Layout.ixSerial = s := by
    rw [hfs, field_set_other _ _ _ _ (by decide), field_set_same _ _ _ (by rw [List.length_set, hc]; decide)]
  have gf : field fs Layout.ixFirmware = f := by
    rw [hfs, field_set_same _ _ _ (by rw [List.length_set, List.length_set, hc]; decide)]
  have go : ∀ j, j ≠ Layout.ixModel → j ≠ Layout.ixSerial → j ≠ Layout.ixFirmware → field fs j = field fs0 j := by
    intro j a b c
    rw [hfs, field_set_other _ _ _ _ (Ne.symm c), field_set_other _ _ _ _ (Ne.symm b),
      field_set_other _ _ _ _ (Ne.symm a)]
  refine ⟨learnAta raw fs i0, ?_, ?_, ?_, ?_⟩
  · unfold initAta
    rw [hu]
    simp only [P.ret_bind]
    rw [← hfs0, hsw]
    rfl
  · constructor
    · refine ⟨m, s, f, pm, ps, pf, ?_, ?_, ?_, ?_⟩
      · show Trimmed m (goTrim (field fs Layout.ixModel)); rw [gm]; exact goTrim_trimmed m
      · show Trimmed s (goTrim (field fs Layout.ixSerial)); rw [gs]; exact goTrim_trimmed s
      · show Trimmed f (goTrim (field fs Layout.ixFirmware)); rw [gf]; exact goTrim_trimmed f
      · show storeInto i0.rawSerial (field fs Layout.ixSerial) = _; rw [gs]
    · show smartBits fs = true ↔ _
      unfold smartBits word
      rw [go _ (by decide) (by decide) (by decide), go _ (by decide) (by decide) (by decide), h82, h85]
      simp only [Bool.and_eq_true, decide_eq_true_eq]
    · show ssdWeight fs = _
      unfold ssdWeight word
      rw [go _ (by decide) (by decide) (by decide), go _ (by decide) (by decide) (by decide), h168, h217]
    · show decide (ssdWeight fs > 0) = true ↔ ssdWeight fs > 0
      exact decide_eq_true_iff
    · rfl
    · rfl
  · rfl
  · exact ⟨fs, rfl, fun j a b c => by rw [go j a b c, hfs0]⟩

/-- What a complete NVMe identity block tells. -/
structure NvmeFacts (raw : Bytes) (i0 i : DriveInfo) : Prop where
  model : Trimmed (slice raw 24 40) i.model
  serial : Trimmed (slice raw 4 20) i.serial
  firmware : Trimmed (slice raw 64 8) i.firmware
  rawSerial : i.rawSerial = storeInto i0.rawSerial (slice raw 4 20)
  smart : i.smartEnabled = true
  ssd : i.isSsd = true
  weight : i.ssdCheckWeight = 0
  record : i.nvmeIdentity = some (pieces Layout.nvmeIdentity raw)
  raw : i.nvmeIdentityRaw = some raw
  keptLevel0 : i.level0 = i0.level0
  keptSupport : i.tcgSupport = i0.tcgSupport

theorem initNvme_ok (raw : Bytes) (i0 : DriveInfo) (hl : 4096 ≤ raw.length) :
    ∃ i, initNvme raw i0 = .ret (i, none) ∧ NvmeFacts raw i0 i := by
  obtain ⟨fs, hfs⟩ : ∃ fs, fs = pieces Layout.nvmeIdentity raw := ⟨_, rfl⟩
  have hu := (unpackBytes_spec Layout.nvmeIdentity raw).1 (by rw [nvme_sum]; exact hl)
  have hm : field fs Layout.ixMn = slice raw 24 40 := by
    rw [hfs, nvme_field _ _ (by decide +kernel)]; rfl
  have hs : field fs Layout.ixSn = slice raw 4 20 := by
    rw [hfs, nvme_field _ _ (by decide +kernel)]; rfl
  have hf : field fs Layout.ixFr = slice raw 64 8 := by
    rw [hfs, nvme_field _ _ (by decide +kernel)]; rfl
  refine ⟨learnNvme raw fs i0, ?_, ?_⟩
  · unfold initNvme
    rw [hu]
    simp only [P.ret_bind]
    rw [← hfs]
  · constructor
    · show Trimmed _ (goTrim (field fs Layout.ixMn)); rw [hm]; exact goTrim_trimmed _
    · show Trimmed _ (goTrim (field fs Layout.ixSn)); rw [hs]; exact goTrim_trimmed _
    · show Trimmed _ (goTrim (field fs Layout.ixFr)); rw [hf]; exact goTrim_trimmed _
    · show storeInto i0.rawSerial (field fs Layout.ixSn) = _; rw [hs]
    · rfl
    · rfl
    · rfl
    · show some fs = _; rw [hfs]
    · rfl
    · rfl
    · rfl

theorem initAta_short (raw : Bytes) (i0 : DriveInfo) (hl : raw.length < 512) :
    ∃ i e, initAta raw i0 = .ret (i, some e) ∧ (e = .eof ∨ e = .unexpectedEof) ∧ i.level0 = i0.level0 ∧
      i.tcgSupport = i0.tcgSupport ∧ i = { i0 with ataIdentityRaw := some raw } := by
  obtain ⟨e, he, ho⟩ := (unpackBytes_spec Layout.ataIdentity raw).2 (by rw [ata_sum]; exact hl)
  unfold initAta
  rw [he]
  exact ⟨_, e, rfl, ho, rfl, rfl, rfl⟩

theorem initNvme_short (raw : Bytes) (i0 : DriveInfo) (hl : raw.length < 4096) :
    ∃ i e, initNvme raw i0 = .ret (i, some e) ∧ (e = .eof ∨ e = .unexpectedEof) ∧ i.level0 = i0.level0 ∧
      i.tcgSupport = i0.tcgSupport ∧ i = { i0 with nvmeIdentityRaw := some raw } := by
  obtain ⟨e, he, ho⟩ := (unpackBytes_spec Layout.nvmeIdentity raw).2 (by rw [nvme_sum]; exact hl)
  unfold initNvme
  rw [he]
  exact ⟨_, e, rfl, ho, rfl, rfl, rfl⟩

/-- Discovery touches only the TCG part of the information. -/
theorem discovery_frame {h h' : Handle} {e : Option GoErr} {env : Prog.Env DrvReq DrvRep}
    {hist : Prog.Trace DrvReq DrvRep} (hh : (OutT.run env hist h.tcgDiscovery0).1 = .ret (h', e)) :
    ∃ s l, h'.info = { h.info with tcgSupport := s, level0 := l } := by
  obtain ⟨r, t, hr, _⟩ := securityCommand_returns h false false 0x01 0x0001 (zeros Handle.discoverySize) 3 env hist
  cases he : r.err with
  | some e0 =>
    rw [discovery_run_err hr he] at hh
    simp only [Out.ret.injEq, Prod.mk.injEq] at hh
    rw [← hh.1]
    exact ⟨_, h.info.level0, rfl⟩
  | none =>
    rw [discovery_run_ok hr he] at hh
    split at hh
    · simp at hh
    · simp only [Out.ret.injEq, Prod.mk.injEq] at hh
      rw [← hh.1]
      exact ⟨_, _, rfl⟩

/-- `Init` once the two identity parts succeeded. -/
theorem init_parts {h : Handle} {i1 i2 : DriveInfo} (env : Prog.Env DrvReq DrvRep) (hist : Prog.Trace DrvReq DrvRep)
    (h1 : initAtaPart h.dh h.info = .ret (i1, none)) (h2 : initNvmePart h.dh i1 = .ret (i2, none)) :
    OutT.run env hist h.init = match OutT.run env hist (Handle.tcgDiscovery0 { h with info := Handle.makeMap i2 }) with
      | (.ret (h', _), t) => (.ret (h', none), t)
      | (.panic, t) => (.panic, t)
      | (.running, t) => (.running, t) := by
  unfold Handle.init
  rw [h1, OutT.run_bind]
  simp only [OutT.run_lift_ret, h2]
  rw [OutT.run_bind]
  simp only [OutT.run_lift_ret, List.append_nil, List.nil_append]
  rw [OutT.run_bind]
  rcases OutT.run env hist (Handle.tcgDiscovery0 { h with info := Handle.makeMap i2 }) with ⟨o, t⟩
  cases o <;> simp

/-- The identity parts of a driver with a complete block. -/
theorem parts_ok (h : Handle) (d : Driver) (hd : h.dh = some d) (ha : d.ata = true → 512 ≤ d.identity.length)
    (hn : d.nvme = true → 4096 ≤ d.identity.length) :
    ∃ i1 i2, initAtaPart h.dh h.info = .ret (i1, none) ∧ initNvmePart h.dh i1 = .ret (i2, none) ∧
      (d.ata = true → initAta d.identity h.info = .ret (i1, none)) ∧
      (d.ata = false → i1 = h.info) ∧
      (d.nvme = true → initNvme d.identity i1 = .ret (i2, none)) ∧
      (d.nvme = false → i2 = i1) := by
  rw [hd]
  simp only [initAtaPart, initNvmePart]
  have a : ∃ i1, (if d.ata = true then initAta d.identity h.info else P.ret (h.info, none)) = .ret (i1, none) ∧
      (d.ata = true → initAta d.identity h.info = .ret (i1, none)) ∧ (d.ata = false → i1 = h.info) := by
    cases hda : d.ata with
    | false => exact ⟨h.info, rfl, fun x => by simp at x, fun _ => rfl⟩
    | true =>
      obtain ⟨i, hi, -⟩ := initAta_ok d.identity h.info (ha hda)
      exact ⟨i, by simp only [if_true]; exact hi, fun _ => hi, fun x => by simp at x⟩
  obtain ⟨i1, a1, a2, a3⟩ := a
  have b : ∃ i2, (if d.nvme = true then initNvme d.identity i1 else P.ret (i1, none)) = .ret (i2, none) ∧
      (d.nvme = true → initNvme d.identity i1 = .ret (i2, none)) ∧ (d.nvme = false → i2 = i1) := by
    cases hdn : d.nvme with
    | false => exact ⟨i1, rfl, fun x => by simp at x, fun _ => rfl⟩
    | true =>
      obtain ⟨i, hi, -⟩ := initNvme_ok d.identity i1 (hn hdn)
      exact ⟨i, by simp only [if_true]; exact hi, fun _ => hi, fun x => by simp at x⟩
  obtain ⟨i2, b1, b2, b3⟩ := b
  exact ⟨i1, i2, a1, b1, a2, a3, b2, b3⟩

theorem init_returns {h : Handle} {i1 i2 : DriveInfo} {env : Prog.Env DrvReq DrvRep} {hist : Prog.Trace DrvReq DrvRep}
    (h1 : initAtaPart h.dh h.info = .ret (i1, none)) (h2 : initNvmePart h.dh i1 = .ret (i2, none))
    {h' : Handle} {e : Option GoErr} (hr : (OutT.run env hist h.init).1 = .ret (h', e)) :
    e = none ∧ ∃ s l, h'.info = { i2 with tcgSupport := s, level0 := l } := by
  rw [init_parts env hist h1 h2] at hr
  rcases hs : OutT.run env hist (Handle.tcgDiscovery0 { h with info := Handle.makeMap i2 }) with ⟨o, t⟩
  rw [hs] at hr
  cases o with
  | panic => simp at hr
  | running => simp at hr
  | ret x =>
    obtain ⟨h'', e''⟩ := x
    simp only [Out.ret.injEq, Prod.mk.injEq] at hr
    obtain ⟨rfl, rfl⟩ := hr
    obtain ⟨s, l, hi⟩ := discovery_frame (h := { h with info := Handle.makeMap i2 }) (h' := h'') (e := e'')
      (env := env) (hist := hist) (by rw [hs])
    refine ⟨rfl, s, l, ?_⟩
    rw [hi]
    rfl

/-! ## The properties -/

/-- The ATA part for any raw serial buffer. -/
theorem ata_identity_any (h h' : Handle) (d : Driver) (e : Option GoErr) (env : Prog.Env DrvReq DrvRep)
    (hist : Prog.Trace DrvReq DrvRep) (hd : h.dh = some d) (ha : d.ata = true) (hn : d.nvme = false)
    (hl : 512 ≤ d.identity.length)
    (hr : (OutT.run env hist h.init).1 = .ret (h', e)) :
    e = none ∧
    (∃ m s f, PairSwapped (slice d.identity 54 40) m ∧ PairSwapped (slice d.identity 20 20) s ∧
      PairSwapped (slice d.identity 46 8) f ∧ Trimmed m h'.info.model ∧ Trimmed s h'.info.serial ∧
      Trimmed f h'.info.firmware ∧ h'.info.rawSerial = storeInto h.info.rawSerial s) ∧
    (h'.info.smartEnabled = true ↔ word d.identity 82 % 2 = 1 ∧ word d.identity 85 % 2 = 1) ∧
    h'.info.ssdCheckWeight = (if word d.identity 168 % 16 = 5 then 1 else 0) +
      (if word d.identity 217 = 0 ∨ word d.identity 217 = 1 then 1 else 0) ∧
    (h'.info.isSsd = true ↔ h'.info.ssdCheckWeight > 0) ∧
    h'.info.ataIdentityRaw = some d.identity := by
  obtain ⟨i1, i2, p1, p2, a1, -, -, b2⟩ := parts_ok h d hd (fun _ => hl) (fun x => by rw [hn] at x; simp at x)
  obtain ⟨he, s', l, hi⟩ := init_returns p1 p2 hr
  obtain ⟨i, hia, hf, hraw, -⟩ := initAta_ok d.identity h.info hl
  rw [a1 ha] at hia
  simp only [P.ret.injEq, Prod.mk.injEq, and_true] at hia
  have := b2 hn
  subst this
  subst hia
  obtain ⟨⟨m, s, f, x1, x2, x3, x4, x5, x6, x7⟩, y, z, w, -, -⟩ := hf
  rw [hi]
  exact ⟨he, ⟨m, s, f, x1, x2, x3, x4, x5, x6, x7⟩, y, z, w, hraw⟩

/-- **C48, C49 (ATA).** After `Init` on an ATA drive whose identity block is complete: model, serial and firmware
are bytes 54..93, 20..39 and 46..53 with each pair exchanged and blanks removed at both ends; the raw serial is
the exchanged, untrimmed 20 bytes; SMART is on exactly when bit 0 of words 82 and 85 is set; the SSD weight counts
form factor 5 and rotation rate 0 or 1; the drive is an SSD exactly if the weight is positive. -/
theorem ata_identity (h h' : Handle) (d : Driver) (e : Option GoErr) (env : Prog.Env DrvReq DrvRep)
    (hist : Prog.Trace DrvReq DrvRep) (hd : h.dh = some d) (ha : d.ata = true) (hn : d.nvme = false)
    (hl : 512 ≤ d.identity.length) (hrs : h.info.rawSerial.length = 20)
    (hr : (OutT.run env hist h.init).1 = .ret (h', e)) :
    e = none ∧
    (∃ m s f, PairSwapped (slice d.identity 54 40) m ∧ PairSwapped (slice d.identity 20 20) s ∧
      PairSwapped (slice d.identity 46 8) f ∧ Trimmed m h'.info.model ∧ Trimmed s h'.info.serial ∧
      Trimmed f h'.info.firmware ∧ h'.info.rawSerial = s) ∧
    (h'.info.smartEnabled = true ↔ word d.identity 82 % 2 = 1 ∧ word d.identity 85 % 2 = 1) ∧
    h'.info.ssdCheckWeight = (if word d.identity 168 % 16 = 5 then 1 else 0) +
      (if word d.identity 217 = 0 ∨ word d.identity 217 = 1 then 1 else 0) ∧
    (h'.info.isSsd = true ↔ h'.info.ssdCheckWeight > 0) ∧
    h'.info.ataIdentityRaw = some d.identity := by
  obtain ⟨he, ⟨m, s, f, x1, x2, x3, x4, x5, x6, x7⟩, rest⟩ := ata_identity_any h h' d e env hist hd ha hn hl hr
  refine ⟨he, ⟨m, s, f, x1, x2, x3, x4, x5, x6, ?_⟩, rest⟩
  rw [x7, storeInto_full]
  rw [x2.1, slice_length _ _ _ (by omega), hrs]

/-- The strings are determined by the block. -/
theorem ata_strings_unique {raw m m' o o' : Bytes} {a n : Nat} (hn : n % 2 = 0) (hl : a + n ≤ raw.length)
    (h : PairSwapped (slice raw a n) m) (h' : PairSwapped (slice raw a n) m') (ht : Trimmed m o) (ht' : Trimmed m' o') :
    o = o' := by
  have := pairSwapped_unique (by rw [slice_length _ _ _ hl]; exact hn) h h'
  subst this
  exact trimmed_unique ht ht'

/-- The NVMe part for any raw serial buffer. -/
theorem nvme_identity_any (h h' : Handle) (d : Driver) (e : Option GoErr) (env : Prog.Env DrvReq DrvRep)
    (hist : Prog.Trace DrvReq DrvRep) (hd : h.dh = some d) (hn : d.nvme = true)
    (hl : 4096 ≤ d.identity.length)
    (hr : (OutT.run env hist h.init).1 = .ret (h', e)) :
    e = none ∧ Trimmed (slice d.identity 24 40) h'.info.model ∧ Trimmed (slice d.identity 4 20) h'.info.serial ∧
    Trimmed (slice d.identity 64 8) h'.info.firmware ∧ 
    h'.info.smartEnabled = true ∧ h'.info.isSsd = true ∧ h'.info.ssdCheckWeight = 0 ∧
    h'.info.nvmeIdentityRaw = some d.identity := by
  obtain ⟨i1, i2, p1, p2, a1, a2, b1, -⟩ := parts_ok h d hd (fun _ => by omega) (fun _ => hl)
  obtain ⟨he, s', l, hi⟩ := init_returns p1 p2 hr
  obtain ⟨i, hin, hf⟩ := initNvme_ok d.identity i1 hl
  rw [b1 hn] at hin
  simp only [P.ret.injEq, Prod.mk.injEq, and_true] at hin
  subst hin
  rw [hi]
  exact ⟨he, hf.model, hf.serial, hf.firmware, hf.smart, hf.ssd, hf.weight, hf.raw⟩

/-- **C48, C49 (NVMe).** The strings are bytes 24..63, 4..23 and 64..71, unswapped and trimmed; the raw serial is the
untrimmed 20 bytes; SMART and SSD are always reported, with weight 0. -/
theorem nvme_identity (h h' : Handle) (d : Driver) (e : Option GoErr) (env : Prog.Env DrvReq DrvRep)
    (hist : Prog.Trace DrvReq DrvRep) (hd : h.dh = some d) (hn : d.nvme = true)
    (hl : 4096 ≤ d.identity.length) (hrs : h.info.rawSerial.length = 20)
    (hr : (OutT.run env hist h.init).1 = .ret (h', e)) :
    e = none ∧ Trimmed (slice d.identity 24 40) h'.info.model ∧ Trimmed (slice d.identity 4 20) h'.info.serial ∧
    Trimmed (slice d.identity 64 8) h'.info.firmware ∧ h'.info.rawSerial = slice d.identity 4 20 ∧
    h'.info.smartEnabled = true ∧ h'.info.isSsd = true ∧ h'.info.ssdCheckWeight = 0 ∧
    h'.info.nvmeIdentityRaw = some d.identity := by
  obtain ⟨i1, i2, p1, p2, a1, a2, b1, -⟩ := parts_ok h d hd (fun _ => by omega) (fun _ => hl)
  obtain ⟨he, s', l, hi⟩ := init_returns p1 p2 hr
  obtain ⟨i, hin, hf⟩ := initNvme_ok d.identity i1 hl
  rw [b1 hn] at hin
  simp only [P.ret.injEq, Prod.mk.injEq, and_true] at hin
  subst hin
  have hlen : i1.rawSerial.length = 20 := by
    cases hda : d.ata with
    | false => rw [a2 hda]; exact hrs
    | true =>
      obtain ⟨j, hj, hjf, -⟩ := initAta_ok d.identity h.info (by omega)
      rw [a1 hda] at hj
      simp only [P.ret.injEq, Prod.mk.injEq, and_true] at hj
      obtain ⟨m, s, f, -, -, -, -, -, -, x⟩ := hjf.strings
      rw [hj, x, storeInto_length, hrs]
  rw [hi]
  refine ⟨he, hf.model, hf.serial, hf.firmware, ?_, hf.smart, hf.ssd, hf.weight, hf.raw⟩
  show i2.rawSerial = _
  rw [hf.rawSerial, storeInto_full]
  rw [slice_length _ _ _ (by omega), hlen]

/-- **C50.** With a complete identity block `Init` makes exactly the exchanges of one discovery command; it panics
exactly if that command succeeds, announces at most 2048 bytes, and a descriptor overruns; otherwise it returns
nil, whatever the drive answered. -/
theorem init_outcome (h : Handle) (d : Driver) (env : Prog.Env DrvReq DrvRep) (hist : Prog.Trace DrvReq DrvRep)
    (hd : h.dh = some d) (ha : d.ata = true → 512 ≤ d.identity.length) (hn : d.nvme = true → 4096 ≤ d.identity.length) :
    ∃ r t, discoveryRun h env hist = (.ret r, t) ∧ (OutT.run env hist h.init).2 = t ∧
      ((OutT.run env hist h.init).1 = .panic ↔
        r.err = none ∧ announcedEnd r.data ≤ 2048 ∧ Overruns r.data 32 (announcedEnd r.data)) ∧
      ((OutT.run env hist h.init).1 = .panic ∨ ∃ h', (OutT.run env hist h.init).1 = .ret (h', none)) := by
  obtain ⟨i1, i2, p1, p2, -⟩ := parts_ok h d hd ha hn
  obtain ⟨r, t, hr, -⟩ := securityCommand_returns h false false 0x01 0x0001 (zeros Handle.discoverySize) 3 env hist
  have hr' : discoveryRun { h with info := Handle.makeMap i2 } env hist = (.ret r, t) := hr
  refine ⟨r, t, hr, ?_⟩
  rw [init_parts env hist p1 p2]
  cases he : r.err with
  | some e =>
    rw [discovery_run_err hr' he]
    exact ⟨rfl, ⟨fun x => by simp at x, fun x => by simp at x⟩, Or.inr ⟨_, rfl⟩⟩
  | none =>
    obtain ⟨o1, -, -, o4, o5⟩ := discovery_outcome (h := { h with info := Handle.makeMap i2 }) rfl hr' he
    rcases hs : OutT.run env hist (Handle.tcgDiscovery0 { h with info := Handle.makeMap i2 }) with ⟨o, t'⟩
    rw [hs] at o1 o4 o5
    simp only at o1 o4 o5
    cases o with
    | panic => exact ⟨o5, ⟨fun _ => ⟨rfl, o1.1 rfl⟩, fun _ => rfl⟩, Or.inl rfl⟩
    | running => simp at o4
    | ret x =>
      refine ⟨o5, ⟨fun y => by simp at y, fun y => ?_⟩, Or.inr ⟨_, rfl⟩⟩
      have := o1.2 y.2
      simp at this

/-- **C50.** With an identity block that is too short `Init` returns an end-of-data error, sends nothing and leaves
the TCG information as it was. The identity bytes themselves are recorded as they came, however short; nothing else
in the information changes if the block is too short for an ATA drive. -/
theorem init_short (h : Handle) (d : Driver) (env : Prog.Env DrvReq DrvRep) (hist : Prog.Trace DrvReq DrvRep)
    (hd : h.dh = some d)
    (hs : (d.ata = true ∧ d.identity.length < 512) ∨ (d.nvme = true ∧ d.identity.length < 4096)) :
    ∃ h' e, OutT.run env hist h.init = (.ret (h', some e), []) ∧ (e = .eof ∨ e = .unexpectedEof) ∧
      h'.dh = h.dh ∧ h'.info.level0 = h.info.level0 ∧ h'.info.tcgSupport = h.info.tcgSupport ∧
      (d.ata = true → h'.info.ataIdentityRaw = some d.identity) ∧
      (d.nvme = true → ¬ (d.ata = true ∧ d.identity.length < 512) → h'.info.nvmeIdentityRaw = some d.identity) ∧
      (d.ata = true → d.identity.length < 512 → h'.info = { h.info with ataIdentityRaw := some d.identity }) := by
  by_cases h1 : d.ata = true ∧ d.identity.length < 512
  · obtain ⟨i, e, hi, ho, hl0, hsu, hi'⟩ := initAta_short d.identity h.info h1.2
    have p : initAtaPart h.dh h.info = .ret (i, some e) := by
      rw [hd]; simp only [initAtaPart, h1.1, if_true]; exact hi
    unfold Handle.init
    rw [p, OutT.run_bind]
    exact ⟨_, e, rfl, ho, rfl, hl0, hsu, fun _ => by simp only [hi'], fun _ x => absurd h1 x, fun _ _ => hi'⟩
  · have h2 : d.nvme = true ∧ d.identity.length < 4096 := hs.resolve_left h1
    have p : ∃ i1, initAtaPart h.dh h.info = .ret (i1, none) ∧ i1.level0 = h.info.level0 ∧
        i1.tcgSupport = h.info.tcgSupport ∧ (d.ata = true → i1.ataIdentityRaw = some d.identity) := by
      rw [hd]
      simp only [initAtaPart]
      cases ha : d.ata with
      | false => exact ⟨_, rfl, rfl, rfl, fun x => by cases x⟩
      | true =>
        obtain ⟨i, hi, hf, hraw, -⟩ := initAta_ok d.identity h.info (by
          rcases Nat.lt_or_ge d.identity.length 512 with x | x
          · exact absurd ⟨ha, x⟩ h1
          · exact x)
        exact ⟨i, by simp only [if_true]; exact hi, hf.keptLevel0, hf.keptSupport, fun _ => hraw⟩
    obtain ⟨i1, p1, k1, k2, k3⟩ := p
    obtain ⟨i, e, hi, ho, hl0, hsu, hi'⟩ := initNvme_short d.identity i1 h2.2
    have q : initNvmePart h.dh i1 = .ret (i, some e) := by
      rw [hd]; simp only [initNvmePart, h2.1, if_true]; exact hi
    unfold Handle.init
    rw [p1, OutT.run_bind]
    simp only [OutT.run_lift_ret, q]
    rw [OutT.run_bind]
    exact ⟨_, e, rfl, ho, rfl, hl0.trans k1, hsu.trans k2, fun x => by simp only [hi']; exact k3 x,
      fun _ _ => by simp only [hi'], fun x y => absurd ⟨x, y⟩ h1⟩

/-- **C79.** After `Init` on an NVMe drive, integer field number `k` of the decoded identity record (which starts at
the sum of the sizes of the fields before it) is the big-endian value of its bytes; this is the value the drive
stored (little-endian) exactly if the bytes read the same backwards. -/
theorem nvme_record_big_endian (h h' : Handle) (d : Driver) (e : Option GoErr) (env : Prog.Env DrvReq DrvRep)
    (hist : Prog.Trace DrvReq DrvRep) (hd : h.dh = some d) (hn : d.nvme = true)
    (hl : 4096 ≤ d.identity.length) (hr : (OutT.run env hist h.init).1 = .ret (h', e))
    (k : Nat) (hk : k < Layout.nvmeIdentity.length) :
    h'.info.nvmeUint k =
      some (beVal (slice d.identity (Layout.nvmeIdentity.take k).sum (Layout.nvmeIdentity.getD k 0))) ∧
    (h'.info.nvmeUint k =
      some (leVal (slice d.identity (Layout.nvmeIdentity.take k).sum (Layout.nvmeIdentity.getD k 0))) ↔
      (slice d.identity (Layout.nvmeIdentity.take k).sum (Layout.nvmeIdentity.getD k 0)).reverse =
        slice d.identity (Layout.nvmeIdentity.take k).sum (Layout.nvmeIdentity.getD k 0)) := by
  obtain ⟨i1, i2, p1, p2, -, -, b1, -⟩ := parts_ok h d hd (fun _ => by omega) (fun _ => hl)
  obtain ⟨he, s', l, hi⟩ := init_returns p1 p2 hr
  obtain ⟨i, hin, hf⟩ := initNvme_ok d.identity i1 hl
  rw [b1 hn] at hin
  simp only [P.ret.injEq, Prod.mk.injEq, and_true] at hin
  subst hin
  have hrec : h'.info.nvmeIdentity = some (pieces Layout.nvmeIdentity d.identity) := by
    rw [hi]; exact hf.record
  unfold DriveInfo.nvmeUint
  rw [hrec]
  simp only [Option.map_some]
  rw [nvme_field _ _ hk]
  generalize slice d.identity (Layout.nvmeIdentity.take k).sum (Layout.nvmeIdentity.getD k 0) = s
  refine ⟨rfl, ?_, ?_⟩
  · intro hh
    simp only [Option.some.injEq] at hh
    rw [← leVal_reverse] at hh
    have e1 := leBytes_leVal s.reverse
    have e2 := leBytes_leVal s
    rw [hh, List.length_reverse, e2] at e1
    exact e1.symm
  · intro hh
    rw [← leVal_reverse, hh]

/-- **C79**, three named fields: `Vid` (bytes 0..1), `Cntlid` (bytes 78..79) and `Nn`, the number of namespaces
(bytes 516..519). -/
theorem nvme_named_fields (h h' : Handle) (d : Driver) (e : Option GoErr) (env : Prog.Env DrvReq DrvRep)
    (hist : Prog.Trace DrvReq DrvRep) (hd : h.dh = some d) (hn : d.nvme = true)
    (hl : 4096 ≤ d.identity.length) (hr : (OutT.run env hist h.init).1 = .ret (h', e)) :
    h'.info.nvmeUint 0 = some (beVal (slice d.identity 0 2)) ∧
    h'.info.nvmeUint 9 = some (beVal (slice d.identity 78 2)) ∧
    h'.info.nvmeUint 63 = some (beVal (slice d.identity 516 4)) := by
  have key := nvme_record_big_endian h h' d e env hist hd hn hl hr
  refine ⟨?_, ?_, ?_⟩
  · exact (key 0 (by decide +kernel)).1
  · exact (key 9 (by decide +kernel)).1
  · exact (key 63 (by decide +kernel)).1

/-! ## The hypotheses are met -/

/-- A complete ATA block: model "ab..", words 82 and 85 odd, rotation rate 7200. -/
def sampleAta : Bytes :=
  zeros 54 ++ [0x62, 0x61] ++ zeros 108 ++ [0x01, 0x00] ++ zeros 4 ++ [0x01, 0x00] ++ zeros 262 ++ [0x20, 0x1c] ++ zeros 76

example : sampleAta.length = 512 := by decide +kernel
example : (match (OutT.run (fun _ _ => { err := some .eof }) []
    (Handle.init (Handle.mk (some { ata := true, nvme := false, identity := sampleAta }) {}))).1 with
    | .ret (h, e) => (h.info.model, h.info.smartEnabled, h.info.isSsd, h.info.rawSerial.length, e)
    | _ => ([], false, true, 0, some .eof)) = ([0x61, 0x62], true, false, 20, none) := by decide +kernel

/-- A complete NVMe block: vendor 0x144d stored as 4d 14. -/
def sampleNvme : Bytes := [0x4d, 0x14] ++ zeros 22 ++ [0x20, 0x58] ++ zeros 4070

example : sampleNvme.length = 4096 := by decide +kernel

example : ∃ h', (OutT.run (fun _ _ => { err := some .eof }) []
    (Handle.init (Handle.mk (some { ata := false, nvme := true, identity := sampleNvme }) {}))).1 = .ret (h', none) ∧
    h'.info.nvmeUint 0 = some 0x4d14 := by
  have hl : 4096 ≤ sampleNvme.length := by decide +kernel
  obtain ⟨r, t, hr, -, hp, ho⟩ := init_outcome (Handle.mk (some { ata := false, nvme := true, identity := sampleNvme }) {})
    _ (fun _ _ => { err := some .eof }) [] rfl (fun x => by simp at x) (fun _ => hl)
  rcases ho with ho | ⟨h', ho⟩
  · have := (hp.1 ho).1
    have e : (discoveryRun (Handle.mk (some { ata := false, nvme := true, identity := sampleNvme }) {})
      (fun _ _ => { err := some .eof }) []).1 = .ret r := by rw [hr]
    simp only [discoveryRun, Handle.securityCommand] at e
    rw [OutT.run_ask_bind] at e
    simp only [Bool.false_eq_true, if_false, if_true] at e
    rw [OutT.run_ask_bind] at e
    simp only [OutT.run_ret, Out.ret.injEq] at e
    rw [← e] at this
    simp at this
  · refine ⟨h', ho, ?_⟩
    rw [(nvme_named_fields _ h' _ none _ _ rfl rfl hl ho).1]
    decide +kernel

example : (match (OutT.run (fun _ _ => { err := some .eof }) []
    (Handle.init (Handle.mk (some { ata := true, nvme := false, identity := [1, 2, 3] }) {}))).1 with
    | .ret (_, e) => e
    | _ => none) = some .unexpectedEof := by decide +kernel

end Dparm
