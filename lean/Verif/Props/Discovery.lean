import Verif.Lemmas.Handle
import Verif.Lemmas.Struc
/-!
# Level 0 discovery (C34 to C43)

`discoveryRun h env hist` is the security command discovery sends (protocol 1, ComID 1, a zeroed 2048-byte
buffer); its result `r` carries the buffer content afterwards.
-/
namespace Dparm
open Spec

variable {h : Handle} {env : Prog.Env DrvReq DrvRep} {hist : Prog.Trace DrvReq DrvRep}
  {r : SecRep} {t : Prog.Trace DrvReq DrvRep}

/-- The result of a successful discovery in terms of the descriptors. -/
theorem discovery_learns (hm : h.info.level0.made = true) (hr : discoveryRun h env hist = (.ret r, t))
    (he : r.err = none) {ds : List Bytes} (ha : announcedEnd r.data ≤ 2048)
    (hc : Cut r.data 32 (announcedEnd r.data) ds) :
    OutT.run env hist h.tcgDiscovery0 =
      (.ret ({ h with info := Handle.afterParse h.info (learn r.data r.behind 32 h.info.level0 ds) }, none), t) := by
  have hl := discovery_data_length hr
  rw [discovery_run_ok hr he]
  rcases parse_spec h.info.level0 r.data r.behind hm with ⟨a, b⟩ | ⟨a, o, b⟩ | ⟨a, es, c, b⟩
  · omega
  · exact absurd o (cut_not_overruns hc)
  · rw [cut_unique hc c, b]

/-- **C37.** Discovery always ends. After an error-free security command it panics exactly if the announced
length is at most 2048 and some descriptor reached from byte 32 does not fit into the 2048 bytes; it reports
"length overflow" exactly if the announced length exceeds 2048; it returns nil exactly if the bytes from 32
on are descriptors up to the announced end. No other outcome exists, and nothing else is sent. -/
theorem discovery_outcome (hm : h.info.level0.made = true) (hr : discoveryRun h env hist = (.ret r, t))
    (he : r.err = none) :
    ((OutT.run env hist h.tcgDiscovery0).1 = .panic ↔
      announcedEnd r.data ≤ 2048 ∧ Overruns r.data 32 (announcedEnd r.data)) ∧
    ((∃ h', (OutT.run env hist h.tcgDiscovery0).1 = .ret (h', some (.msg "invalid data: length overflow"))) ↔
      announcedEnd r.data > 2048) ∧
    ((∃ h', (OutT.run env hist h.tcgDiscovery0).1 = .ret (h', none)) ↔
      announcedEnd r.data ≤ 2048 ∧ ∃ ds, Cut r.data 32 (announcedEnd r.data) ds) ∧
    ((OutT.run env hist h.tcgDiscovery0).1 = .panic ∨
      (∃ h', (OutT.run env hist h.tcgDiscovery0).1 = .ret (h', some (.msg "invalid data: length overflow"))) ∨
      (∃ h', (OutT.run env hist h.tcgDiscovery0).1 = .ret (h', none))) ∧
    (OutT.run env hist h.tcgDiscovery0).2 = t := by
  have hl := discovery_data_length hr
  rw [discovery_run_ok hr he]
  rcases parse_spec h.info.level0 r.data r.behind hm with ⟨a, b⟩ | ⟨a, o, b⟩ | ⟨a, ds, c, b⟩
  · rw [b]
    refine ⟨⟨fun x => absurd x (by simp), fun x => by omega⟩, ⟨fun _ => by omega, fun _ => ⟨_, rfl⟩⟩,
      ⟨fun x => ?_, fun x => by omega⟩, Or.inr (Or.inl ⟨_, rfl⟩), rfl⟩
    obtain ⟨h', x⟩ := x
    simp at x
  · rw [b]
    refine ⟨⟨fun _ => ⟨by omega, o⟩, fun _ => rfl⟩, ⟨fun x => ?_, fun x => by omega⟩, ⟨fun x => ?_, fun x => ?_⟩,
      Or.inl rfl, rfl⟩
    · obtain ⟨h', x⟩ := x; simp at x
    · obtain ⟨h', x⟩ := x; simp at x
    · obtain ⟨ds, c⟩ := x.2
      exact absurd o (cut_not_overruns c)
  · rw [b]
    refine ⟨⟨fun x => absurd x (by simp), fun x => absurd x.2 (cut_not_overruns c)⟩, ⟨fun x => ?_, fun x => by omega⟩,
      ⟨fun _ => ⟨by omega, ds, c⟩, fun _ => ⟨_, rfl⟩⟩, Or.inr (Or.inr ⟨_, rfl⟩), rfl⟩
    obtain ⟨h', x⟩ := x
    simp at x

/-- **C38.** After a successful discovery each flag is set exactly if it was set before or one of the
descriptors carries its code (on a fresh handle: exactly if one of the descriptors does). -/
theorem discovery_flags (hm : h.info.level0.made = true) (hr : discoveryRun h env hist = (.ret r, t))
    (he : r.err = none) {ds : List Bytes} (ha : announcedEnd r.data ≤ 2048)
    (hc : Cut r.data 32 (announcedEnd r.data) ds) :
    ∃ h', (OutT.run env hist h.tcgDiscovery0).1 = .ret (h', none) ∧
      ∀ code before after, (code, before) ∈ flags h.info.level0 → (code, after) ∈ flags h'.info.level0 →
        (after = true ↔ before = true ∨ Reports ds code) := by
  rw [discovery_learns hm hr he ha hc]
  refine ⟨_, rfl, ?_⟩
  intro code before after hb hb'
  obtain ⟨p, hp, rfl, rfl⟩ := mem_flags.1 hb
  obtain ⟨q, hq, hpq, rfl⟩ := mem_flags.1 hb'
  obtain rfl := flagFns_unique hp hq hpq.symm
  exact learn_flag r.data r.behind p hp ds 32 h.info.level0

/-- **C38**, on a handle without any flag: the flags are exactly the codes met. -/
theorem discovery_flags_fresh (hm : h.info.level0.made = true) (hf : ∀ b ∈ flags h.info.level0, b.2 = false)
    (hr : discoveryRun h env hist = (.ret r, t)) (he : r.err = none) {ds : List Bytes}
    (ha : announcedEnd r.data ≤ 2048) (hc : Cut r.data 32 (announcedEnd r.data) ds) :
    ∃ h', (OutT.run env hist h.tcgDiscovery0).1 = .ret (h', none) ∧
      ∀ b ∈ flags h'.info.level0, (b.2 = true ↔ Reports ds b.1) := by
  rw [discovery_learns hm hr he ha hc]
  refine ⟨_, rfl, ?_⟩
  intro b hb
  rw [flags_eq] at hb hf
  obtain ⟨p, hp, rfl⟩ := List.mem_map.1 hb
  have h0 : p.2 h.info.level0 = false := hf _ (List.mem_map.2 ⟨p, hp, rfl⟩)
  have := learn_flag r.data r.behind p hp ds 32 h.info.level0
  rw [h0] at this
  exact this.trans (by simp)

/-- **C39.** After a successful discovery the raw feature of code `c` is the complete last descriptor with
that code; without such a descriptor it is what it was before (on a fresh handle: absent). -/
theorem discovery_raw (hm : h.info.level0.made = true) (hr : discoveryRun h env hist = (.ret r, t))
    (he : r.err = none) {ds : List Bytes} (ha : announcedEnd r.data ≤ 2048)
    (hc : Cut r.data 32 (announcedEnd r.data) ds) :
    ∃ h', (OutT.run env hist h.tcgDiscovery0).1 = .ret (h', none) ∧
      ∀ c : BitVec 16, (h'.info.level0.raw c).map (·.data) =
        match lastWith ds c.toNat with
        | some d => some d
        | none => (h.info.level0.raw c).map (·.data) := by
  rw [discovery_learns hm hr he ha hc]
  refine ⟨_, rfl, ?_⟩
  intro c
  obtain ⟨a1, a2⟩ := learn_raw (behind := r.behind) (i := h.info.level0) hc c
  show ((learn r.data r.behind 32 h.info.level0 ds).raw c).map (·.data) = _
  cases hw : lastWith ds c.toNat with
  | none => rw [a1 hw]
  | some d =>
    obtain ⟨pos, p1, p2, _⟩ := a2 d hw
    rw [p1]
    simp only [Option.map_some]
    rw [rawItem_data p2]

/-- **C41.** The support indicator: -1 exactly if the security command failed with "not supported", 0 on any
other error, 1 whenever it succeeded (also if the response is then rejected); after a failure the whole
level-0 information is as before. -/
theorem discovery_support (hm : h.info.level0.made = true) (hr : discoveryRun h env hist = (.ret r, t)) :
    (∀ e, r.err = some e → ∃ h', OutT.run env hist h.tcgDiscovery0 = (.ret (h', some e), t) ∧
      (h'.info.tcgSupport = -1 ↔ e = .msg "not supported") ∧
      (h'.info.tcgSupport = 0 ↔ e ≠ .msg "not supported") ∧
      h'.info.level0 = h.info.level0) ∧
    (r.err = none → ∀ h' e, (OutT.run env hist h.tcgDiscovery0).1 = .ret (h', e) → h'.info.tcgSupport = 1 ∧
      (e ≠ none → h'.info.level0 = h.info.level0)) := by
  constructor
  · intro e he
    rw [discovery_run_err hr he]
    refine ⟨_, rfl, ?_, ?_, rfl⟩
    all_goals
      simp only [Handle.afterFailure, GoErr.isNotSupported]
      cases e <;> simp
  · intro he h' e hh
    rw [discovery_run_ok hr he] at hh
    rcases parse_spec h.info.level0 r.data r.behind hm with ⟨a, b⟩ | ⟨a, o, b⟩ | ⟨a, ds, c, b⟩
    · rw [b] at hh
      simp only [Out.ret.injEq, Prod.mk.injEq] at hh
      rw [← hh.1]
      exact ⟨rfl, fun _ => rfl⟩
    · rw [b] at hh
      simp at hh
    · rw [b] at hh
      simp only [Out.ret.injEq, Prod.mk.injEq] at hh
      rw [← hh.1]
      exact ⟨rfl, fun x => absurd hh.2.symm x⟩

/-- One discovery keeps what is known, in every case. -/
theorem discovery_keeps (hm : h.info.level0.made = true) {h' : Handle} {e : Option GoErr}
    (hh : (OutT.run env hist h.tcgDiscovery0).1 = .ret (h', e)) :
    h'.info.level0.made = true ∧ h'.dh = h.dh ∧
    (∀ p ∈ flagFns, p.2 h.info.level0 = true → p.2 h'.info.level0 = true) ∧
    ∀ c, (h.info.level0.raw c).isSome → (h'.info.level0.raw c).isSome := by
  obtain ⟨r, t, hr, _⟩ := securityCommand_returns h false false 0x01 0x0001 (zeros Handle.discoverySize) 3 env hist
  cases he : r.err with
  | some e0 =>
    rw [discovery_run_err hr he] at hh
    simp only [Out.ret.injEq, Prod.mk.injEq] at hh
    rw [← hh.1]
    exact ⟨hm, rfl, fun _ _ x => x, fun _ x => x⟩
  | none =>
    rw [discovery_run_ok hr he] at hh
    rcases parse_spec h.info.level0 r.data r.behind hm with ⟨a, b⟩ | ⟨a, o, b⟩ | ⟨a, ds, c, b⟩
    · rw [b] at hh
      simp only [Out.ret.injEq, Prod.mk.injEq] at hh
      rw [← hh.1]
      exact ⟨hm, rfl, fun _ _ x => x, fun _ x => x⟩
    · rw [b] at hh
      simp at hh
    · rw [b] at hh
      simp only [Out.ret.injEq, Prod.mk.injEq] at hh
      rw [← hh.1]
      refine ⟨?_, rfl, ?_, ?_⟩
      · show (learn r.data r.behind 32 h.info.level0 ds).made = true
        rw [learn_made, hm]
      · intro p hp x
        exact (learn_flag r.data r.behind p hp ds 32 h.info.level0).2 (Or.inl x)
      · intro k x
        obtain ⟨a1, a2⟩ := learn_raw (behind := r.behind) (i := h.info.level0) c k
        show ((learn r.data r.behind 32 h.info.level0 ds).raw k).isSome = true
        cases hw : lastWith ds k.toNat with
        | none => rw [a1 hw]; exact x
        | some d => obtain ⟨pos, p1, _⟩ := a2 d hw; rw [p1]; rfl

/-- `n` discoveries one after another, whatever each of them returns. -/
def rediscover : Nat → Handle → DrvM Handle
  | 0, h => OutT.ret h
  | n + 1, h => do
    let (h', _) ← h.tcgDiscovery0
    rediscover n h'

/-- **C42.** Across any number of discoveries, with any answers, a flag once set stays set and a raw feature
once present stays present. -/
theorem rediscovery_never_forgets (n : Nat) : ∀ (h : Handle) (env : Prog.Env DrvReq DrvRep)
    (hist : Prog.Trace DrvReq DrvRep) (_ : h.info.level0.made = true) (h' : Handle),
    (OutT.run env hist (rediscover n h)).1 = .ret h' →
    (∀ code, (code, true) ∈ flags h.info.level0 → (code, true) ∈ flags h'.info.level0) ∧
    ∀ c, (h.info.level0.raw c).isSome → (h'.info.level0.raw c).isSome := by
  have key : ∀ n : Nat, ∀ (h : Handle) (env : Prog.Env DrvReq DrvRep)
    (hist : Prog.Trace DrvReq DrvRep) (_ : h.info.level0.made = true) (h' : Handle),
    (OutT.run env hist (rediscover n h)).1 = .ret h' →
    (∀ p ∈ flagFns, p.2 h.info.level0 = true → p.2 h'.info.level0 = true) ∧
    ∀ c, (h.info.level0.raw c).isSome → (h'.info.level0.raw c).isSome := by
    intro n
    induction n with
    | zero =>
      intro h env hist hm h' hh
      simp only [rediscover, OutT.run_ret, Out.ret.injEq] at hh
      subst hh
      exact ⟨fun _ _ x => x, fun _ x => x⟩
    | succ n ih =>
      intro h env hist hm h' hh
      simp only [rediscover] at hh
      rw [OutT.run_bind] at hh
      rcases hs : OutT.run env hist h.tcgDiscovery0 with ⟨o, t⟩
      rw [hs] at hh
      cases o with
      | panic => simp at hh
      | running => simp at hh
      | ret x =>
        obtain ⟨h1, e⟩ := x
        obtain ⟨k1, k2, k3, k4⟩ := discovery_keeps hm (h' := h1) (e := e) (by rw [hs])
        obtain ⟨i1, i2⟩ := ih h1 env (hist ++ t) k1 h' hh
        exact ⟨fun p hp x => i1 p hp (k3 p hp x), fun c x => i2 c (k4 c x)⟩
  intro h env hist hm h' hh
  obtain ⟨k1, k2⟩ := key n h env hist hm h' hh
  refine ⟨?_, k2⟩
  intro code hb
  obtain ⟨p, hp, rfl, h1⟩ := mem_flags.1 hb
  exact mem_flags.2 ⟨p, hp, rfl, k1 p hp h1⟩


/-! ## C43: typed decoders -/

/-- The number at `n` bytes from `i`, most significant byte first, of a 16-byte union. -/
def unionNum (u : Bytes) (i n : Nat) : Nat := Spec.beVal ((List.range n).map fun k => u.getD (i + k) 0)

/-- The four-byte descriptor head as the TCG specification lays it out: code, version nibble, length. -/
def HeadOf (u : Bytes) (f : BasicFeature) : Prop :=
  f.code.toNat = unionNum u 0 2 ∧ (getVersion f.b02).toNat = unionNum u 2 1 / 16 ∧ f.length.toNat = unionNum u 3 1

/-- **C43.** On every 16-byte union content the four short decoders succeed, each field being the big-endian number at its
offset in the TCG descriptor, and the five longer ones fail. -/
theorem union_decoders (u : Bytes) (hu : u.length = 16) :
    (∃ f, toBasic u = .ret (.ok f) ∧ HeadOf u f) ∧
    (∃ f, toOpalV100 u = .ret (.ok f) ∧ HeadOf u f.toBasicFeature ∧ f.baseComID.toNat = unionNum u 4 2 ∧
      f.numComIDs.toNat = unionNum u 6 2) ∧
    (∃ f, toSingleUser u = .ret (.ok f) ∧ HeadOf u f.toBasicFeature ∧ f.numberLockingObj.toNat = unionNum u 4 4 ∧
      f.b08.toNat = unionNum u 8 1) ∧
    (∃ f, toDataStore u = .ret (.ok f) ∧ HeadOf u f.toBasicFeature ∧ f.maxTables.toNat = unionNum u 6 2 ∧
      f.maxSizeTables.toNat = unionNum u 8 4 ∧ f.tableSizeAlignment.toNat = unionNum u 12 4) ∧
    (∀ l ∈ [Layout.tper, Layout.locking, Layout.geometry, Layout.opalV200, Layout.enterprise],
      ∃ e, unionDecode l u = .ret (.err e)) := by
  have ok : ∀ l : List Nat, l.sum ≤ 16 → unionDecode l u = .ret (.ok (pieces l u)) :=
    fun l hl => (unpackBytes_spec l u).1 (by omega)
  have bad : ∀ l : List Nat, 16 < l.sum → ∃ e, unionDecode l u = .ret (.err e) := by
    intro l hl
    obtain ⟨e, he, _⟩ := (unpackBytes_spec l u).2 (by omega)
    exact ⟨e, he⟩
  have dec : ∀ {α : Type} (l : List Nat) (mk : List Bytes → α), l.sum ≤ 16 → decodeAs l u mk = .ret (.ok (mk (pieces l u))) := by
    intro α l mk hl
    unfold decodeAs
    rw [ok l hl]
  have num : ∀ w i n, 8 * n = w → i + n ≤ 16 → (BitVec.ofNat w (Spec.beVal (slice u i n))).toNat = unionNum u i n := by
    intro w i n hw hn
    have e : (List.range n).map (fun k => u.getD (i + k) 0) = slice u i n := by
      apply List.ext_getElem
      · simp [slice]; omega
      · intro k h1 h2
        simp [slice] at h1 h2 ⊢
        rw [List.getElem?_eq_getElem (by omega)]
        rfl
    unfold unionNum
    rw [e, BitVec.toNat_ofNat, Nat.mod_eq_of_lt]
    have := beVal_lt (slice u i n)
    have hl : (slice u i n).length ≤ n := by simp [slice]; omega
    refine Nat.lt_of_lt_of_le this ?_
    rw [← hw, show (256 : Nat) = 2 ^ 8 from rfl, ← Nat.pow_mul]
    exact Nat.pow_le_pow_right (by omega) (by omega)
  have ver : (getVersion (BitVec.ofNat 8 (Spec.beVal (slice u 2 1)))).toNat = unionNum u 2 1 / 16 := by
    rw [← num 8 2 1 rfl (by omega)]
    have key : ∀ b : Byte, (getVersion b).toNat = b.toNat / 16 := by decide
    exact key _
  have p1 : pieces Layout.basic u = [slice u 0 2, slice u 2 1, slice u 3 1] := by
    simp [pieces, Layout.basic, slice]
  have p2 : pieces Layout.opalV100 u = [slice u 0 2, slice u 2 1, slice u 3 1, slice u 4 2, slice u 6 2] := by
    simp [pieces, Layout.opalV100, slice]
  have p3 : pieces Layout.singleUser u = [slice u 0 2, slice u 2 1, slice u 3 1, slice u 4 4, slice u 8 1,
      slice u 9 1, slice u 10 2, slice u 12 4] := by
    simp [pieces, Layout.singleUser, slice]
  have p4 : pieces Layout.dataStore u = [slice u 0 2, slice u 2 1, slice u 3 1, slice u 4 2, slice u 6 2,
      slice u 8 4, slice u 12 4] := by
    simp [pieces, Layout.dataStore, slice]
  have d1 := fun mk : List Bytes → BasicFeature => dec Layout.basic mk (by decide)
  have d2 := fun mk : List Bytes → OpalV100Feature => dec Layout.opalV100 mk (by decide)
  have d3 := fun mk : List Bytes → SingleUserFeature => dec Layout.singleUser mk (by decide)
  have d4 := fun mk : List Bytes → DataStoreFeature => dec Layout.dataStore mk (by decide)
  rw [p1] at d1
  rw [p2] at d2
  rw [p3] at d3
  rw [p4] at d4
  refine ⟨⟨_, d1 _, num 16 0 2 rfl (by omega), ver, num 8 3 1 rfl (by omega)⟩,
    ⟨_, d2 _, ⟨num 16 0 2 rfl (by omega), ver, num 8 3 1 rfl (by omega)⟩, ?_, ?_⟩,
    ⟨_, d3 _, ⟨num 16 0 2 rfl (by omega), ver, num 8 3 1 rfl (by omega)⟩, ?_, ?_⟩,
    ⟨_, d4 _, ⟨num 16 0 2 rfl (by omega), ver, num 8 3 1 rfl (by omega)⟩, ?_, ?_, ?_⟩, ?_⟩
  · exact num 16 4 2 rfl (by omega)
  · exact num 16 6 2 rfl (by omega)
  · exact num 32 4 4 rfl (by omega)
  · exact num 8 8 1 rfl (by omega)
  · exact num 16 6 2 rfl (by omega)
  · exact num 32 8 4 rfl (by omega)
  · exact num 32 12 4 rfl (by omega)
  · intro l hl
    apply bad
    simp only [List.mem_cons, List.not_mem_nil, or_false] at hl
    rcases hl with rfl | rfl | rfl | rfl | rfl <;> decide

example : toOpalV100 ([0x02, 0x00, 0x10, 0x10, 0x10, 0x04, 0x00, 0x02] ++ zeros 8) =
    .ret (.ok { code := 0x0200, b02 := 0x10, length := 0x10, baseComID := 0x1004, numComIDs := 2 }) := by decide

/-! ## C40: the vendor area -/

theorem zero_descriptor : IsDescriptor [0, 0, 0, 0] := ⟨0, 0, 0, 0, [], rfl, rfl⟩

theorem zero_prefix {buf : Bytes} {s : Nat} (hz : slice buf s 4 = [0, 0, 0, 0]) : [0, 0, 0, 0] <+: buf.drop s := by
  rw [← hz]; exact List.take_prefix _ _

theorem cut_vendor {buf : Bytes} {e s m : Nat} {ds : List Bytes} (hz : slice buf s 4 = [0, 0, 0, 0])
    (hm : s + 4 ≤ m) (hd : e ≤ m → ds = [])
    (h : ∃ zs : List Bytes, (∀ z ∈ zs, z = [0, 0, 0, 0]) ∧ Cut buf (s + 4) e (zs ++ ds)) :
    ∃ zs : List Bytes, (∀ z ∈ zs, z = [0, 0, 0, 0]) ∧ Cut buf s e (zs ++ ds) := by
  obtain ⟨zs, h1, h2⟩ := h
  by_cases hs : s < e
  · refine ⟨[0, 0, 0, 0] :: zs, ?_, ?_⟩
    · intro z hz'
      rcases List.mem_cons.1 hz' with rfl | hz'
      · rfl
      · exact h1 z hz'
    · exact cut_cons.2 ⟨hs, zero_descriptor, zero_prefix hz, h2⟩
  · refine ⟨[], by simp, ?_⟩
    rw [hd (by omega)]
    exact cut_nil.2 (by omega)

theorem vendor_words {buf : Bytes} (hz : slice buf 32 16 = zeros 16) :
    slice buf 32 4 = [0, 0, 0, 0] ∧ slice buf 36 4 = [0, 0, 0, 0] ∧ slice buf 40 4 = [0, 0, 0, 0] ∧
    slice buf 44 4 = [0, 0, 0, 0] := by
  have k : ∀ b, b + 4 ≤ 16 → slice buf (32 + b) 4 = slice (zeros 16) b 4 := by
    intro b hb
    rw [← hz, slice_slice _ _ _ _ _ hb]
  exact ⟨k 0 (by omega), k 4 (by omega), k 8 (by omega), k 12 (by omega)⟩

theorem cut_from_32 {buf : Bytes} {e : Nat} {ds : List Bytes} (hz : slice buf 32 16 = zeros 16)
    (h : Cut buf 48 e ds) :
    ∃ zs : List Bytes, (∀ z ∈ zs, z = [0, 0, 0, 0]) ∧ Cut buf 32 e (zs ++ ds) := by
  obtain ⟨z1, z2, z3, z4⟩ := vendor_words hz
  have hd : e ≤ 48 → ds = [] := fun he => cut_unique h (cut_nil.2 he)
  exact cut_vendor z1 (by omega) hd (cut_vendor z2 (by omega) hd (cut_vendor z3 (by omega) hd
    (cut_vendor z4 (by omega) hd ⟨[], by simp, h⟩)))

theorem overruns_from_32 {buf : Bytes} {e : Nat} (hz : slice buf 32 16 = zeros 16) :
    Overruns buf 32 e ↔ Overruns buf 48 e := by
  obtain ⟨z1, z2, z3, z4⟩ := vendor_words hz
  rw [overruns_step zero_descriptor (zero_prefix z1)]
  show Overruns buf 36 e ↔ _
  rw [overruns_step zero_descriptor (zero_prefix z2)]
  show Overruns buf 40 e ↔ _
  rw [overruns_step zero_descriptor (zero_prefix z3)]
  show Overruns buf 44 e ↔ _
  rw [overruns_step zero_descriptor (zero_prefix z4)]
  exact Iff.rfl

theorem reports_zeros {zs ds : List Bytes} (hz : ∀ z ∈ zs, z = [0, 0, 0, 0]) {c : Nat} (hc : c ≠ 0) :
    (Reports (zs ++ ds) c ↔ Reports ds c) ∧ lastWith (zs ++ ds) c = lastWith ds c := by
  have hcode : ∀ z ∈ zs, descCode z ≠ c := by
    intro z hzz
    rw [hz z hzz]
    have : descCode [0, 0, 0, 0] = 0 := by decide
    omega
  constructor
  · constructor
    · rintro ⟨d, hd, e⟩
      rcases List.mem_append.1 hd with h1 | h1
      · exact absurd e (hcode d h1)
      · exact ⟨d, h1, e⟩
    · rintro ⟨d, hd, e⟩
      exact ⟨d, List.mem_append_right _ hd, e⟩
  · unfold lastWith
    rw [List.filter_append]
    have : zs.filter (fun d => descCode d == c) = [] := by
      rw [List.filter_eq_nil_iff]
      intro z hzz
      simpa using hcode z hzz
    rw [this, List.nil_append]

/-- **C40.** With a zero vendor area the discovery that starts at byte 32 behaves as one that starts at byte 48:
it panics exactly if a descriptor reached from 48 overruns, and otherwise the flags and all raw features but
the one of code 0 are those of the descriptors from 48 on. -/
theorem discovery_vendor_zero (hm : h.info.level0.made = true) (hr : discoveryRun h env hist = (.ret r, t))
    (he : r.err = none) (ha : announcedEnd r.data ≤ 2048) (hz : slice r.data 32 16 = zeros 16) :
    ((OutT.run env hist h.tcgDiscovery0).1 = .panic ↔ Overruns r.data 48 (announcedEnd r.data)) ∧
    ∀ ds, Cut r.data 48 (announcedEnd r.data) ds →
      ∃ h', (OutT.run env hist h.tcgDiscovery0).1 = .ret (h', none) ∧
        (∀ code before after, (code, before) ∈ flags h.info.level0 → (code, after) ∈ flags h'.info.level0 →
          (after = true ↔ before = true ∨ Reports ds code)) ∧
        ∀ c : BitVec 16, c ≠ 0 → (h'.info.level0.raw c).map (·.data) =
          match lastWith ds c.toNat with
          | some d => some d
          | none => (h.info.level0.raw c).map (·.data) := by
  constructor
  · rw [(discovery_outcome hm hr he).1, overruns_from_32 hz]
    exact ⟨fun x => x.2, fun x => ⟨ha, x⟩⟩
  · intro ds hd
    obtain ⟨zs, hzs, hc⟩ := cut_from_32 hz hd
    obtain ⟨h1, e1, f1⟩ := discovery_flags hm hr he ha hc
    obtain ⟨h2, e2, f2⟩ := discovery_raw hm hr he ha hc
    rw [e1] at e2
    simp only [Out.ret.injEq, Prod.mk.injEq, and_true] at e2
    subst e2
    refine ⟨h1, e1, ?_, ?_⟩
    · intro code before after hb hb'
      rw [f1 code before after hb hb']
      have : code ≠ 0 := by
        obtain ⟨p, hp, rfl, _⟩ := mem_flags.1 hb
        simp only [flagFns, List.mem_cons, List.not_mem_nil, or_false] at hp
        rcases hp with rfl | rfl | rfl | rfl | rfl | rfl | rfl | rfl <;> decide
      rw [(reports_zeros hzs this).1]
    · intro c hc0
      have : c.toNat ≠ 0 := by
        intro hh
        exact hc0 (BitVec.eq_of_toNat_eq (by simpa using hh))
      rw [f2 c, (reports_zeros hzs this).2]

/-! ## C80: the announced length excludes its own four bytes -/

/-- **C80.** The TCG length field does not count its own four bytes, but the walk uses it as the end of the
data. For descriptors `ds` that fill a response of `announced + 4` bytes exactly, the walk visits all of them
unless the last one has an empty body, and then it misses exactly that one. -/
theorem announced_without_itself {buf : Bytes} {start announced : Nat} {ds : List Bytes} {last : Bytes}
    (hd : ∀ d ∈ ds ++ [last], IsDescriptor d) (hp : (ds ++ [last]).flatten <+: buf.drop start)
    (hl : start + (ds ++ [last]).flatten.length = announced + 4) :
    (4 < last.length → Cut buf start announced (ds ++ [last])) ∧
    (last.length = 4 → Cut buf start announced ds) := by
  simp only [List.flatten_append, List.flatten_cons, List.flatten_nil, List.append_nil, List.length_append] at hp hl
  constructor
  · intro h4
    refine ⟨hd, by simpa using hp, ?_, ?_⟩
    · simp only [List.flatten_append, List.flatten_cons, List.flatten_nil, List.append_nil, List.length_append]
      omega
    intro f l hf
    have : f = ds := by
      have := congrArg List.dropLast hf
      simpa using this.symm
    rw [this]
    omega
  · intro h4
    refine ⟨fun d hdd => hd d (by simp [hdd]), ?_, by omega, ?_⟩
    · exact (prefix_append_iff.1 hp).1
    · intro f l hf
      rw [hf] at hl
      have hlm : IsDescriptor l := hd l (by rw [hf]; simp)
      have := (isDescriptor_length hlm).2
      simp only [List.flatten_append, List.flatten_cons, List.flatten_nil, List.append_nil,
        List.length_append] at hl
      omega


/-! ## C34 to C36: what a device made after discovery says -/

/-- **C34.** The device kind is a function of three flags, with the stated priority; the device carries the
information and the serial it was given. -/
theorem device_kind (i : Level0) (serial : Bytes) :
    ((newTcgDevice i serial).kind = .opal1 ↔ i.opalV100 = true) ∧
    ((newTcgDevice i serial).kind = .opal2 ↔ i.opalV100 = false ∧ i.opalV200 = true) ∧
    ((newTcgDevice i serial).kind = .enterprise ↔ i.opalV100 = false ∧ i.opalV200 = false ∧ i.enterprise = true) ∧
    ((newTcgDevice i serial).kind = .generic ↔ i.opalV100 = false ∧ i.opalV200 = false ∧ i.enterprise = false) ∧
    (newTcgDevice i serial).info = i ∧ (newTcgDevice i serial).serial = serial := by
  unfold newTcgDevice
  cases i.opalV100 <;> cases i.opalV200 <;> cases i.enterprise <;> simp

/-- What is known after a successful discovery on a fresh handle. -/
theorem fresh_result (hf : Fresh h.info.level0) (hr : discoveryRun h env hist = (.ret r, t))
    (he : r.err = none) {ds : List Bytes} (ha : announcedEnd r.data ≤ 2048)
    (hc : Cut r.data 32 (announcedEnd r.data) ds) :
    ∃ h', (OutT.run env hist h.tcgDiscovery0).1 = .ret (h', none) ∧
      (∀ p ∈ flagFns, (p.2 h'.info.level0 = true ↔ Reports ds p.1)) ∧
      ∀ c : BitVec 16, (lastWith ds c.toNat = none → h'.info.level0.raw c = none) ∧
        ∀ d, lastWith ds c.toNat = some d → ∃ pos, h'.info.level0.raw c = some (rawItem r.data r.behind pos d.length) ∧
          d <+: r.data.drop pos ∧ 32 ≤ pos := by
  obtain ⟨f1, f2, f3⟩ := hf
  rw [discovery_learns f1 hr he ha hc]
  refine ⟨_, rfl, ?_, ?_⟩
  · intro p hp
    have h0 : p.2 h.info.level0 = false := f2 (p.1, p.2 h.info.level0) (mem_flags.2 ⟨p, hp, rfl, rfl⟩)
    have := learn_flag r.data r.behind p hp ds 32 h.info.level0
    rw [h0] at this
    exact this.trans (by simp)
  · intro c
    obtain ⟨a1, a2⟩ := learn_raw (behind := r.behind) (i := h.info.level0) hc c
    exact ⟨fun hn => (a1 hn).trans (f3 c), a2⟩

/-- **C34**, in terms of the response: Opal 1 if a descriptor has code 0200h, else Opal 2 if one has 0203h, else
Enterprise if one has 0100h, else generic. -/
theorem device_kind_of_response (hf : Fresh h.info.level0) (hr : discoveryRun h env hist = (.ret r, t))
    (he : r.err = none) {ds : List Bytes} (ha : announcedEnd r.data ≤ 2048)
    (hc : Cut r.data 32 (announcedEnd r.data) ds) :
    ∃ h', (OutT.run env hist h.tcgDiscovery0).1 = .ret (h', none) ∧
      ∀ dev, dev = newTcgDevice h'.getTcgLevel0InfoAndSerial.1 h'.getTcgLevel0InfoAndSerial.2 →
        (dev.kind = .opal1 ↔ Reports ds 0x200) ∧
        (dev.kind = .opal2 ↔ ¬ Reports ds 0x200 ∧ Reports ds 0x203) ∧
        (dev.kind = .enterprise ↔ ¬ Reports ds 0x200 ∧ ¬ Reports ds 0x203 ∧ Reports ds 0x100) ∧
        (dev.kind = .generic ↔ ¬ Reports ds 0x200 ∧ ¬ Reports ds 0x203 ∧ ¬ Reports ds 0x100) := by
  obtain ⟨h', e1, fl, _⟩ := fresh_result hf hr he ha hc
  refine ⟨h', e1, ?_⟩
  intro dev hdev
  obtain ⟨k1, k2, k3, k4, _, _⟩ := device_kind h'.info.level0 h'.info.serial
  have hd : dev = newTcgDevice h'.info.level0 h'.info.serial := hdev
  have a1 := fl (0x200, Level0.opalV100) (by simp [flagFns])
  have a2 := fl (0x203, Level0.opalV200) (by simp [flagFns])
  have a3 := fl (0x100, Level0.enterprise) (by simp [flagFns])
  simp only at a1 a2 a3
  rw [hd, k1, k2, k3, k4, ← a1, ← a2, ← a3]
  simp

theorem overlay_rawItem {buf d : Bytes} {behind : Nat → Byte} {pos i : Nat} (hp : d <+: buf.drop pos)
    (hi : i < d.length) : Device.overlay (rawItem buf behind pos d.length) i = d.getD i 0 := by
  unfold Device.overlay memAt
  rw [rawItem_data hp, dif_pos hi]
  simp [hi]

theorem shift_and_one (b : Byte) (k : Nat) : (((b >>> k) &&& 0x01) != 0) = b.getLsbD k := by
  have : ∀ x : Byte, ((x &&& 0x01) != 0) = x.getLsbD 0 := by decide +kernel
  have h1 := this (b >>> k)
  rw [BitVec.getLsbD_ushiftRight, Nat.add_zero] at h1
  exact h1

/-- **C35.** After a successful discovery on a fresh handle: without a locking descriptor (code 2) all five
queries say false; with one, they are bits 1, 2, 4, 5 and 3 of byte 4 of the last one (a descriptor of at
least five bytes). -/
theorem lock_state (hf : Fresh h.info.level0) (hr : discoveryRun h env hist = (.ret r, t))
    (he : r.err = none) {ds : List Bytes} (ha : announcedEnd r.data ≤ 2048)
    (hc : Cut r.data 32 (announcedEnd r.data) ds) :
    ∃ h', (OutT.run env hist h.tcgDiscovery0).1 = .ret (h', none) ∧
      ∀ dev, dev = newTcgDevice h'.getTcgLevel0InfoAndSerial.1 h'.getTcgLevel0InfoAndSerial.2 →
        (dev.isLockingSupported = true ↔ Reports ds 2) ∧
        (¬ Reports ds 2 → dev.isLockingEnabled = false ∧ dev.isLocked = false ∧ dev.isMBREnabled = false ∧
          dev.isMBRDone = false ∧ dev.isMediaEncryption = false) ∧
        ∀ d, lastWith ds 2 = some d → 5 ≤ d.length →
          dev.isLockingEnabled = (d.getD 4 0).getLsbD 1 ∧ dev.isLocked = (d.getD 4 0).getLsbD 2 ∧
          dev.isMediaEncryption = (d.getD 4 0).getLsbD 3 ∧ dev.isMBREnabled = (d.getD 4 0).getLsbD 4 ∧
          dev.isMBRDone = (d.getD 4 0).getLsbD 5 := by
  obtain ⟨h', e1, fl, raw⟩ := fresh_result hf hr he ha hc
  refine ⟨h', e1, ?_⟩
  intro dev hdev
  have hi : dev.info = h'.info.level0 := by rw [hdev]; rfl
  have a1 := fl (2, Level0.locking) (by simp [flagFns])
  simp only at a1
  refine ⟨by rw [Device.isLockingSupported, hi]; exact a1, ?_, ?_⟩
  · intro hn
    have : dev.info.locking = false := by
      rw [hi]
      cases hh : h'.info.level0.locking
      · rfl
      · exact absurd (a1.1 hh) hn
    have key : ∀ k, dev.lockBit k = false := by
      intro k
      unfold Device.lockBit
      rw [this]
      rfl
    exact ⟨key 1, key 2, key 4, key 5, key 3⟩
  · intro d hd h5
    have hrep : Reports ds 2 := ⟨d, (lastWith_mem hd).1, (lastWith_mem hd).2⟩
    have hl : dev.info.locking = true := by rw [hi]; exact a1.2 hrep
    obtain ⟨pos, p1, p2, _⟩ := (raw FcLocking).2 d hd
    have key : ∀ k, dev.lockBit k = (d.getD 4 0).getLsbD k := by
      intro k
      unfold Device.lockBit
      rw [hl, hi, p1]
      simp only [Bool.not_true, Bool.false_eq_true, if_false]
      rw [overlay_rawItem p2 (by omega)]
      exact shift_and_one _ k
    exact ⟨key 1, key 2, key 3, key 4, key 5⟩

theorem be16_or (x y : Byte) : (x.setWidth 16 <<< 8 ||| y.setWidth 16 : BitVec 16).toNat = x.toNat * 256 + y.toNat := by
  have hx := x.isLt
  have hy := y.isLt
  rw [BitVec.toNat_or, BitVec.toNat_shiftLeft, BitVec.toNat_setWidth, BitVec.toNat_setWidth, Nat.shiftLeft_eq,
    Nat.mod_eq_of_lt (a := x.toNat) (by omega), Nat.mod_eq_of_lt (a := y.toNat) (by omega),
    Nat.mod_eq_of_lt (by omega), Nat.mul_comm x.toNat, ← Nat.two_pow_add_eq_or_of_lt hy]

/-- **C36.** After a successful discovery on a fresh handle the base ComID and the number of ComIDs are the
big-endian values at bytes 4 and 6 of the last descriptor of the device's own kind (of at least eight
bytes), and 0 for a generic device. -/
theorem com_ids (hf : Fresh h.info.level0) (hr : discoveryRun h env hist = (.ret r, t))
    (he : r.err = none) {ds : List Bytes} (ha : announcedEnd r.data ≤ 2048)
    (hc : Cut r.data 32 (announcedEnd r.data) ds) :
    ∃ h', (OutT.run env hist h.tcgDiscovery0).1 = .ret (h', none) ∧
      ∀ dev, dev = newTcgDevice h'.getTcgLevel0InfoAndSerial.1 h'.getTcgLevel0InfoAndSerial.2 →
        (dev.kind = .generic → dev.baseComId.toNat = 0 ∧ dev.numComIds.toNat = 0) ∧
        ∀ kind code, (kind, code) ∈ [(DevKind.opal1, 0x200), (DevKind.opal2, 0x203), (DevKind.enterprise, 0x100)] →
          dev.kind = kind → ∃ d, lastWith ds code = some d ∧ (8 ≤ d.length →
            dev.baseComId.toNat = beVal (slice d 4 2) ∧ dev.numComIds.toNat = beVal (slice d 6 2)) := by
  obtain ⟨h', e1, fl, raw⟩ := fresh_result hf hr he ha hc
  refine ⟨h', e1, ?_⟩
  intro dev hdev
  have hi : dev.info = h'.info.level0 := by rw [hdev]; rfl
  have hd : dev = newTcgDevice h'.info.level0 h'.info.serial := hdev
  obtain ⟨k1, k2, k3, k4, _, _⟩ := device_kind h'.info.level0 h'.info.serial
  rw [← hd] at k1 k2 k3 k4
  constructor
  · intro hk
    unfold Device.baseComId Device.numComIds Device.sscField Device.sscCode
    rw [hk]
    exact ⟨rfl, rfl⟩
  · have step : ∀ (code : BitVec 16), dev.sscCode = some code → Reports ds code.toNat →
        ∃ d, lastWith ds code.toNat = some d ∧ (8 ≤ d.length →
            dev.baseComId.toNat = beVal (slice d 4 2) ∧ dev.numComIds.toNat = beVal (slice d 6 2)) := by
      intro code hsc hrep
      cases hw : lastWith ds code.toNat with
      | none => exact absurd hrep (lastWith_eq_none.1 hw)
      | some d =>
        refine ⟨d, rfl, ?_⟩
        intro h8
        obtain ⟨pos, p1, p2, _⟩ := (raw code).2 d hw
        have two : ∀ i, i + 1 < d.length → (dev.sscField i).toNat = beVal (slice d i 2) := by
          intro i hlt
          unfold Device.sscField
          rw [hsc]
          simp only
          rw [hi, p1]
          simp only
          rw [overlay_rawItem p2 (by omega), overlay_rawItem p2 hlt]
          have hs : slice d i 2 = [d.getD i 0, d.getD (i + 1) 0] := by
            apply List.ext_getElem?
            intro j
            rw [getElem?_slice]
            match j with
            | 0 => simp [show i < d.length by omega]
            | 1 => simp [hlt]
            | j + 2 => rw [if_neg (by omega)]; rfl
          rw [hs]
          generalize d.getD i 0 = x
          generalize d.getD (i + 1) 0 = y
          have hx := x.isLt
          have hy := y.isLt
          simp only [beVal, List.length_cons, List.length_nil, Nat.pow_zero, Nat.mul_one, Nat.add_zero]
          rw [be16_or]
        exact ⟨two 4 (by omega), two 6 (by omega)⟩
    have a1 := fl (0x200, Level0.opalV100) (by simp [flagFns])
    have a2 := fl (0x203, Level0.opalV200) (by simp [flagFns])
    have a3 := fl (0x100, Level0.enterprise) (by simp [flagFns])
    simp only at a1 a2 a3
    intro kind code hm hk
    simp only [List.mem_cons, Prod.mk.injEq, List.not_mem_nil, or_false] at hm
    rcases hm with ⟨rfl, rfl⟩ | ⟨rfl, rfl⟩ | ⟨rfl, rfl⟩
    · exact step FcOpalSscV100 (by unfold Device.sscCode; rw [hk]) (a1.1 (k1.1 hk))
    · exact step FcOpalSscV200 (by unfold Device.sscCode; rw [hk]) (a2.1 (k2.1 hk).2)
    · exact step FcEnterprise (by unfold Device.sscCode; rw [hk]) (a3.1 (k3.1 hk).2.2)


/-! ## Concrete cases -/

/-- A drive that answers every security command with the given bytes. -/
def answering (d : Bytes) : Prog.Env DrvReq DrvRep := fun _ _ => { data := d }
/-- A handle as `Init` leaves it before discovery. -/
def freshHandle : Handle :=
  { dh := some { ata := true, nvme := false, identity := [] }, info := Handle.makeMap {} }

theorem freshHandle_fresh : Fresh freshHandle.info.level0 := by
  refine ⟨rfl, ?_, fun _ => rfl⟩
  decide

theorem discoveryRun_answering (d : Bytes) (hd : d.length = 2048) : ∃ t, discoveryRun freshHandle (answering d) [] =
    (.ret { err := none, data := d, behind := fun _ => 0 }, t) := by
  refine ⟨[(.sec false false 0x01 0x0001 (zeros Handle.discoverySize) 3, { data := d })], ?_⟩
  have : storeInto (zeros Handle.discoverySize) d = d := by
    have h1 : List.take Handle.discoverySize d = d := List.take_of_length_le (by rw [hd]; exact Nat.le_refl _)
    have h2 : (zeros Handle.discoverySize).drop (0 + d.length) = [] := by
      rw [hd, drop_zeros]; rfl
    unfold storeInto copyAt
    rw [zeros_length, h1, h2]
    simp
  have h3 : discoveryRun freshHandle (answering d) [] =
    (.ret { err := none, data := storeInto (zeros Handle.discoverySize) d, behind := fun _ => 0 },
     [(.sec false false 0x01 0x0001 (zeros Handle.discoverySize) 3, { data := d })]) := rfl
  rw [h3, this]

/-- TPer, Locking (enabled, locked) and Opal 2 (base ComID 07FE, one ComID) descriptors. -/
def sampleDescriptors : List Bytes :=
  [[0, 1, 0x10, 12, 0x11, 0, 0, 0, 0, 0, 0, 0, 0, 0, 0, 0],
   [0, 2, 0x10, 12, 0x0f, 0, 0, 0, 0, 0, 0, 0, 0, 0, 0, 0],
   [2, 3, 0x10, 16, 0x07, 0xfe, 0, 1, 0, 0, 4, 0, 9, 0, 0, 0, 0, 0, 0, 0]]
/-- A compliant response: header, zero vendor area, descriptors from byte 48. -/
def sampleResponse : Bytes := [0, 0, 0, 96] ++ zeros 44 ++ sampleDescriptors.flatten ++ zeros 1948

theorem sample_length : sampleResponse.length = 2048 := by decide +kernel
theorem sample_cut48 : Cut sampleResponse 48 96 sampleDescriptors := by
  rw [sampleDescriptors, cut_cons, cut_cons, cut_cons, cut_nil]
  refine ⟨by decide, ⟨_, _, _, _, _, rfl, rfl⟩, by decide +kernel, by decide, ⟨_, _, _, _, _, rfl, rfl⟩, by decide +kernel, by decide,
    ⟨_, _, _, _, _, rfl, rfl⟩, by decide +kernel, by decide⟩

/-- All hypotheses of the theorems above hold together for the sample, and it is a full Opal 2 drive. -/
example : ∃ t, discoveryRun freshHandle (answering sampleResponse) [] =
      (.ret { err := none, data := sampleResponse, behind := fun _ => 0 }, t) ∧
    Fresh freshHandle.info.level0 ∧ announcedEnd sampleResponse = 96 ∧ slice sampleResponse 32 16 = zeros 16 ∧
    Cut sampleResponse 48 96 sampleDescriptors ∧ (∃ zs, Cut sampleResponse 32 96 (zs ++ sampleDescriptors)) ∧
    lastWith sampleDescriptors 2 = some (sampleDescriptors.getD 1 []) ∧ Reports sampleDescriptors 0x203 := by
  obtain ⟨t, ht⟩ := discoveryRun_answering sampleResponse sample_length
  have hz : slice sampleResponse 32 16 = zeros 16 := by decide +kernel
  obtain ⟨zs, _, hzs⟩ := cut_from_32 hz sample_cut48
  exact ⟨t, ht, freshHandle_fresh, by decide +kernel, hz, sample_cut48, ⟨zs, hzs⟩, by decide +kernel,
    ⟨_, by simp [sampleDescriptors]; exact Or.inr (Or.inr rfl), by decide⟩⟩

/-- A response with non-zero vendor bytes that look like a locking descriptor. -/
def vendorResponse : Bytes := [0, 0, 0, 60] ++ zeros 28 ++ [0, 2, 0x10, 12, 0x04, 0, 0, 0, 0, 0, 0, 0, 0, 0, 0, 0] ++
  [0, 1, 0x10, 12, 0x11, 0, 0, 0, 0, 0, 0, 0, 0, 0, 0, 0] ++ zeros 1984

/-- **C40, the other half.** With non-zero vendor bytes the result can be wrong: here the descriptors from byte
48 on report no locking feature, but discovery says the drive supports locking and is locked. -/
theorem discovery_vendor_nonzero :
    ∃ (h : Handle) (env : Prog.Env DrvReq DrvRep) (r : SecRep) (t : Prog.Trace DrvReq DrvRep) (ds : List Bytes) (h' : Handle),
      discoveryRun h env [] = (.ret r, t) ∧ r.err = none ∧ Fresh h.info.level0 ∧
      Cut r.data 48 (announcedEnd r.data) ds ∧ ¬ Reports ds 2 ∧
      (OutT.run env [] h.tcgDiscovery0).1 = .ret (h', none) ∧
      h'.info.level0.locking = true ∧
      (newTcgDevice h'.getTcgLevel0InfoAndSerial.1 h'.getTcgLevel0InfoAndSerial.2).isLocked = true := by
  obtain ⟨t, ht⟩ := discoveryRun_answering vendorResponse (by decide +kernel)
  have han : announcedEnd vendorResponse = 60 := by decide +kernel
  have hc48 : Cut vendorResponse 48 60 [[0, 1, 0x10, 12, 0x11, 0, 0, 0, 0, 0, 0, 0, 0, 0, 0, 0]] := by
    rw [cut_cons, cut_nil]
    exact ⟨by decide, ⟨_, _, _, _, _, rfl, rfl⟩, by decide +kernel, by decide⟩
  have hc32 : Cut vendorResponse 32 60 [[0, 2, 0x10, 12, 0x04, 0, 0, 0, 0, 0, 0, 0, 0, 0, 0, 0],
      [0, 1, 0x10, 12, 0x11, 0, 0, 0, 0, 0, 0, 0, 0, 0, 0, 0]] := by
    rw [cut_cons]
    exact ⟨by decide, ⟨_, _, _, _, _, rfl, rfl⟩, by decide +kernel, hc48⟩
  have hc := hc32
  rw [← han] at hc
  obtain ⟨h', e1, k⟩ := lock_state freshHandle_fresh ht rfl (by rw [han]; decide) hc
  obtain ⟨k1, _, k3⟩ := k _ rfl
  have hrep : Reports [[0, 2, 0x10, 12, 0x04, 0, 0, 0, 0, 0, 0, 0, 0, 0, 0, 0],
      [0, 1, 0x10, 12, 0x11, 0, 0, 0, 0, 0, 0, 0, 0, 0, 0, 0]] 2 := ⟨_, List.mem_cons_self, by decide⟩
  refine ⟨freshHandle, answering vendorResponse, _, t, _, h', ht, rfl, freshHandle_fresh,
    by rw [han]; exact hc48, ?_, e1, k1.2 hrep, ?_⟩
  · rintro ⟨d, hd, hh⟩
    simp only [List.mem_cons, List.not_mem_nil, or_false] at hd
    subst hd
    revert hh
    decide
  · obtain ⟨_, kk, _⟩ := k3 [0, 2, 0x10, 12, 0x04, 0, 0, 0, 0, 0, 0, 0, 0, 0, 0, 0] (by decide) (by decide)
    rw [kk]
    decide

/-- A response whose only locking descriptor is empty, followed by a byte with bit 2 set. -/
def shortResponse : Bytes := [0, 0, 0, 49] ++ zeros 44 ++ [0, 2, 0x10, 0] ++ [0x04] ++ zeros 1995

/-- **C35, limit.** For a locking descriptor without body the queries read the byte behind it: here the drive is
reported as locked although no descriptor says so. -/
theorem lock_state_short :
    ∃ (h : Handle) (env : Prog.Env DrvReq DrvRep) (r : SecRep) (t : Prog.Trace DrvReq DrvRep) (ds : List Bytes) (h' : Handle),
      discoveryRun h env [] = (.ret r, t) ∧ r.err = none ∧ Fresh h.info.level0 ∧
      Cut r.data 32 (announcedEnd r.data) ds ∧ lastWith ds 2 = some [0, 2, 0x10, 0] ∧
      (OutT.run env [] h.tcgDiscovery0).1 = .ret (h', none) ∧
      (newTcgDevice h'.getTcgLevel0InfoAndSerial.1 h'.getTcgLevel0InfoAndSerial.2).isLocked = true := by
  obtain ⟨t, ht⟩ := discoveryRun_answering shortResponse (by decide +kernel)
  have han : announcedEnd shortResponse = 49 := by decide +kernel
  have hc : Cut shortResponse 32 (announcedEnd shortResponse)
      [[0, 0, 0, 0], [0, 0, 0, 0], [0, 0, 0, 0], [0, 0, 0, 0], [0, 2, 0x10, 0]] := by
    rw [han, cut_cons, cut_cons, cut_cons, cut_cons, cut_cons, cut_nil]
    exact ⟨by decide, zero_descriptor, by decide +kernel, by decide, zero_descriptor, by decide +kernel,
      by decide, zero_descriptor, by decide +kernel, by decide, zero_descriptor, by decide +kernel,
      by decide, ⟨_, _, _, _, _, rfl, rfl⟩, by decide +kernel, by decide⟩
  have hl : (OutT.run (answering shortResponse) [] freshHandle.tcgDiscovery0).1 =
      .ret (Handle.mk freshHandle.dh (Handle.afterParse freshHandle.info
        (learn shortResponse (fun _ => 0) 32 freshHandle.info.level0
          [[0, 0, 0, 0], [0, 0, 0, 0], [0, 0, 0, 0], [0, 0, 0, 0], [0, 2, 0x10, 0]])), none) := by
    rw [discovery_learns freshHandle_fresh.1 ht rfl (by rw [han]; decide) hc]
  exact ⟨freshHandle, answering shortResponse, _, t, _, _, ht, rfl, freshHandle_fresh, hc, by decide, hl,
    by decide +kernel⟩

/-- C80 meets its hypotheses. -/
example : Cut sampleResponse 48 96 sampleDescriptors :=
  (announced_without_itself (buf := sampleResponse) (start := 48) (announced := 96)
    (ds := sampleDescriptors.take 2) (last := sampleDescriptors.getD 2 [])
    (fun d hd => sample_cut48.1 d hd) (by decide +kernel) (by decide)).1 (by decide)

/-- The drive answers once with the sample and then with an all-zero response. -/
def forgetful : Prog.Env DrvReq DrvRep := fun hist _ => { data := if hist.length = 0 then sampleResponse else zeros 2048 }

/-- C42: the second answer has no descriptors; the Opal 2 flag and the raw feature stay. -/
example : (match (OutT.run forgetful [] (rediscover 2 freshHandle)).1 with
    | .ret h' => h'.info.level0.opalV200 && (h'.info.level0.raw 0x203).isSome
    | _ => false) = true := by
  decide +kernel

end Dparm
