import Verif.Model.Recover
import Verif.Props.Discovery
import Verif.Lemmas.TcgCalls
/-!
# Properties: discovery under `recover` (C171)
-/
namespace Dparm
open Spec

variable {h : Handle} {env : Prog.Env DrvReq DrvRep} {hist : Prog.Trace DrvReq DrvRep}
  {r : SecRep} {t : Prog.Trace DrvReq DrvRep}

theorem walkKept_agrees (buf : Bytes) (behind : Nat → Byte) (e : Nat) : ∀ (off : Nat) (u : Bytes) (info : Level0),
    discoveryWalk buf behind e off u info =
      if (discoveryWalkKept buf behind e off u info).2 then .panic else .ret (discoveryWalkKept buf behind e off u info).1 := by
  intro off
  induction hk : e - off using Nat.strongRecOn generalizing off with
  | _ k ih =>
    intro u info
    rw [discoveryWalk, discoveryWalkKept]
    by_cases h : off < e
    · rw [if_pos h, if_pos h]
      dsimp only
      split
      · rfl
      · cases Level0.store _ _ _ with
        | panic => rfl
        | ret i' =>
          dsimp only
          exact ih _ (by omega) _ rfl _ i'
    · rw [if_neg h, if_neg h]
      rfl

theorem discoveryKept_agrees (info : Level0) (buf : Bytes) (behind : Nat → Byte) :
    discoveryParse info buf behind = match (discoveryKept info buf behind).2 with
      | none => .panic
      | some e => .ret ((discoveryKept info buf behind).1, e) := by
  unfold discoveryParse discoveryKept
  dsimp only
  split
  · rfl
  · rw [walkKept_agrees]
    dsimp only
    cases (discoveryWalkKept buf behind _ _ _ info).2 <;> rfl

/-- **C171.** Under `recover` discovery sends what it sends otherwise, and returns what it returns otherwise, with the same handle afterwards;
where it panics, it comes back with a handle. -/
theorem recovered_agrees (h : Handle) (env : Prog.Env DrvReq DrvRep) (hist : Prog.Trace DrvReq DrvRep) :
    ∃ h' e t, OutT.run env hist h.tcgDiscovery0Kept = (.ret (h', e), t) ∧
      OutT.run env hist h.tcgDiscovery0 = ((match e with
        | some e => .ret (h', e)
        | none => .panic), t) := by
  obtain ⟨r, t, hr, _⟩ := securityCommand_returns h false false 0x01 0x0001 (zeros Handle.discoverySize) 3 env hist
  cases he : r.err with
  | some e =>
    refine ⟨{ h with info := Handle.afterFailure h.info e }, some (some e), t, ?_, discovery_run_err hr he⟩
    unfold Handle.tcgDiscovery0Kept
    rw [OutT.run_bind_ret env hist hr, he]
    simp
  | none =>
    refine ⟨{ h with info := Handle.afterParse h.info (discoveryKept h.info.level0 r.data r.behind).1 },
      (discoveryKept h.info.level0 r.data r.behind).2, t, ?_, ?_⟩
    · unfold Handle.tcgDiscovery0Kept
      rw [OutT.run_bind_ret env hist hr, he]
      simp
    · rw [discovery_run_ok hr he, discoveryKept_agrees]
      cases (discoveryKept h.info.level0 r.data r.behind).2 <;> rfl

theorem walkKept_step {buf d : Bytes} {behind : Nat → Byte} {e off : Nat} {u : Bytes} {info : Level0} (ho : off < e) (hd : IsDescriptor d)
    (hdp : d <+: buf.drop off) (hu : u.length = 16) :
    ∃ u', u'.length = 16 ∧ discoveryWalkKept buf behind e off u info =
      match (info.mark (BitVec.ofNat 16 (descCode d))).store (BitVec.ofNat 16 (descCode d)) (rawItem buf behind off d.length) with
      | .panic => (info.mark (BitVec.ofNat 16 (descCode d)), true)
      | .ret info' => discoveryWalkKept buf behind e (off + d.length) u' info' := by
  obtain ⟨a1, a2⟩ := isDescriptor_length hd
  have hle := hdp.length_le
  rw [List.length_drop] at hle
  have h4 : off + 4 ≤ buf.length := by omega
  obtain ⟨u1, u2, u3⟩ := unionCopy_head h4 hu
  refine ⟨_, u3, ?_⟩
  rw [discoveryWalkKept, if_pos ho]
  dsimp only
  have hn : (unionCopy u buf off).getD 3 0 = d.getD 3 0 := by rw [u2, prefix_getD hdp 3 (by omega)]
  have hcode : beVal ((buf.drop off).take 2) = descCode d := by
    unfold descCode
    obtain ⟨t, ht⟩ := hdp
    rw [← ht, List.take_append_of_le_length (by omega)]
  rw [hn, u1, hcode, if_neg (by omega), ← a1, show off + (d.getD 3 0).toNat + 4 = off + d.length by omega]
  cases Level0.store _ _ _ <;> rfl

theorem walkKept_stop {buf : Bytes} {behind : Nat → Byte} {e off : Nat} {u : Bytes} {info : Level0} (ho : off < e)
    (hno : ∀ d, IsDescriptor d → ¬ d <+: buf.drop off) (hu : u.length = 16) :
    discoveryWalkKept buf behind e off u info = (info, true) := by
  rw [discoveryWalkKept, if_pos ho]
  dsimp only
  rw [if_pos]
  by_cases h4 : off + 4 ≤ buf.length
  · obtain ⟨_, u2, _⟩ := unionCopy_head h4 hu
    rw [u2]
    apply Nat.lt_of_not_le
    intro hfit
    obtain ⟨d, hd⟩ : ∃ d, d = slice buf off (((buf.drop off).getD 3 0).toNat + 4) := ⟨_, rfl⟩
    have hdl : d.length = ((buf.drop off).getD 3 0).toNat + 4 := by
      rw [hd]; unfold slice; rw [List.length_take, List.length_drop]; omega
    have hdp : d <+: buf.drop off := by rw [hd]; unfold slice; exact List.take_prefix _ _
    exact hno d (isDescriptor_of (by omega) (by rw [prefix_getD hdp 3 (by omega)]; exact hdl)) hdp
  · omega

theorem walkKept_front {buf : Bytes} {behind : Nat → Byte} {e : Nat} (front : List Bytes) : ∀ (off : Nat) (u : Bytes) (info : Level0),
    (∀ d ∈ front, IsDescriptor d) → front.flatten <+: buf.drop off → off + front.flatten.length < e →
    (∀ d, IsDescriptor d → ¬ d <+: buf.drop (off + front.flatten.length)) → u.length = 16 → info.made = true →
    discoveryWalkKept buf behind e off u info = (learn buf behind off info front, true) := by
  induction front with
  | nil =>
    intro off u info _ _ h3 h4 hu _
    exact walkKept_stop (by simpa using h3) (by simpa using h4) hu
  | cons d ds ih =>
    intro off u info h1 h2 h3 h4 hu hm
    simp only [List.flatten_cons, prefix_append_iff, List.drop_drop, List.length_append, ← Nat.add_assoc] at h2 h3 h4
    obtain ⟨u', hu', hw⟩ := walkKept_step (behind := behind) (info := info) (e := e) (off := off) (by omega) (h1 d List.mem_cons_self) h2.1 hu
    rw [hw]
    obtain ⟨m1, _⟩ := mark_made info (BitVec.ofNat 16 (descCode d))
    simp only [Level0.store, m1, hm, if_true]
    rw [learn]
    exact ih _ _ _ (fun x hx => h1 x (List.mem_cons_of_mem _ hx)) h2.2 h3 h4 hu' (by rw [← hm, ← m1]; rfl)

/-- A descriptor list that lies in the buffer is a cut of what it covers. -/
theorem cut_front {buf : Bytes} {off : Nat} {front : List Bytes} (h1 : ∀ d ∈ front, IsDescriptor d) (h2 : front.flatten <+: buf.drop off) :
    Cut buf off (off + front.flatten.length) front := by
  refine ⟨h1, h2, Nat.le_refl _, ?_⟩
  intro f l hl
  have := (isDescriptor_length (h1 l (by rw [hl]; simp))).2
  rw [hl]
  simp only [List.flatten_append, List.length_append, List.flatten_cons, List.flatten_nil, List.length_nil]
  omega

/-- **C171.** A discovery that panics on a descriptor that does not fit, recovered from: `front` are the descriptors read before it. The handle
then reports TCG support, with exactly the flags that were set before or that `front` reports, and for each code the complete last
descriptor of `front`, or what was known before; nothing else of the handle has changed, and discovery can be repeated on it. -/
theorem recovered_panic (hm : h.info.level0.made = true) (hr : discoveryRun h env hist = (.ret r, t)) (he : r.err = none)
    (ha : announcedEnd r.data ≤ 2048) (front : List Bytes) (h1 : ∀ d ∈ front, IsDescriptor d) (h2 : front.flatten <+: r.data.drop 32)
    (h3 : 32 + front.flatten.length < announcedEnd r.data)
    (h4 : ∀ d, IsDescriptor d → ¬ d <+: r.data.drop (32 + front.flatten.length)) :
    ∃ h', OutT.run env hist h.tcgDiscovery0Kept = (.ret (h', none), t) ∧ OutT.run env hist h.tcgDiscovery0 = (.panic, t) ∧
      h'.dh = h.dh ∧ h'.info = { h.info with tcgSupport := 1, level0 := h'.info.level0 } ∧ h'.info.level0.made = true ∧
      (∀ code before after, (code, before) ∈ flags h.info.level0 → (code, after) ∈ flags h'.info.level0 →
        (after = true ↔ before = true ∨ Reports front code)) ∧
      ∀ c : BitVec 16, (h'.info.level0.raw c).map (·.data) =
        match lastWith front c.toNat with
        | some d => some d
        | none => (h.info.level0.raw c).map (·.data) := by
  have hl := discovery_data_length hr
  have hend : beVal (slice r.data 0 4) = announcedEnd r.data := by
    unfold announcedEnd slice
    rw [List.drop_zero]
  have hkept : discoveryKept h.info.level0 r.data r.behind = (learn r.data r.behind 32 h.info.level0 front, none) := by
    unfold discoveryKept
    dsimp only
    rw [hend, if_neg (by omega), show Layout.header.sum = 32 from rfl,
      walkKept_front front 32 (zeros 16) h.info.level0 h1 h2 h3 h4 (zeros_length _) hm]
    rfl
  have hrun : OutT.run env hist h.tcgDiscovery0Kept =
      (.ret ({ h with info := Handle.afterParse h.info (learn r.data r.behind 32 h.info.level0 front) }, none), t) := by
    unfold Handle.tcgDiscovery0Kept
    rw [OutT.run_bind_ret env hist hr, he]
    simp [hkept]
  refine ⟨_, hrun, ?_, rfl, rfl, ?_, ?_, ?_⟩
  · obtain ⟨h', e, t', k1, k2⟩ := recovered_agrees h env hist
    rw [hrun] at k1
    injection k1 with k1 k3
    injection k1 with k1
    injection k1 with k1 k4
    rw [k2, ← k4, ← k3]
  · exact (learn_made _ _ _ _ _).trans hm
  · intro code before after hb hb'
    obtain ⟨p, hp, rfl, rfl⟩ := mem_flags.1 hb
    obtain ⟨q, hq, hpq, rfl⟩ := mem_flags.1 hb'
    obtain rfl := flagFns_unique hp hq hpq.symm
    exact learn_flag r.data r.behind p hp front 32 h.info.level0
  · intro c
    obtain ⟨a1, a2⟩ := learn_raw (behind := r.behind) (i := h.info.level0) (cut_front h1 h2) c
    show ((learn r.data r.behind 32 h.info.level0 front).raw c).map (·.data) = _
    cases hw : lastWith front c.toNat with
    | none => rw [a1 hw]
    | some d =>
      obtain ⟨pos, p1, p2, _⟩ := a2 d hw
      rw [p1]
      simp only [Option.map_some]
      rw [rawItem_data p2]

/-- **C171.** On a handle that was never initialised (no table of raw features) discovery panics on the first descriptor `d`, and leaves its flag
behind, but no raw feature. -/
theorem recovered_uninitialised (hm : h.info.level0.made = false) (hr : discoveryRun h env hist = (.ret r, t)) (he : r.err = none)
    (ha : announcedEnd r.data ≤ 2048) (h3 : 32 < announcedEnd r.data) (d : Bytes) (h1 : IsDescriptor d) (h2 : d <+: r.data.drop 32) :
    ∃ h', OutT.run env hist h.tcgDiscovery0Kept = (.ret (h', none), t) ∧
      h'.info.tcgSupport = 1 ∧ h'.info.level0.made = false ∧ h'.info.level0.raw = h.info.level0.raw ∧
      ∀ code before after, (code, before) ∈ flags h.info.level0 → (code, after) ∈ flags h'.info.level0 →
        (after = true ↔ before = true ∨ code = descCode d) := by
  have hl := discovery_data_length hr
  have hend : beVal (slice r.data 0 4) = announcedEnd r.data := by
    unfold announcedEnd slice
    rw [List.drop_zero]
  obtain ⟨m1, m2⟩ := mark_made h.info.level0 (BitVec.ofNat 16 (descCode d))
  have hkept : discoveryKept h.info.level0 r.data r.behind = (h.info.level0.mark (BitVec.ofNat 16 (descCode d)), none) := by
    unfold discoveryKept
    dsimp only
    obtain ⟨u', _, hw⟩ := walkKept_step (behind := r.behind) (info := h.info.level0) (e := announcedEnd r.data) (off := 32) h3 h1 h2
      (zeros_length 16)
    rw [hend, if_neg (by omega), show Layout.header.sum = 32 from rfl, hw]
    simp only [Level0.store, m1, hm, Bool.false_eq_true, if_false]
    rfl
  refine ⟨{ h with info := Handle.afterParse h.info (h.info.level0.mark (BitVec.ofNat 16 (descCode d))) }, ?_, rfl, m1.trans hm, m2, ?_⟩
  · unfold Handle.tcgDiscovery0Kept
    rw [OutT.run_bind_ret env hist hr, he]
    simp [hkept]
  · intro code before after hb hb'
    obtain ⟨p, hp, rfl, rfl⟩ := mem_flags.1 hb
    obtain ⟨q, hq, hpq, rfl⟩ := mem_flags.1 hb'
    obtain rfl := flagFns_unique hp hq hpq.symm
    have hmf := mark_flag p hp h.info.level0 _ (descCode_lt d)
    show p.2 (h.info.level0.mark (BitVec.ofNat 16 (descCode d))) = true ↔ _
    rw [hmf, Bool.or_eq_true, beq_iff_eq]
    exact or_congr Iff.rfl eq_comm

/-- A TPer descriptor, seven vendor descriptors of 255 bytes, and one more that does not fit. -/
def overrunFront : List Bytes :=
  [0, 1, 0x10, 12, 0x11, 0, 0, 0, 0, 0, 0, 0, 0, 0, 0, 0] :: (List.range 7).map (fun i => [0xc0, BitVec.ofNat 8 i, 0, 255] ++ zeros 255)
/-- The response of 2048 bytes. -/
def overrunResponse : Bytes := [0, 0, 8, 0] ++ zeros 28 ++ overrunFront.flatten ++ [0xc0, 0xff, 0, 255] ++ zeros 183

/-- A handle as `Init` leaves it, and this response: discovery panics; the recovered handle knows the TPer feature. -/
example : ∃ h' t, OutT.run (answering overrunResponse) [] freshHandle.tcgDiscovery0Kept = (.ret (h', none), t) ∧
    h'.info.tcgSupport = 1 ∧ h'.info.level0.tper = true ∧ h'.info.level0.locking = false := by
  obtain ⟨t, hr⟩ := discoveryRun_answering overrunResponse (by decide +kernel)
  obtain ⟨h', k1, _, _, k3, _, k4, _⟩ := recovered_panic rfl hr rfl (by decide +kernel) overrunFront
    (by
      have : ∀ d ∈ overrunFront, 4 ≤ d.length ∧ d.length = (d.getD 3 0).toNat + 4 := by decide +kernel
      exact fun d hd => isDescriptor_of (this d hd).1 (this d hd).2)
    (by decide +kernel) (by decide +kernel)
    (by
      intro d hd hp
      have h1 := isDescriptor_length hd
      have h2 := hp.length_le
      rw [prefix_getD hp 3 (by omega)] at h1
      have h3 : ((overrunResponse.drop (32 + overrunFront.flatten.length)).getD 3 0).toNat = 255 := by decide +kernel
      have h4 : (overrunResponse.drop (32 + overrunFront.flatten.length)).length = 187 := by decide +kernel
      dsimp only at h1 h2
      omega)
  refine ⟨h', t, k1, by rw [k3], ?_, ?_⟩
  · exact (k4 1 false h'.info.level0.tper (by decide) (by simp [flags])).mpr (.inr ⟨_, List.mem_cons_self, by decide⟩)
  · have := k4 2 false h'.info.level0.locking (by decide) (by simp [flags])
    have hno : ¬ Reports overrunFront 2 := by
      have : ∀ d ∈ overrunFront, ¬ descCode d = 2 := by decide +kernel
      rintro ⟨d, hd, hc⟩
      exact this d hd hc
    cases hb : h'.info.level0.locking with
    | false => rfl
    | true => exact absurd (this.mp hb) (by simp [hno])

/-- The same response and a handle without the table: the first descriptor leaves its flag. -/
example : ∃ h' t, OutT.run (answering overrunResponse) []
      { freshHandle with info := { freshHandle.info with level0 := { freshHandle.info.level0 with made := false } } }.tcgDiscovery0Kept =
        (.ret (h', none), t) ∧ h'.info.level0.tper = true := by
  obtain ⟨t, hr⟩ := discoveryRun_answering overrunResponse (by decide +kernel)
  obtain ⟨h', k1, _, _, _, k4⟩ := recovered_uninitialised (h := { freshHandle with info := { freshHandle.info with
      level0 := { freshHandle.info.level0 with made := false } } }) rfl hr rfl (by decide +kernel) (by decide +kernel)
    [0, 1, 0x10, 12, 0x11, 0, 0, 0, 0, 0, 0, 0, 0, 0, 0, 0] (isDescriptor_of (by decide) (by decide)) (by decide +kernel)
  exact ⟨h', t, k1, (k4 1 false h'.info.level0.tper (by decide) (by simp [flags])).mpr (.inr (by decide))⟩

/-! ## Sessions -/

/-- What a caller sees of a call under `recover`, if a panic leaves the object `s`. -/
def recovered {α : Type} (s : Session) : Out (Session × α) → Out (Session × Option α)
  | .ret (s', a) => .ret (s', some a)
  | .panic => .ret (s, none)
  | .running => .running

theorem run_recover {Q R α : Type} (env : Prog.Env Q R) (h : Prog.Trace Q R) (p : OutT Q R α) :
    OutT.run env h (OutT.recover p) = ((match (OutT.run env h p).1 with
      | .ret a => .ret (some a)
      | .panic => .ret none
      | .running => .running), (OutT.run env h p).2) := by
  have := Prog.run_bind (α := Out α) (β := Out (Option α)) env h p (fun o => match o with
    | .ret a => Prog.done (.ret (some a))
    | .panic => Prog.done (.ret none)
    | .running => Prog.done .running)
  refine Eq.trans this ?_
  unfold OutT.run
  rcases Prog.run env h p with ⟨o, t⟩
  cases o <;> simp

theorem startTail_recovered (ctx : Ctx) (d : Device) (s : Session) (ch : Bytes) (au : AuthArg) {r : Resp} (hr : Parsed r)
    (hd : d.isAnySSC = true) (env : Prog.Env SecReq SecRep) (h : Prog.Trace SecReq SecRep) :
    OutT.run env h (s.startTailKept ctx d ch au r) =
      (recovered s (OutT.run env h (s.startTail ctx d ch au r)).1, (OutT.run env h (s.startTail ctx d ch au r)).2) := by
  have he : d.isEnterprise = false := by
    unfold Device.isAnySSC at hd
    unfold Device.isEnterprise
    cases hk : d.kind <;> simp [hk] at hd ⊢
  unfold Session.startTail Session.startNumbers Session.startTailKept
  rcases five_six r with ⟨a, b, cc, dd, x, y, rest, hT, g4, g5⟩ | ⟨hl, o, g4, g5⟩
  · have hx := ((parsed_tokens hr).2 x (by simp [hT])).1
    have hy := ((parsed_tokens hr).2 y (by simp [hT])).1
    obtain ⟨ux1, ux2⟩ := getUint32_value x hx
    obtain ⟨uy1, uy2⟩ := getUint32_value y hy
    rw [g4, g5]
    simp only [OutT.run_bind, OutT.run_lift_ret, List.append_nil, he, Bool.false_eq_true, and_false, if_false]
    cases vx : unsignedValue x with
    | none => simp only [ux2 vx, OutT.run_ret]; rfl
    | some host =>
      cases vy : unsignedValue y with
      | none => simp only [ux1 host vx, uy2 vy, OutT.run_ret]; rfl
      | some tper => simp only [ux1 host vx, uy1 tper vy, OutT.run_ret]; rfl
  · rw [g4, g5]
    simp only [OutT.run_bind, OutT.run_lift_ret, List.append_nil]
    cases o <;> rfl

/-- **C171.** `Start` under `recover` sends and returns what `Start` sends and returns, with the same object afterwards; where it panics the
object is left as it was before the call. -/
theorem start_recovered (ctx : Ctx) (d : Device) (s : Session) (sp : UID) (ch : Bytes) (au : AuthArg) (hf : 0 < ctx.fuel)
    (env : Prog.Env SecReq SecRep) (h : Prog.Trace SecReq SecRep) :
    OutT.run env h (s.startKept ctx d sp ch au) =
      (recovered s (OutT.run env h (s.start ctx d sp ch au)).1, (OutT.run env h (s.start ctx d sp ch au)).2) := by
  obtain ⟨c, hc, -⟩ := make_total ctx.base (.uid SMUID_UID) (.method M_STARTSESSION) (s.startOps ctx d sp ch au)
  unfold Session.startKept Session.start
  rw [hc]
  dsimp only
  rw [OutT.run_bind, run_recover, OutT.run_bind, OutT.run_lift_ret]
  dsimp only
  rw [OutT.run_bind, List.append_nil, List.nil_append]
  have hs := (send_crash ctx d s c hf env h).2
  generalize OutT.run env h (s.sendCommand ctx d c) = x at hs ⊢
  obtain ⟨o, t⟩ := x
  cases o with
  | running => rfl
  | panic =>
    dsimp only
    rw [OutT.run_ret, List.append_nil]
    rfl
  | ret x =>
    obtain ⟨y, e⟩ := x
    cases e with
    | some e => cases y <;> rfl
    | none =>
      cases y with
      | none => rfl
      | some r =>
        dsimp only
        have := hs r rfl
        rw [startTail_recovered ctx d s ch au this.1 this.2]

/-- **C171.** Every call on a session object whose `opened` mark is down (no method sets it) under `recover`: what is sent and returned, and the
object afterwards, is as without `recover`; a panic leaves the object as it was. -/
theorem call_recovered (ctx : Ctx) (d : Device) (s : Session) (o : SessOp) (ho : s.opened = false) (hf : 0 < ctx.fuel)
    (env : Prog.Env SecReq SecRep) (h : Prog.Trace SecReq SecRep) :
    OutT.run env h (o.callKept ctx d s) = (recovered s (OutT.run env h (o.call ctx d s)).1, (OutT.run env h (o.call ctx d s)).2) := by
  cases o with
  | start sp ch au =>
    unfold SessOp.callKept SessOp.call
    dsimp only
    rw [OutT.run_bind, OutT.run_bind, start_recovered ctx d s sp ch au hf env h]
    generalize OutT.run env h (s.start ctx d sp ch au) = x
    obtain ⟨o, t⟩ := x
    cases o with
    | ret x => rfl
    | panic => simp [recovered]
    | running => rfl
  | authenticate a c =>
    unfold SessOp.callKept SessOp.call
    dsimp only
    rw [OutT.run_bind, OutT.run_bind, run_recover]
    generalize OutT.run env h (s.authenticate ctx d a c) = x
    obtain ⟨o, t⟩ := x
    cases o with
    | ret x => rfl
    | panic => simp [recovered]
    | running => rfl
  | sendCommand c =>
    unfold SessOp.callKept SessOp.call
    dsimp only
    rw [OutT.run_bind, OutT.run_bind, run_recover]
    generalize OutT.run env h (s.sendCommand ctx d c) = x
    obtain ⟨o, t⟩ := x
    cases o with
    | ret x => rfl
    | panic => simp [recovered]
    | running => rfl
  | close =>
    unfold SessOp.callKept SessOp.call Session.close
    rw [ho, Bool.and_false]
    rfl
  | isNoHashPassword => rfl
  | setNoHashPassword b => rfl
  | noAutoClose => rfl
  | setTimeout ms => rfl

/-- A drive that answers every command with one token, a list start: `SendCommand` and `Start` panic, and the object is as it was. -/
example : (match (OutT.run (replyEnv [0xf0]) [] (SessOp.callKept sampleCtx opalDevice newTcgSession (.sendCommand (newTcgCommand 0)))).1 with
    | .ret (s, none) => s.hsn == 0 && s.tsn == 0 && !s.opened | _ => false) = true ∧
  (match (OutT.run (replyEnv [0xf0]) [] (SessOp.callKept sampleCtx opalDevice
      ⟨false, 7, 0, false, true, 60000⟩ (.start ADMINSP_UID [] (.buf [])))).1 with
    | .ret (s, none) => s.hsn == 7 && s.tsn == 0 && !s.opened | _ => false) = true := by
  constructor <;> decide +kernel

/-- `NewTcgSession` has the mark down. -/
example : newTcgSession.opened = false := rfl

end Dparm
