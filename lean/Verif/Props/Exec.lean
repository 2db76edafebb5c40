import Verif.Spec.Exec
import Verif.Props.Response
import Verif.Props.Command
/-!
# Properties of `Exec` (C31 to C33)
-/
namespace Dparm
open Spec

theorem received_eq (r : Round) : received r.got = r.response := by
  unfold received Round.response copyAt
  rw [List.take_zero, List.nil_append, drop_zeros, Nat.zero_add]

theorem Round.response_length (r : Round) : r.response.length = 2048 := by
  unfold Spec.Round.response
  rw [List.length_append, zeros_length, List.length_take]; omega

theorem leVal_eq_zero (bs : Bytes) : leVal bs = 0 ↔ beVal bs = 0 := by
  induction bs with
  | nil => simp [leVal, beVal]
  | cons b t ih =>
    have : 0 < 256 ^ t.length := Nat.pow_pos (by decide)
    simp only [leVal, beVal, Nat.add_eq_zero_iff, Nat.mul_eq_zero, ih]
    simp

theorem morePending_iff (r : Round) : morePending (received r.got) = true ↔ r.pending := by
  unfold morePending Round.pending
  rw [received_eq]
  simp [leVal_eq_zero]

variable {env : Prog.Env SecReq SecRep} {h : Prog.Trace SecReq SecRep}

/-- The result of the polling loop as seen from its last round. -/
def LastRound (fuel t0 : Nat) (rounds : List Round) (last : Round) (o : Out (Option Resp × Option GoErr)) :
    Prop :=
  (∀ e, last.got.err = some e → o = .ret (some ⟨last.response, []⟩, some e)) ∧
  (last.got.err = none → last.expired t0 →
    o = .ret (some ⟨last.response, []⟩, some (.msg "timeout"))) ∧
  (last.got.err = none → ¬ last.expired t0 → ¬ last.pending →
    o = .ret (some last.parsed.1, last.parsed.2)) ∧
  (last.goesOn t0 → o = .running ∧ rounds.length = fuel)

/-- One unrolling of the polling loop. -/
theorem run_poll_succ (d : Device) (p : Byte) (t0 fuel : Nat) (env : Prog.Env SecReq SecRep)
    (h : Prog.Trace SecReq SecRep) :
    ∃ r : Round, r.clock = env h .now ∧
      r.slept = env (h ++ [(.now, r.clock)]) (.sleep 25000000) ∧
      r.got = env (h ++ [(.now, r.clock)] ++ [(.sleep 25000000, r.slept)])
        (.sec false false p d.baseComId (zeros 2048) 5) ∧
      OutT.run env h (d.poll p t0 (fuel + 1)) =
        match r.got.err with
        | some e => (.ret (some ⟨r.response, []⟩, some e), r.exchanges p d.baseComId)
        | none =>
          if t0 + 10000000000 < r.clock.time then
            (.ret (some ⟨r.response, []⟩, some (.msg "timeout")), r.exchanges p d.baseComId)
          else if morePending (received r.got) then
            ((OutT.run env (h ++ r.exchanges p d.baseComId) (d.poll p t0 fuel)).1,
             r.exchanges p d.baseComId ++
              (OutT.run env (h ++ r.exchanges p d.baseComId) (d.poll p t0 fuel)).2)
          else (.ret (some r.parsed.1, r.parsed.2), r.exchanges p d.baseComId) := by
  rw [Device.poll, OutT.run_ask_bind, OutT.run_ask_bind, OutT.run_ask_bind]
  obtain ⟨t, ht⟩ : ∃ t, t = env h .now := ⟨_, rfl⟩
  rw [← ht]
  obtain ⟨sl, hs⟩ : ∃ sl, sl = env (h ++ [(SecReq.now, t)]) (.sleep pollSleep) := ⟨_, rfl⟩
  rw [← hs]
  obtain ⟨g, hg⟩ : ∃ g, g = env (h ++ [(SecReq.now, t)] ++ [(SecReq.sleep pollSleep, sl)]) (d.recvReq p) :=
    ⟨_, rfl⟩
  rw [← hg]
  refine ⟨⟨t, sl, g⟩, rfl, hs, hg, ?_⟩
  have hr : Round.response ⟨t, sl, g⟩ = received g := (received_eq ⟨t, sl, g⟩).symm
  have hx : (t.time - t0 > execTimeout) = (t0 + 10000000000 < t.time) := by
    show (10000000000 < t.time - t0) = (t0 + 10000000000 < t.time)
    apply propext; omega
  unfold Round.parsed
  rw [hr]
  have hh : h ++ (Round.exchanges p d.baseComId ⟨t, sl, g⟩)
      = h ++ [(SecReq.now, t)] ++ [(SecReq.sleep pollSleep, sl)] ++ [(d.recvReq p, g)] := by
    simp [Round.exchanges, Device.recvReq]
  rw [hh]
  simp only [hx]
  cases g.err with
  | some e => rfl
  | none =>
    simp only
    by_cases c1 : t0 + 10000000000 < t.time
    · simp only [c1, if_true]; rfl
    · simp only [c1, if_false]
      cases morePending (received g) <;> rfl

theorem poll_exchanges (d : Device) (p : Byte) (t0 fuel : Nat) (env : Prog.Env SecReq SecRep)
    (h : Prog.Trace SecReq SecRep) :
    ∃ front last,
      (OutT.run env h (d.poll p t0 (fuel + 1))).2
        = (front ++ [last]).flatMap (Round.exchanges p d.baseComId) ∧
      (∀ r ∈ front, r.goesOn t0) ∧
      LastRound (fuel + 1) t0 (front ++ [last]) last (OutT.run env h (d.poll p t0 (fuel + 1))).1 := by
  induction fuel generalizing h with
  | zero =>
    obtain ⟨r, _, _, _, e⟩ := run_poll_succ d p t0 0 env h
    refine ⟨[], r, ?_, by simp, ?_⟩
    · rw [e]
      simp only [List.nil_append, List.flatMap_cons, List.flatMap_nil, List.append_nil]
      repeat' split
      all_goals simp [Device.poll]
    · rw [e]
      have hp := morePending_iff r
      unfold LastRound Round.goesOn Round.expired
      rw [← hp]
      cases r.got.err with
      | some e => simp
      | none =>
        by_cases c1 : t0 + 10000000000 < r.clock.time
        · simp [c1]
        · cases morePending (received r.got) <;> simp [c1, Device.poll]
  | succ fuel ih =>
    obtain ⟨r, _, _, _, e⟩ := run_poll_succ d p t0 (fuel + 1) env h
    have hp := morePending_iff r
    by_cases hgo : r.goesOn t0
    · obtain ⟨front, last, i1, i2, i3⟩ := ih (h ++ r.exchanges p d.baseComId)
      have h1 : r.got.err = none := hgo.1
      have h2 : ¬ (t0 + 10000000000 < r.clock.time) := hgo.2.1
      have h3 : morePending (received r.got) = true := hp.2 hgo.2.2
      rw [h1] at e
      simp only [h2, h3, if_false, if_true] at e
      rw [e]
      refine ⟨r :: front, last, ?_, ?_, ?_⟩
      · rw [i1]; simp
      · intro x hx
        rcases List.mem_cons.1 hx with rfl | hx
        · exact hgo
        · exact i2 x hx
      · obtain ⟨a, b, c, dd⟩ := i3
        refine ⟨a, b, c, fun hl => ⟨(dd hl).1, ?_⟩⟩
        have := (dd hl).2
        simp only [List.cons_append, List.length_cons, this]
    · refine ⟨[], r, ?_, by simp, ?_⟩
      all_goals
        rw [e]
        unfold Round.goesOn Round.expired at hgo
        rw [← hp] at hgo
      · simp only [List.nil_append, List.flatMap_cons, List.flatMap_nil, List.append_nil]
        cases hr : r.got.err with
        | some e => rfl
        | none =>
          by_cases c1 : t0 + 10000000000 < r.clock.time
          · simp [c1]
          · have c2 : morePending (received r.got) = false := by
              cases hm : morePending (received r.got) with
              | false => rfl
              | true => exact absurd ⟨hr, c1, hm⟩ hgo
            simp [c1, c2]
      · unfold LastRound Round.goesOn Round.expired
        rw [← hp]
        cases hr : r.got.err with
        | some e => simp
        | none =>
          by_cases c1 : t0 + 10000000000 < r.clock.time
          · simp [c1]
          · have c2 : morePending (received r.got) = false := by
              cases hm : morePending (received r.got) with
              | false => rfl
              | true => exact absurd ⟨hr, c1, hm⟩ hgo
            simp [c1, c2]

/-- C31, C32: on an SSC device, whatever the drive answers, `Exec` reads the clock, sends the command's
transmitted bytes once, and if that succeeded polls at least once; each polling round is one clock reading,
one 25 ms sleep and one 2048-byte receive, all with the same protocol and the device's base ComID. All
rounds but the last ended with the drive saying "more pending" (and no error, and no timeout); the last
one decides: a receive error is returned as it is, a round begun after the timeout gives "timeout", a
round with nothing more pending is parsed, and only when the round bound `fuel` of the model is used up
is the outcome "running". A send error is returned as it is and ends the exchange. -/
theorem exec_exchanges (d : Device) (cmd : ABuf) (protocol : Byte) (fuel : Nat)
    (env : Prog.Env SecReq SecRep) (h : Prog.Trace SecReq SecRep) (hd : d.isAnySSC = true)
    (hf : 0 < fuel) :
    ∃ (t0 : SecRep) (sent : SecRep) (rounds : List Round),
      (OutT.run env h (d.exec fuel cmd protocol)).2 =
        (.now, t0) :: (.sec true false protocol d.baseComId (Cmd.wire cmd) 5, sent) ::
          rounds.flatMap (Round.exchanges protocol d.baseComId) ∧
      (∀ e, sent.err = some e →
        rounds = [] ∧ (OutT.run env h (d.exec fuel cmd protocol)).1 = .ret (none, some e)) ∧
      (sent.err = none → ∃ front last, rounds = front ++ [last] ∧ (∀ r ∈ front, r.goesOn t0.time) ∧
        LastRound fuel t0.time rounds last (OutT.run env h (d.exec fuel cmd protocol)).1) := by
  obtain ⟨t0, ht⟩ : ∃ t, t = env h .now := ⟨_, rfl⟩
  obtain ⟨s, hs⟩ : ∃ s, s = env (h ++ [(SecReq.now, t0)]) (d.sendReq protocol (Cmd.wire cmd)) := ⟨_, rfl⟩
  rw [Device.exec, OutT.run_ask_bind, ← ht, if_neg (by simp [hd]), OutT.run_ask_bind, ← hs]
  obtain ⟨f, rfl⟩ : ∃ f, fuel = f + 1 := ⟨fuel - 1, by omega⟩
  cases he : s.err with
  | some e =>
    refine ⟨t0, s, [], rfl, ?_, ?_⟩
    · intro e' h'
      rw [he] at h'
      cases h'
      exact ⟨rfl, rfl⟩
    · intro h'
      rw [he] at h'
      cases h'
  | none =>
    obtain ⟨front, last, i1, i2, i3⟩ := poll_exchanges d protocol t0.time f env
      (h ++ [(SecReq.now, t0)] ++ [(d.sendReq protocol (Cmd.wire cmd), s)])
    refine ⟨t0, s, front ++ [last], ?_, ?_, ?_⟩
    · simp only [i1]; rfl
    · intro e' h'
      rw [he] at h'
      cases h'
    · intro _
      exact ⟨front, last, rfl, i2, i3⟩

theorem flatMap_receives (p : Byte) (c : BitVec 16) (rs : List Round) :
    (rs.flatMap (Round.exchanges p c)).countP isReceive = rs.length ∧
    (rs.flatMap (Round.exchanges p c)).countP isSend = 0 := by
  induction rs with
  | nil => simp
  | cons r rs ih =>
    simp only [List.flatMap_cons, List.countP_append, ih, List.length_cons]
    simp [Round.exchanges, isReceive, isSend, Nat.add_comm]

theorem sleep_step (n t0 k x y : Nat) (h : t0 + k * n ≤ x) (s : x + n ≤ y) :
    t0 + (k + 1) * n ≤ y := by
  rw [Nat.add_mul, Nat.one_mul]; omega

theorem poll_bounded {env : Prog.Env SecReq SecRep} {clk : Prog.Trace SecReq SecRep → Nat}
    (hc : Clocked env clk) (d : Device) (p : Byte) (t0 fuel k : Nat) (h : Prog.Trace SecReq SecRep)
    (hk : k ≤ 401) (ht : t0 + k * 25000000 ≤ clk h) (hf : 402 ≤ k + fuel) :
    (OutT.run env h (d.poll p t0 fuel)).1 ≠ .running ∧
    (OutT.run env h (d.poll p t0 fuel)).2.countP isReceive + k ≤ 402 := by
  induction fuel generalizing k h with
  | zero => omega
  | succ fuel ih =>
    obtain ⟨r, h1, h2, h3, e⟩ := run_poll_succ d p t0 fuel env h
    have hone : (r.exchanges p d.baseComId).countP isReceive = 1 := rfl
    have hclk : r.clock.time = clk h := by rw [h1, hc.now]
    rw [e]
    cases r.got.err with
    | some e => exact ⟨by simp, by simp only [hone]; omega⟩
    | none =>
      simp only
      by_cases c1 : t0 + 10000000000 < r.clock.time
      · rw [if_pos c1]; exact ⟨by simp, by simp only [hone]; omega⟩
      · rw [if_neg c1]
        by_cases c2 : morePending (received r.got) = true
        · rw [if_pos c2]
          have a := hc.mono h .now
          have b := hc.sleep (h ++ [(.now, r.clock)]) 25000000
          have c := hc.mono (h ++ [(.now, r.clock)] ++ [(.sleep 25000000, r.slept)])
            (.sec false false p d.baseComId (zeros 2048) 5)
          rw [← h1] at a
          rw [← h2] at b
          rw [← h3] at c
          have hh : h ++ [(.now, r.clock)] ++ [(.sleep 25000000, r.slept)]
              ++ [(SecReq.sec false false p d.baseComId (zeros 2048) 5, r.got)]
              = h ++ r.exchanges p d.baseComId := by simp [Round.exchanges]
          rw [hh] at c
          have step : clk h + 25000000 ≤ clk (h ++ r.exchanges p d.baseComId) :=
            Nat.le_trans (Nat.le_trans (Nat.add_le_add_right a _) b) c
          clear a b c
          have step2 : t0 + (k + 1) * 25000000 ≤ clk (h ++ r.exchanges p d.baseComId) :=
            sleep_step _ _ _ _ _ ht step
          clear step
          have := ih (k + 1) (h ++ r.exchanges p d.baseComId) (by omega) step2 (by omega)
          refine ⟨this.1, ?_⟩
          simp only [List.countP_append, hone]
          omega
        · rw [if_neg c2]; exact ⟨by simp, by simp only [hone]; omega⟩

/-- C33: with a clock on which each sleep lasts at least as long as asked, `Exec` performs at most 402
receives and always comes to an end (bounds of 402 rounds or more are never used up), whatever the drive
answers. What is returned is stated in `exec_exchanges`. -/
theorem exec_bounded {env : Prog.Env SecReq SecRep} {clk : Prog.Trace SecReq SecRep → Nat}
    (hc : Clocked env clk) (d : Device) (cmd : ABuf) (protocol : Byte) (fuel : Nat)
    (h : Prog.Trace SecReq SecRep) (hf : 402 ≤ fuel) :
    (OutT.run env h (d.exec fuel cmd protocol)).1 ≠ .running ∧
    (OutT.run env h (d.exec fuel cmd protocol)).2.countP isReceive ≤ 402 := by
  rw [Device.exec, OutT.run_ask_bind]
  by_cases hd : d.isAnySSC = true
  · rw [if_neg (by simp [hd]), OutT.run_ask_bind]
    obtain ⟨t0, ht⟩ : ∃ t, t = env h .now := ⟨_, rfl⟩
    rw [← ht]
    obtain ⟨s, hs⟩ : ∃ s, s = env (h ++ [(SecReq.now, t0)]) (d.sendReq protocol (Cmd.wire cmd)) := ⟨_, rfl⟩
    rw [← hs]
    have h0 : isReceive (SecReq.now, t0) = false := rfl
    have h1 : isReceive (d.sendReq protocol (Cmd.wire cmd), s) = false := rfl
    simp only [List.countP_cons, h0, h1]
    have a := hc.mono h .now
    have b := hc.mono (h ++ [(SecReq.now, t0)]) (d.sendReq protocol (Cmd.wire cmd))
    rw [← ht] at a
    rw [← hs] at b
    have hn : t0.time = clk h := by rw [ht, hc.now]
    cases s.err with
    | some e => simp
    | none =>
      have := poll_bounded hc d protocol t0.time fuel 0
        (h ++ [(SecReq.now, t0)] ++ [(d.sendReq protocol (Cmd.wire cmd), s)]) (by omega) (by omega) (by omega)
      simpa using this
  · rw [if_pos (by simpa using hd)]
    simp [isReceive]

/-- C31 in counts: one send, at least one receive when it succeeded. -/
theorem exec_counts (d : Device) (cmd : ABuf) (protocol : Byte) (fuel : Nat)
    (env : Prog.Env SecReq SecRep) (h : Prog.Trace SecReq SecRep) (hd : d.isAnySSC = true)
    (hf : 0 < fuel) :
    (OutT.run env h (d.exec fuel cmd protocol)).2.countP isSend = 1 ∧
    (∀ q r, (q, r) ∈ (OutT.run env h (d.exec fuel cmd protocol)).2 → isDriveIO (q, r) →
      (q = .sec true false protocol d.baseComId (Cmd.wire cmd) 5 ∨
       q = .sec false false protocol d.baseComId (zeros 2048) 5)) := by
  obtain ⟨t0, s, rounds, e, _, _⟩ := exec_exchanges d cmd protocol fuel env h hd hf
  rw [e]
  constructor
  · simp only [List.countP_cons, (flatMap_receives _ _ _).2]
    simp [isSend]
  · intro q r hq hio
    simp only [List.mem_cons, Prod.mk.injEq, List.mem_flatMap, Round.exchanges] at hq
    rcases hq with ⟨rfl, _⟩ | ⟨rfl, _⟩ | ⟨x, _, hq⟩
    · simp [isDriveIO] at hio
    · exact .inl rfl
    · simp only [List.not_mem_nil, or_false] at hq
      rcases hq with ⟨rfl, _⟩ | ⟨rfl, _⟩ | ⟨rfl, _⟩
      · simp [isDriveIO] at hio
      · simp [isDriveIO] at hio
      · exact .inr rfl

/-! ### Non-vacuity -/

/-- A drive that answers the first receive with "more pending" and the second one with an empty payload. -/
def twoRoundEnv : Prog.Env SecReq SecRep := fun h q =>
  match q with
  | .now => { time := 25000000 * (h.countP (fun x => x.1 == .sleep 25000000)) }
  | .sec false .. => if h.countP isReceive = 0 then { data := zeros 8 ++ [0, 0, 0, 1] ++ zeros 4 } else {}
  | _ => {}

/-- An Opal 2 device without descriptors. -/
def opalDevice : Device := newTcgDevice { opalV200 := true } []

example : opalDevice.isAnySSC = true := rfl

example : (OutT.run twoRoundEnv [] (opalDevice.exec 5 (newTcgCommand 0) 1)).2.countP isReceive = 2 := by
  decide +kernel

/-- The clock hypotheses of C33 are met by an environment that counts the sleeps (each lasting its full
time). -/
example : Clocked (fun h q => match q with
      | .now => { time := (h.map (fun x => match x.1 with | .sleep ns => ns | _ => 0)).sum }
      | _ => { err := none, data := zeros 8 ++ [0, 0, 0, 1] })
    (fun h => (h.map (fun x => match x.1 with | .sleep ns => ns | _ => 0)).sum) := by
  constructor
  · intro h; rfl
  · intro h q; simp
  · intro h ns; simp

end Dparm
