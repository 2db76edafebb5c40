import Verif.Lemmas.Budget
import Verif.Lemmas.Clockwork
import Verif.Lemmas.TcgCalls
import Verif.Props.Client
/-!
# C164: every call of a Linux client ends, within a known number of system calls
-/
namespace Dparm
open Spec OutT

theorem tally_calls (t : Prog.Trace AReq ARep) : tally (fun q _ => aPrice q) t = systemCalls t := by
  induction t with
  | nil => rfl
  | cons x t ih =>
    obtain ⟨q, r⟩ := x
    have e : aPrice q = if isSystemCall q = true then 1 else 0 := by
      cases q with
      | sys q => cases q <;> rfl
      | now => rfl
      | sleep => rfl
    simp only [tally, ih, systemCalls, List.countP_cons, e]
    omega

theorem tally_gain (sb sl : Nat) (t : Prog.Trace AReq ARep) :
    tally (aGain sb sl) t = sb * listed "/sys/block" t + sl * listed "/dev/disk/by-id" t := by
  have e0 : ∀ (q : AReq) (r : ARep), aGain sb sl q r =
      sb * namesIn (ascii "/sys/block") (q, r) + sl * namesIn (ascii "/dev/disk/by-id") (q, r) := by
    intro q r
    cases q with
    | now => rfl
    | sleep => rfl
    | sys q => cases q with
      | os q => cases q <;> rfl
      | _ => rfl
  induction t with
  | nil => rfl
  | cons x t ih =>
    obtain ⟨q, r⟩ := x
    unfold listed at ih ⊢
    rw [List.map_cons, List.map_cons, List.sum_cons, List.sum_cons]
    show aGain sb sl q r + tally (aGain sb sl) t = _
    rw [ih, e0]
    generalize namesIn (ascii "/sys/block") (q, r) = a
    generalize namesIn (ascii "/dev/disk/by-id") (q, r) = b
    rw [Nat.mul_add, Nat.mul_add]
    omega

/-- A program that pays its way. -/
theorem pays_calls {α : Type} {sb sl n : Nat} {c : α → Nat} {p : AM α} (hp : Pays aPrice (aGain sb sl) n c p)
    (env : Prog.Env AReq ARep) (h : Prog.Trace AReq ARep) :
    (run env h p).1 ≠ .running ∧ systemCalls (run env h p).2 ≤
      n + (sb * listed "/sys/block" (run env h p).2 + sl * listed "/dev/disk/by-id" (run env h p).2) := by
  have := pays_run hp env h
  rw [tally_calls, tally_gain] at this
  exact this

theorem pays_free {α : Type} {n : Nat} {c : α → Nat} {p : AM α} (hp : Pays aPrice (aGain 0 0) n c p)
    (env : Prog.Env AReq ARep) (h : Prog.Trace AReq ARep) :
    (run env h p).1 ≠ .running ∧ systemCalls (run env h p).2 ≤ n := by
  have := pays_calls hp env h
  rw [Nat.zero_mul, Nat.zero_mul] at this
  exact this

/-- Time does not run backwards while a program runs. -/
theorem clock_grows {env : Prog.Env AReq ARep} {clk : Prog.Trace AReq ARep → Nat} (hc : SystemClock env clk) {α : Type}
    (p : AM α) (h : Prog.Trace AReq ARep) : clk h ≤ clk (h ++ (run env h p).2) := by
  have : ∀ (p : Prog AReq ARep (Out α)) (h : Prog.Trace AReq ARep), clk h ≤ clk (h ++ (Prog.run env h p).2) := by
    intro p
    induction p with
    | done a => intro h; rw [Prog.run_done]; simp
    | ask q k ih =>
      intro h
      rw [Prog.run_ask]
      have a := hc.mono h q
      have b := ih (env h q) (h ++ [(q, env h q)])
      rw [List.append_assoc] at b
      exact Nat.le_trans a b
  exact this p h

theorem linux_clockwork {env : Prog.Env AReq ARep} {clk : Prog.Trace AReq ARep → Nat} (hc : SystemClock env clk)
    (o : Opened) : Clockwork (secOnLinux o) (fun q _ => aPrice q) env clk 4 where
  sec := by
    intro h rw dma p cid data secs
    have : Pays aPrice (aGain 0 0) 4 (fun _ => 0) (secOnLinux o (.sec rw dma p cid data secs)) := by
      refine sysCall_pays (onLinux_pays (onHandle_pays o (fun i => ?_)))
      refine pays_mono (security_pays i _ _ _ _ _ _ _) ?_ (fun _ => Nat.zero_le _)
      match i with
      | 0 => show 1 ≤ 4; omega
      | 1 => exact Nat.le_refl _
      | i + 2 => exact Nat.zero_le _
    have := pays_run this env h
    rw [tally_gain, Nat.zero_mul, Nat.zero_mul] at this
    exact this
  now := by
    intro h
    have e : run env h (secOnLinux o .now) = (.ret { time := (env h .now).time }, [(.now, env h .now)]) := rfl
    refine ⟨⟨by rw [e]; simp, by rw [e]; exact Nat.le_refl 0⟩, ?_⟩
    intro r t hr
    rw [e] at hr
    cases hr
    exact hc.now h
  sleep := by
    intro h ns
    have e : run env h (secOnLinux o (.sleep ns)) = (.ret {}, [(.sleep ns, env h (.sleep ns))]) := rfl
    refine ⟨⟨by rw [e]; simp, by rw [e]; exact Nat.le_refl 0⟩, ?_⟩
    intro r t hr
    rw [e] at hr
    cases hr
    exact hc.sleep h ns
  mono := by
    intro h q r t hr
    have := clock_grows hc (secOnLinux o q) h
    rw [hr] at this
    exact this

theorem query_ends (st : Held) (i n : Nat) {α : Type} (p : Handle → DrvM α)
    (hp : ∀ j hd, Pays (drvPrice j) noGain n (fun _ => 0) (p hd)) :
    Pays aPrice (aGain 0 0) n (fun _ => 0) (st.query i p) := by
  unfold Held.query Held.on
  split
  · refine pays_bind (c := fun _ => 0) (sysCall_pays (onLinux_pays (onHandle_pays _ (fun j => hp j _)))) ?_
    exact fun _ => pays_ret (Nat.zero_le _)
  · exact pays_ret (Nat.zero_le _)

theorem secPrice_le (i : Nat) : secPrice i ≤ 4 := by
  match i with
  | 0 => show 1 ≤ 4; omega
  | 1 => exact Nat.le_refl _
  | i + 2 => exact Nat.zero_le _

theorem ends_then {α β : Type} {env : Prog.Env AReq ARep} {h : Prog.Trace AReq ARep} {n : Nat} {p : AM α} {k : α → β}
    (hp : EndsAt env (fun q _ => aPrice q) h n p) :
    (run env h (p >>= fun a => ret (k a))).1 ≠ .running ∧ systemCalls (run env h (p >>= fun a => ret (k a))).2 ≤ n := by
  have := endsAt_bind (m := 0) (k := fun a => (ret (k a) : AM β)) hp (fun a t _ => endsAt_ret _)
  unfold EndsAt at this
  rw [tally_calls] at this
  exact this

/-- C164: on a system with a clock, every call a client can make of any handles comes to an end (a polling bound of 402 rounds
or more is never used up), and makes at most as many system calls as `budget` says. -/
theorem call_ends {env : Prog.Env AReq ARep} {clk : Prog.Trace AReq ARep → Nat} (hc : SystemClock env clk)
    (order : List (Bytes × Bytes) → List (Bytes × Bytes)) (ctx : Ctx) (hf : 402 ≤ ctx.fuel) (st : Held)
    (h : Prog.Trace AReq ARep) (c : LinuxCall) :
    (run env h (c.prog order ctx st)).1 ≠ .running ∧
    systemCalls (run env h (c.prog order ctx st)).2 ≤ budget (run env h (c.prog order ctx st)).2 c := by
  have opens : ∀ {p : AM Reported}, Pays aPrice (aGain 0 1) 17 (fun _ => 0) p →
      (run env h p).1 ≠ .running ∧ systemCalls (run env h p).2 ≤ 17 + listed "/dev/disk/by-id" (run env h p).2 := by
    intro p hp
    have := pays_calls hp env h
    rw [Nat.zero_mul, Nat.one_mul, Nat.zero_add] at this
    exact this
  cases c with
  | openPath path =>
    refine opens ?_
    simp only [LinuxCall.prog]
    exact pays_bind (sysCall_pays (onLinux_pays (openByPath_pays order path 0))) (fun _ => pays_ret (Nat.zero_le _))
  | openVolume vols path =>
    refine opens ?_
    simp only [LinuxCall.prog]
    refine pays_bind (sysCall_pays (onLinux_pays (openVolume_pays order vols path))) (fun x => ?_)
    cases x with
    | none => exact pays_ret (Nat.zero_le _)
    | some r => exact pays_ret (Nat.zero_le _)
  | openPartition p =>
    refine opens ?_
    simp only [LinuxCall.prog]
    exact pays_bind (sysCall_pays (onLinux_pays (openByPath_pays order p.parentPath 0)))
      (fun _ => pays_ret (Nat.zero_le _))
  | enumDrives =>
    have : Pays aPrice (aGain 19 1) 1 (fun _ => 0) (LinuxCall.enumDrives.prog order ctx st) := by
      simp only [LinuxCall.prog]
      exact pays_bind (sysCall_pays (onLinux_pays (enumDrives_pays order))) (fun _ => pays_ret (Nat.zero_le _))
    have := pays_calls this env h
    refine ⟨this.1, ?_⟩
    have := this.2
    show _ ≤ 1 + 19 * listed "/sys/block" _ + listed "/dev/disk/by-id" _
    omega
  | enumVolumes m =>
    refine pays_free (c := fun _ => 0) (n := 6 * m.lines.length) ?_ env h
    simp only [LinuxCall.prog]
    exact pays_bind (sysCall_pays (onLinux_pays (enumVolumes_pays m))) (fun _ => pays_ret (Nat.zero_le _))
  | close i =>
    refine pays_free (c := fun _ => 0) (n := 1) ?_ env h
    simp only [LinuxCall.prog, Held.on]
    split
    · exact pays_bind (sysCall_pays (onLinux_pays (openedClose_pays _ 0))) (fun _ => pays_ret (Nat.zero_le _))
    · exact pays_ret (Nat.zero_le _)
  | drivingType i =>
    refine pays_free (c := fun _ => 0) (n := 0) ?_ env h
    simp only [LinuxCall.prog]
    exact query_ends st i 0 _ (fun j hd => drivingType_pays j 0 hd)
  | driverName i =>
    refine pays_free (c := fun _ => 0) (n := 0) ?_ env h
    simp only [LinuxCall.prog]
    exact query_ends st i 0 _ (fun j hd => driverName_pays j 0 hd)
  | ata i rw dma tf data secs =>
    refine pays_free (c := fun _ => 0) (n := 2) ?_ env h
    simp only [LinuxCall.prog]
    split
    · exact query_ends st i 2 _ (fun j hd => ata_pays j hd ..)
    · exact query_ends st i 2 _ (fun j hd => ataNil_pays j hd ..)
  | logPage i nsid logId rae size =>
    refine pays_free (c := fun _ => 0) (n := (size + 4095) / 4096) ?_ env h
    simp only [LinuxCall.prog]
    exact query_ends st i _ _ (fun j hd => logPage_pays j hd ..)
  | security i rw dma p cid buf secs =>
    refine pays_free (c := fun _ => 0) (n := 4) ?_ env h
    simp only [LinuxCall.prog]
    exact query_ends st i 4 _ (fun j hd => pays_mono (security_pays j hd ..) (secPrice_le j) (fun _ => Nat.zero_le _))
  | discover i =>
    refine pays_free (c := fun _ => 0) (n := 4) ?_ env h
    simp only [LinuxCall.prog, Held.on]
    split
    · refine pays_bind (c := fun _ => 0) (sysCall_pays (onLinux_pays (onHandle_pays _ (fun j => ?_))))
        (fun _ => pays_ret (Nat.zero_le _))
      exact pays_mono (discovery_pays j _) (secPrice_le j) (fun _ => Nat.zero_le _)
    · exact pays_ret (Nat.zero_le _)
  | revert i d pw psid adm =>
    simp only [LinuxCall.prog, Held.on]
    split
    · exact ends_then (endsAt_revert (linux_clockwork hc _) ctx d pw psid adm hf h)
    · exact ⟨by simp, Nat.zero_le _⟩
  | defaultPassword i d =>
    simp only [LinuxCall.prog, Held.on]
    split
    · exact ends_then (endsAt_password (linux_clockwork hc _) ctx d hf h)
    · exact ⟨by simp, Nat.zero_le _⟩
  | tcg i d c =>
    simp only [LinuxCall.prog, Held.on]
    split
    · rename_i o ho
      have := endsAt_tcg (linux_clockwork hc o) ctx d c hf h
      cases c <;> exact ends_then this
    · exact ⟨by simp, Nat.zero_le _⟩

/-- C164: a client comes to the end of any sequence of calls. -/
theorem client_ends {env : Prog.Env AReq ARep} {clk : Prog.Trace AReq ARep → Nat} (hc : SystemClock env clk)
    (order : List (Bytes × Bytes) → List (Bytes × Bytes)) (ctx : Ctx) (hf : 402 ≤ ctx.fuel) (calls : List LinuxCall)
    (st : Held) (h : Prog.Trace AReq ARep) :
    Out.running ∉ (clientRun order ctx env calls st h).reports := by
  induction calls generalizing st h with
  | nil => simp [clientRun]
  | cons c cs ih =>
    simp only [clientRun, List.mem_cons, not_or]
    refine ⟨?_, ih _ _⟩
    have := (call_ends hc order ctx hf st h c).1
    generalize (run env h (c.prog order ctx st)).1 = x at this
    cases x with
    | ret a => exact fun e => by cases e
    | panic => exact fun e => by cases e
    | running => exact absurd rfl this

/-- C164: and makes in all at most the system calls its calls are allowed. -/
theorem client_budget {env : Prog.Env AReq ARep} {clk : Prog.Trace AReq ARep → Nat} (hc : SystemClock env clk)
    (order : List (Bytes × Bytes) → List (Bytes × Bytes)) (ctx : Ctx) (hf : 402 ≤ ctx.fuel) (calls : List LinuxCall)
    (st : Held) (h : Prog.Trace AReq ARep) :
    systemCalls (clientRun order ctx env calls st h).trace ≤
      (List.zipWith budget (clientSteps order ctx env calls st h) calls).sum := by
  induction calls generalizing st h with
  | nil => exact Nat.le_refl _
  | cons c cs ih =>
    have a := (call_ends hc order ctx hf st h c).2
    have b := ih (st.afterCall (run env h (c.prog order ctx st)).1).1 (h ++ (run env h (c.prog order ctx st)).2)
    simp only [clientRun, clientSteps, List.zipWith_cons_cons, List.sum_cons]
    unfold systemCalls at a b ⊢
    rw [List.countP_append]
    omega

/-! ## Not vacuous -/

/-- The system of C88's sample with a clock that counts the sleeps. -/
def clockedClient : Prog.Env AReq ARep := fun h q => match q with
  | .now => { time := (h.map (fun x => match x.1 with | .sleep ns => ns | _ => 0)).sum }
  | q => sampleClient h q

theorem clockedClient_clock :
    SystemClock clockedClient (fun h => (h.map (fun x => match x.1 with | AReq.sleep ns => ns | _ => 0)).sum) := by
  constructor
  · intro h; rfl
  · intro h q; simp
  · intro h ns; simp

set_option maxRecDepth 20000 in
/-- What the calls of C88's sample client cost, and what they might have cost. -/
example :
    (clientSteps id sampleCtx clockedClient sampleCalls [] []).map systemCalls = [9, 12, 9, 1, 0, 0, 0, 0, 1] ∧
    List.zipWith budget (clientSteps id sampleCtx clockedClient sampleCalls [] []) sampleCalls =
      [17, 20, 17, 1, 1, 0, 0, 4, 17] := by
  decide +kernel

end Dparm
