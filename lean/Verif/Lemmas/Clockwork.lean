import Verif.Lemmas.Cost
import Verif.Lemmas.Alike
import Verif.Model.Session
/-!
# How many requests a TCG operation makes on a system with a clock
-/
namespace Dparm
open OutT

/-- After the history `h` the program comes to an end, and its exchanges weigh at most `n`. -/
def EndsAt {Q R α : Type} (env : Prog.Env Q R) (w : Q → R → Nat) (h : Prog.Trace Q R) (n : Nat) (p : OutT Q R α) : Prop :=
  (run env h p).1 ≠ .running ∧ tally w (run env h p).2 ≤ n

section
variable {Q R α β : Type} {env : Prog.Env Q R} {w : Q → R → Nat} {h : Prog.Trace Q R} {n m : Nat}

theorem endsAt_ret (a : α) : EndsAt env w h n (ret a : OutT Q R α) := by
  unfold EndsAt
  rw [run_ret]
  exact ⟨by simp, by simp [tally]⟩

theorem endsAt_panic : EndsAt env w h n (panic : OutT Q R α) :=
  ⟨fun e => (by have e : (Out.panic : Out α) = .running := e; cases e), Nat.zero_le _⟩

theorem endsAt_lift (x : P α) : EndsAt env w h n (lift x : OutT Q R α) := by
  cases x with
  | ret a => exact endsAt_ret a
  | panic => exact endsAt_panic

theorem endsAt_mono {p : OutT Q R α} (hp : EndsAt env w h n p) (hm : n ≤ m) : EndsAt env w h m p :=
  ⟨hp.1, Nat.le_trans hp.2 hm⟩

theorem endsAt_bind {p : OutT Q R α} {k : α → OutT Q R β} (hp : EndsAt env w h n p)
    (hk : ∀ a t, run env h p = (.ret a, t) → EndsAt env w (h ++ t) m (k a)) : EndsAt env w h (n + m) (p >>= k) := by
  unfold EndsAt
  rw [run_bind]
  unfold EndsAt at hp
  obtain ⟨x, hx⟩ : ∃ x, run env h p = x := ⟨_, rfl⟩
  rw [hx] at hp ⊢
  obtain ⟨o, t⟩ := x
  cases o with
  | ret a =>
    obtain ⟨k1, k2⟩ := hk a t hx
    refine ⟨k1, ?_⟩
    show tally w (t ++ _) ≤ _
    rw [tally_append]
    have := hp.2
    exact Nat.add_le_add this k2
  | panic => exact ⟨by simp, Nat.le_trans hp.2 (Nat.le_add_right _ _)⟩
  | running => exact absurd rfl hp.1

theorem endsAt_lift_bind {x : P α} {k : α → OutT Q R β} (hk : ∀ a, EndsAt env w h n (k a)) :
    EndsAt env w h n (lift x >>= k) := by
  cases x with
  | ret a => exact hk a
  | panic => exact endsAt_panic

theorem endsAt_ite {c : Prop} [Decidable c] {p q : OutT Q R α} (hp : EndsAt env w h n p) (hq : EndsAt env w h n q) :
    EndsAt env w h n (if c then p else q) := by
  split
  · exact hp
  · exact hq
end

/-- What carries out the requests of TCG operations: a security command weighs at most `c`; reading the clock and sleeping weigh
nothing and do what they should. -/
structure Clockwork {Q R : Type} (f : SecReq → OutT Q R SecRep) (w : Q → R → Nat) (env : Prog.Env Q R)
    (clk : Prog.Trace Q R → Nat) (c : Nat) : Prop where
  sec : ∀ h rw dma p cid data secs, EndsAt env w h c (f (.sec rw dma p cid data secs))
  now : ∀ h, EndsAt env w h 0 (f .now) ∧ ∀ r t, run env h (f .now) = (.ret r, t) → r.time = clk h
  sleep : ∀ h ns, EndsAt env w h 0 (f (.sleep ns)) ∧
    ∀ r t, run env h (f (.sleep ns)) = (.ret r, t) → clk h + ns ≤ clk (h ++ t)
  mono : ∀ h q r t, run env h (f q) = (.ret r, t) → clk h ≤ clk (h ++ t)

section
variable {Q R : Type} {f : SecReq → OutT Q R SecRep} {w : Q → R → Nat} {env : Prog.Env Q R}
  {clk : Prog.Trace Q R → Nat} {c : Nat}

theorem interp_asked {Q R Q' R' α : Type} (f : Q → OutT Q' R' R) (q : Q) (k : R → OutT Q R α) :
    interp f (ask q >>= k : OutT Q R α) = (f q >>= fun r => interp f (k r)) := rfl

theorem endsAt_then {α β : Type} {h : Prog.Trace Q R} {n m : Nat} {p : TcgM α} {k : α → TcgM β}
    (hp : EndsAt env w h n (interp f p))
    (hk : ∀ a t, run env h (interp f p) = (.ret a, t) → EndsAt env w (h ++ t) m (interp f (k a))) :
    EndsAt env w h (n + m) (interp f (p >>= k : TcgM β)) := by
  rw [interp_bind]
  exact endsAt_bind hp hk

theorem endsAt_with {α β : Type} {h : Prog.Trace Q R} {n : Nat} {x : P α} {k : α → TcgM β}
    (hk : ∀ a, EndsAt env w h n (interp f (k a))) : EndsAt env w h n (interp f (lift x >>= k : TcgM β)) := by
  cases x with
  | ret a => exact hk a
  | panic => exact endsAt_panic

theorem clockStep (n t0 k x y : Nat) (h : t0 + k * n ≤ x) (s : x + n ≤ y) : t0 + (k + 1) * n ≤ y := by
  rw [Nat.add_mul, Nat.one_mul]; omega

theorem endsAt_poll (hc : Clockwork f w env clk c) (d : Device) (p : Byte) (t0 fuel j : Nat) (h : Prog.Trace Q R)
    (hj : j ≤ 401) (ht : t0 + j * 25000000 ≤ clk h) (hf : 402 ≤ j + fuel) :
    EndsAt env w h (c * (402 - j)) (interp f (d.poll p t0 fuel)) := by
  induction fuel generalizing j h with
  | zero => omega
  | succ fuel ih =>
    have hcj : c * (402 - j) = c + c * (402 - (j + 1)) := by
      rw [show 402 - j = (402 - (j + 1)) + 1 by omega, Nat.mul_add, Nat.mul_one]; omega
    rw [hcj]
    refine endsAt_mono (n := 0 + (0 + (c + c * (402 - (j + 1))))) ?_ (by omega)
    rw [Device.poll, interp_asked]
    refine endsAt_bind (hc.now h).1 (fun t u hu => ?_)
    have e1 := (hc.now h).2 t u hu
    have m1 := hc.mono h _ t u hu
    rw [interp_asked]
    refine endsAt_bind (hc.sleep _ _).1 (fun s u2 hu2 => ?_)
    have m2 := (hc.sleep _ _).2 s u2 hu2
    rw [interp_asked]
    refine endsAt_bind (hc.sec _ _ _ _ _ _ _) (fun r u3 hu3 => ?_)
    have m3 := hc.mono _ _ r u3 hu3
    cases he : r.err with
    | some e => dsimp only; exact endsAt_ret _
    | none =>
      dsimp only
      by_cases c1 : t.time - t0 > execTimeout
      · rw [if_pos c1]; exact endsAt_ret _
      · rw [if_neg c1]
        by_cases c2 : morePending (received r) = true
        · rw [if_pos c2]
          have step : clk h + 25000000 ≤ clk (h ++ u ++ u2 ++ u3) :=
            Nat.le_trans (Nat.le_trans (Nat.add_le_add_right m1 _) m2) m3
          have step2 := clockStep _ _ _ _ _ ht step
          have hlt : j + 1 ≤ 401 := by
            have : ¬ (t.time - t0 > 10000000000) := c1
            omega
          exact ih (j + 1) _ hlt step2 (by omega)
        · rw [if_neg c2]; exact endsAt_ret _

/-- An exchange of a command: at most 403 security commands, none on a device that is not Opal (`isAnySSC`). -/
theorem endsAt_exec (hc : Clockwork f w env clk c) (d : Device) (cmd : ABuf) (p : Byte) (fuel : Nat) (hf : 402 ≤ fuel)
    (h : Prog.Trace Q R) :
    EndsAt env w h (if d.isAnySSC = true then c * 403 else 0) (interp f (d.exec fuel cmd p)) := by
  refine endsAt_mono (n := 0 + if d.isAnySSC = true then c * 403 else 0) ?_ (by omega)
  rw [Device.exec, interp_asked]
  refine endsAt_bind (hc.now h).1 (fun t u hu => ?_)
  have e1 := (hc.now h).2 t u hu
  have m1 := hc.mono h _ t u hu
  by_cases hd : d.isAnySSC = true
  · rw [if_pos hd, if_neg (by simp [hd])]
    refine endsAt_mono (n := c + c * (402 - 0)) ?_ (by omega)
    rw [interp_asked]
    refine endsAt_bind (hc.sec _ _ _ _ _ _ _) (fun r u2 hu2 => ?_)
    have m2 := hc.mono _ _ r u2 hu2
    cases r.err with
    | some e => exact endsAt_ret _
    | none => exact endsAt_poll hc d p t.time fuel 0 _ (by omega) (by rw [e1]; omega) (by omega)
  · rw [if_neg hd, if_pos (by simpa using hd)]
    exact endsAt_ret _

theorem endsAt_send (hc : Clockwork f w env clk c) (ctx : Ctx) (d : Device) (s : Session) (cmd : ABuf)
    (hf : 402 ≤ ctx.fuel) (h : Prog.Trace Q R) :
    EndsAt env w h (if d.isAnySSC = true then c * 403 else 0) (interp f (s.sendCommand ctx d cmd)) := by
  unfold Session.sendCommand
  rw [interp_bind]
  refine endsAt_mono (n := (if d.isAnySSC = true then c * 403 else 0) + 0)
    (endsAt_bind (endsAt_exec hc d _ _ _ hf h) (fun x t _ => ?_)) (by omega)
  obtain ⟨resp, err⟩ := x
  cases err with
  | some e => exact endsAt_ret _
  | none =>
    cases resp with
    | none => exact endsAt_panic
    | some r =>
      exact endsAt_with (fun e => endsAt_ret _)

theorem endsAt_numbers (authn : Session → TcgM (Option GoErr)) (d : Device) (s : Session) (ch : Bytes) (r : Resp)
    (n : Nat) (h : Prog.Trace Q R) (ha : d.isEnterprise = true → ∀ s, EndsAt env w h n (interp f (authn s))) :
    EndsAt env w h n (interp f (Session.startNumbers authn d s ch r)) := by
  unfold Session.startNumbers
  cases r.getToken 4 with
  | panic => exact endsAt_panic
  | ret a =>
    cases r.getToken 5 with
    | panic => exact endsAt_panic
    | ret b =>
      show EndsAt env w h n (interp f (match a, b with
        | some h, some t => _
        | _, _ => _))
      cases a with
      | none => exact endsAt_ret _
      | some x =>
        cases b with
        | none => exact endsAt_ret _
        | some y =>
          dsimp only
          cases Tok.getUint32 x with
          | panic => exact endsAt_panic
          | err e => exact endsAt_ret _
          | ok hv =>
            cases Tok.getUint32 y with
            | panic => exact endsAt_panic
            | err e => exact endsAt_ret _
            | ok tv =>
              dsimp only
              by_cases hcnd : ch ≠ [] ∧ d.isEnterprise = true
              · rw [if_pos hcnd, interp_bind]
                refine endsAt_mono (n := n + 0) (endsAt_bind (ha hcnd.2 _) (fun e t _ => endsAt_ret _)) (by omega)
              · rw [if_neg hcnd]
                exact endsAt_ret _

/-- Opening a session is one exchange on an Opal device, none on others. -/
theorem endsAt_start (hc : Clockwork f w env clk c) (ctx : Ctx) (d : Device) (s : Session) (sp : UID) (ch : Bytes)
    (au : AuthArg) (hf : 402 ≤ ctx.fuel) (h : Prog.Trace Q R) :
    EndsAt env w h (if d.isAnySSC = true then c * 403 else 0) (interp f (s.start ctx d sp ch au)) := by
  unfold Session.start
  refine endsAt_with (fun cmd => ?_)
  · refine endsAt_mono (n := (if d.isAnySSC = true then c * 403 else 0) + 0)
      (endsAt_then (endsAt_send hc ctx d s cmd hf h) (fun x t _ => ?_)) (by omega)
    obtain ⟨resp, err⟩ := x
    cases err with
    | some e => exact endsAt_ret _
    | none =>
      cases resp with
      | none => exact endsAt_panic
      | some r =>
        refine endsAt_numbers _ d s ch r 0 _ (fun he s' => ?_)
        have hn : d.isAnySSC = false := by
          cases hs : d.isAnySSC with
          | false => rfl
          | true => rw [ssc_not_enterprise hs] at he; cases he
        unfold Session.authenticate
        refine endsAt_with (fun cmd => ?_)
        · refine endsAt_mono (n := 0 + 0) (endsAt_then (n := 0) (m := 0) ?_ (fun x t _ => ?_)) (by omega)
          · have := endsAt_send hc ctx d s' cmd hf
            rw [if_neg (by simp [hn])] at this
            exact this _
          · obtain ⟨resp, err⟩ := x
            cases err with
            | some e => exact endsAt_ret _
            | none =>
              cases resp with
              | none => exact endsAt_panic
              | some r =>
                show EndsAt env w _ _ (interp f (lift (Session.authTail r)))
                cases Session.authTail r with
                | ret a => exact endsAt_ret _
                | panic => exact endsAt_panic

/-- Two exchanges. -/
theorem endsAt_two (hc : Clockwork f w env clk c) (ctx : Ctx) (d : Device) (s0 : Session) (sp : UID) (ch : Bytes)
    (au : AuthArg) (hf : 402 ≤ ctx.fuel) (h : Prog.Trace Q R) {α : Type} (k : Session × Option GoErr → TcgM α)
    (hk : ∀ x h, EndsAt env w h (c * 403) (interp f (k x))) :
    EndsAt env w h (2 * (c * 403)) (interp f (s0.start ctx d sp ch au >>= k : TcgM α)) := by
  refine endsAt_mono (n := c * 403 + c * 403) (endsAt_then (endsAt_mono (endsAt_start hc ctx d s0 sp ch au hf h) ?_)
    (fun x t _ => hk x _)) (by omega)
  split <;> omega

theorem endsAt_send' (hc : Clockwork f w env clk c) (ctx : Ctx) (d : Device) (s : Session) (x : P ABuf)
    (hf : 402 ≤ ctx.fuel) (h : Prog.Trace Q R) {α : Type} (k : Option Resp × Option GoErr → TcgM α)
    (hk : ∀ x h, EndsAt env w h 0 (interp f (k x))) :
    EndsAt env w h (c * 403) (interp f (lift x >>= fun cmd => (s.sendCommand ctx d cmd >>= k : TcgM α) : TcgM α)) := by
  refine endsAt_with (fun cmd => ?_)
  refine endsAt_mono (n := c * 403 + 0) (endsAt_then (endsAt_mono (endsAt_send hc ctx d s cmd hf h) ?_)
    (fun x t _ => hk x _)) (by omega)
  split <;> omega

theorem endsAt_revert (hc : Clockwork f w env clk c) (ctx : Ctx) (d : Device) (pw : Bytes) (psid adm : Bool)
    (hf : 402 ≤ ctx.fuel) (h : Prog.Trace Q R) :
    EndsAt env w h (2 * (c * 403)) (interp f (d.revertTPer ctx pw psid adm)) := by
  have opal : EndsAt env w h (2 * (c * 403)) (interp f (d.revertOpal ctx pw psid)) := by
    unfold Device.revertOpal
    refine endsAt_two hc ctx d _ _ _ _ hf h _ (fun x h => ?_)
    obtain ⟨s, e⟩ := x
    cases e with
    | some e => exact endsAt_ret _
    | none =>
      exact endsAt_send' hc ctx d s _ hf h _ (fun x h => endsAt_ret _)
  unfold Device.revertTPer
  split
  · exact endsAt_ret _
  · exact opal
  · exact opal
  · unfold Device.revertEnterprise
    refine endsAt_two hc ctx d _ _ _ _ hf h _ (fun x h => ?_)
    obtain ⟨s, e⟩ := x
    cases e with
    | some e => exact endsAt_ret _
    | none =>
      exact endsAt_send' hc ctx d _ _ hf h _ (fun x h => endsAt_ret _)

theorem endsAt_password (hc : Clockwork f w env clk c) (ctx : Ctx) (d : Device)
    (hf : 402 ≤ ctx.fuel) (h : Prog.Trace Q R) :
    EndsAt env w h (2 * (c * 403)) (interp f (d.getDefaultPassword ctx)) := by
  unfold Device.getDefaultPassword
  split
  · exact endsAt_ret _
  · refine endsAt_two hc ctx d _ _ _ _ hf h _ (fun x h => ?_)
    obtain ⟨s, e⟩ := x
    cases e with
    | some e => exact endsAt_ret _
    | none =>
      dsimp only
      refine endsAt_mono (n := c * 403 + 0) (endsAt_then ?_ (fun x t _ => ?_)) (by omega)
      rotate_left
      · obtain ⟨resp, err⟩ := x
        cases err with
        | some e => exact endsAt_ret _
        | none =>
          cases resp with
          | none => exact endsAt_panic
          | some r =>
            refine endsAt_with (fun a => ?_)
            cases a with
            | none => exact endsAt_ret _
            | some t =>
              dsimp only
              cases Tok.getString t with
              | panic => exact endsAt_panic
              | err e => exact endsAt_ret _
              | ok v => exact endsAt_ret _
      split
      · unfold Device.entGetTable
        cases Cmd.make ctx.base (.buf Device.msidTable) (.method M_GET) (Device.entGetTableOps txtPIN txtPIN) with
        | panic => exact endsAt_panic
        | ret cmd => exact endsAt_mono (endsAt_send hc ctx d s cmd hf h) (by split <;> omega)
      · unfold Device.opalGetTable
        cases Cmd.make ctx.base (.buf Device.msidTable) (.method M_GET) (Device.getTableOps 3 3) with
        | panic => exact endsAt_panic
        | ret cmd => exact endsAt_mono (endsAt_send hc ctx d s cmd hf h) (by split <;> omega)

end
end Dparm
