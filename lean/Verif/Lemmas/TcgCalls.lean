import Verif.Model.SessionHistory
import Verif.Spec.Crash
import Verif.Lemmas.TcgSystem
import Verif.Lemmas.Clockwork
import Verif.Lemmas.SharedDrive
import Verif.Props.SessionOps
import Verif.Props.Start
/-!
# Lemmas: calls on sessions
-/
namespace Dparm
open Spec

/-! ## The requests -/

section
attribute [local irreducible] OutT.Asks

theorem built_asks {α : Type} {A : SecReq → Prop} (base : Nat) (inv : InvokingArg) (m : MethodArg) (ops : List CmdOp)
    {k : ABuf → TcgM α} (hk : ∀ c, Geo c → 0 < c.wpos → OutT.Asks A (k c)) :
    OutT.Asks A (OutT.lift (Cmd.execAll (newTcgCommand base) (.init inv m :: ops)) >>= k : TcgM α) := by
  obtain ⟨c, h1, g, w⟩ := built_begun base inv m ops
  rw [h1]
  exact OutT.asks_lift_bind (fun a ha => by cases ha; exact hk c g w)

theorem stamped_wire_length {c : ABuf} (g : Geo c) (hw : 0 < c.wpos) (s : Session) (d : Device) :
    512 ≤ (Cmd.wire (s.stamp d c)).length ∧ (Cmd.wire (s.stamp d c)).length ≤ 61440 ∧
      512 ∣ (Cmd.wire (s.stamp d c)).length := by
  obtain ⟨g', hw', -⟩ := geo_stamp g s d
  exact begun_wire_length g' (by omega)

/-- Every call but `Exec` speaks protocol 1 with the device's ComID. -/
theorem tcgCall_asks (ctx : Ctx) (d : Device) (c : TcgCall) (hx : ∀ p inv m ops, c = .exec p inv m ops → p = 1) :
    OutT.Asks (TcgAsk d.baseComId) (c.prog ctx d) := by
  cases c with
  | start s sp ch au =>
    simp only [TcgCall.prog]
    exact OutT.asks_bind (start_asks ctx d s sp ch au) (fun _ => OutT.asks_ret _)
  | authenticate s a ch =>
    simp only [TcgCall.prog]
    exact OutT.asks_bind (authenticate_asks ctx d s a ch) (fun _ => OutT.asks_ret _)
  | send s inv m ops =>
    simp only [TcgCall.prog]
    exact built_asks _ _ _ _ (fun c g w =>
      OutT.asks_bind (sendCommand_asks ctx d s c (stamped_wire_length g w s d)) (fun _ => OutT.asks_ret _))
  | close s =>
    simp only [TcgCall.prog]
    unfold Session.close
    simp only [Bool.and_false, Bool.false_eq_true, if_false]
    exact OutT.asks_bind (OutT.asks_ret _) (fun _ => OutT.asks_ret _)
  | table s recv t a b =>
    simp only [TcgCall.prog]
    have hg : OutT.Asks (TcgAsk d.baseComId) (d.opalGetTable ctx s t a b) := by
      unfold Device.opalGetTable
      exact OutT.asks_lift_bind (fun cmd hc => sendCommand_asks ctx d s cmd (make_wire_length _ _ _ _ s d hc))
    refine OutT.asks_bind ?_ (fun _ => OutT.asks_ret _)
    unfold Device.getTable
    split
    · exact OutT.asks_ret _
    · exact OutT.asks_ret _
    · exact hg
    · exact hg
  | entTable s t a b =>
    simp only [TcgCall.prog]
    refine OutT.asks_bind ?_ (fun _ => OutT.asks_ret _)
    unfold Device.entGetTable
    exact OutT.asks_lift_bind (fun cmd hc => sendCommand_asks ctx d s cmd (make_wire_length _ _ _ _ s d hc))
  | exec p inv m ops =>
    obtain rfl := hx p inv m ops rfl
    simp only [TcgCall.prog]
    exact built_asks _ _ _ _ (fun c g w =>
      OutT.asks_bind (exec_asks ctx.fuel d c (begun_wire_length g w)) (fun _ => OutT.asks_ret _))

end

/-- What `Exec` asks: never a transfer without bytes. -/
def Bytewise : SecReq → Prop
  | .sec _ _ _ _ buf _ => buf ≠ []
  | _ => True

theorem exec_bytewise (fuel : Nat) (d : Device) (cmd : ABuf) (p : Byte) (hw : 512 ≤ (Cmd.wire cmd).length) :
    OutT.Asks Bytewise (d.exec fuel cmd p) := by
  have hz : zeros 2048 ≠ [] := fun h => by
    have := congrArg List.length h
    rw [zeros_length] at this
    cases this
  have poll : ∀ t0 fuel, OutT.Asks Bytewise (d.poll p t0 fuel) := by
    intro t0 fuel
    induction fuel with
    | zero => exact trivial
    | succ n ih =>
      unfold Device.poll
      refine OutT.asks_bind (OutT.asks_ask trivial) (fun t => ?_)
      refine OutT.asks_bind (OutT.asks_ask trivial) (fun _ => ?_)
      refine OutT.asks_bind (OutT.asks_ask hz) (fun r => ?_)
      dsimp only
      split
      · exact OutT.asks_ret _
      · split
        · exact OutT.asks_ret _
        · split
          · exact ih
          · exact OutT.asks_ret _
  unfold Device.exec
  refine OutT.asks_bind (OutT.asks_ask trivial) (fun t => ?_)
  split
  · exact OutT.asks_ret _
  · refine OutT.asks_bind (OutT.asks_ask (fun h => ?_)) (fun r => ?_)
    · rw [h] at hw
      cases hw
    · split
      · exact OutT.asks_ret _
      · exact poll _ fuel

theorem execCall_bytewise (ctx : Ctx) (d : Device) (p : Byte) (inv : InvokingArg) (m : MethodArg) (ops : List CmdOp) :
    OutT.Asks Bytewise ((TcgCall.exec p inv m ops).prog ctx d) := by
  simp only [TcgCall.prog]
  exact built_asks _ _ _ _ (fun c g w =>
    OutT.asks_bind (exec_bytewise ctx.fuel d c p (begun_wire_length g w).1) (fun _ => OutT.asks_ret _))

/-! ## Panics -/

theorem exec_silent (d : Device) (hd : ¬ d.isAnySSC = true) (cmd : ABuf) (p : Byte) (fuel : Nat)
    (env : Prog.Env SecReq SecRep) (h : Prog.Trace SecReq SecRep) :
    ∃ x e, (OutT.run env h (d.exec fuel cmd p)).1 = .ret (x, some e) := by
  unfold Device.exec
  rw [OutT.run_ask_bind]
  dsimp only
  rw [if_pos (by simpa using hd)]
  exact ⟨_, _, rfl⟩

theorem poll_calm (d : Device) (p : Byte) (t0 : Nat) (env : Prog.Env SecReq SecRep) : ∀ fuel h,
    (OutT.run env h (d.poll p t0 fuel)).1 ≠ .panic := by
  intro fuel
  induction fuel with
  | zero => exact fun h hx => by cases hx
  | succ n ih =>
    intro h
    unfold Device.poll
    rw [OutT.run_ask_bind, OutT.run_ask_bind, OutT.run_ask_bind]
    dsimp only
    split
    · exact fun hx => by cases hx
    · split
      · exact fun hx => by cases hx
      · split
        · exact ih _
        · exact fun hx => by cases hx

theorem exec_calm (d : Device) (cmd : ABuf) (p : Byte) (fuel : Nat)
    (env : Prog.Env SecReq SecRep) (h : Prog.Trace SecReq SecRep) : (OutT.run env h (d.exec fuel cmd p)).1 ≠ .panic := by
  unfold Device.exec
  rw [OutT.run_ask_bind]
  dsimp only
  split
  · exact fun hx => by cases hx
  · rw [OutT.run_ask_bind]
    dsimp only
    split
    · exact fun hx => by cases hx
    · exact poll_calm d p _ env fuel _

theorem send_crash (ctx : Ctx) (d : Device) (s : Session) (cmd : ABuf) (hf : 0 < ctx.fuel)
    (env : Prog.Env SecReq SecRep) (h : Prog.Trace SecReq SecRep) :
    ((OutT.run env h (s.sendCommand ctx d cmd)).1 = .panic →
      (d.kind = .opal1 ∨ d.kind = .opal2) ∧ ∃ r, Answered (OutT.run env h (s.sendCommand ctx d cmd)).2 r ∧ TooShort r) ∧
    (∀ r, (OutT.run env h (s.sendCommand ctx d cmd)).1 = .ret (some r, none) → Parsed r ∧ d.isAnySSC = true) := by
  by_cases hd : d.isAnySSC = true
  · obtain ⟨-, hc⟩ := sendCommand_summary ctx d s cmd env h hd hf
    generalize OutT.run env h (s.sendCommand ctx d cmd) = x at hc ⊢
    obtain ⟨o, t⟩ := x
    simp only at hc ⊢
    rcases hc with ⟨x, e, rfl⟩ | ⟨r, h1, h2, h3, rfl⟩ | ⟨r, h1, h2, h3, rfl⟩ | rfl
    · exact ⟨fun h => (by cases h), fun r h => (by cases h)⟩
    · exact ⟨fun _ => ⟨ssc_opal hd, r, h1, h3⟩, fun r h => (by cases h)⟩
    · exact ⟨fun h => (by cases h), fun r' h => (by cases h; exact ⟨h2, hd⟩)⟩
    · exact ⟨fun h => (by cases h), fun r h => (by cases h)⟩
  · obtain ⟨x, e, he⟩ := exec_silent d hd (s.stamp d cmd) 1 ctx.fuel env h
    have : ∃ t, OutT.run env h (s.sendCommand ctx d cmd) = (.ret (none, some e), t) := by
      unfold Session.sendCommand
      rw [OutT.run_bind]
      generalize OutT.run env h (d.exec ctx.fuel (s.stamp d cmd) 1) = y at he ⊢
      obtain ⟨o, t⟩ := y
      simp only at he
      subst he
      exact ⟨_, rfl⟩
    obtain ⟨t, ht⟩ := this
    rw [ht]
    exact ⟨fun h => (by cases h), fun r h => (by cases h)⟩

/-- A command followed by steps that never panic on a parsed response. -/
theorem send_then_crash (ctx : Ctx) (d : Device) (s : Session) (cmd : ABuf) (hf : 0 < ctx.fuel) {α : Type}
    (k : Option Resp × Option GoErr → TcgM α)
    (hk : ∀ x env h, (x.2 = none → d.isAnySSC = true ∧ ∃ r, x.1 = some r ∧ Parsed r) → (OutT.run env h (k x)).1 ≠ .panic)
    (env : Prog.Env SecReq SecRep) (h : Prog.Trace SecReq SecRep)
    (hp : (OutT.run env h (s.sendCommand ctx d cmd >>= k : TcgM α)).1 = .panic) :
    (d.kind = .opal1 ∨ d.kind = .opal2) ∧
      ∃ r, Answered (OutT.run env h (s.sendCommand ctx d cmd >>= k : TcgM α)).2 r ∧ TooShort r := by
  obtain ⟨c1, c2⟩ := send_crash ctx d s cmd hf env h
  have c3 : ∀ x, (OutT.run env h (s.sendCommand ctx d cmd)).1 ≠ .ret (none, none) ∨ x := by
    intro x
    left
    obtain ⟨-, hcase⟩ := run_sendCommand ctx d s cmd env h
    rcases hcase with ⟨y, e, -, h2⟩ | ⟨r, -, -, ⟨-, h2⟩ | ⟨e, -, h2⟩⟩ | ⟨-, h2⟩ <;> rw [h2] <;> exact fun h => by cases h
  rw [OutT.run_bind] at hp ⊢
  generalize OutT.run env h (s.sendCommand ctx d cmd) = x at c1 c2 c3 hp ⊢
  obtain ⟨o, t⟩ := x
  cases o with
  | running => cases hp
  | panic => exact c1 rfl
  | ret x =>
    exfalso
    refine hk x env (h ++ t) (fun hn => ?_) hp
    obtain ⟨y, e⟩ := x
    simp only at hn
    subst hn
    cases y with
    | none => rcases c3 False with h | h
              · exact absurd rfl h
              · exact h.elim
    | some r => exact ⟨(c2 r rfl).2, r, rfl, (c2 r rfl).1⟩

theorem startTail_calm (ctx : Ctx) (d : Device) (s : Session) (ch : Bytes) (au : AuthArg) {r : Resp} (hr : Parsed r)
    (hd : d.isAnySSC = true) (env : Prog.Env SecReq SecRep) (h : Prog.Trace SecReq SecRep) :
    (OutT.run env h (s.startTail ctx d ch au r)).1 ≠ .panic := by
  have he : d.isEnterprise = false := by
    unfold Device.isAnySSC at hd
    unfold Device.isEnterprise
    cases hk : d.kind <;> simp [hk] at hd ⊢
  unfold Session.startTail Session.startNumbers
  rcases five_six r with ⟨a, b, cc, dd, x, y, rest, hT, g4, g5⟩ | ⟨hl, o, g4, g5⟩
  · have hx := ((parsed_tokens hr).2 x (by simp [hT])).1
    have hy := ((parsed_tokens hr).2 y (by simp [hT])).1
    obtain ⟨ux1, ux2⟩ := getUint32_value x hx
    obtain ⟨uy1, uy2⟩ := getUint32_value y hy
    rw [g4, g5]
    simp only [OutT.run_bind, OutT.run_lift_ret, List.append_nil, he, Bool.false_eq_true, and_false, if_false]
    cases vx : unsignedValue x with
    | none => simp only [ux2 vx, OutT.run_ret]; exact fun h => by cases h
    | some host =>
      cases vy : unsignedValue y with
      | none => simp only [ux1 host vx, uy2 vy, OutT.run_ret]; exact fun h => by cases h
      | some tper => simp only [ux1 host vx, uy1 tper vy, OutT.run_ret]; exact fun h => by cases h
  · rw [g4, g5]
    simp only [OutT.run_bind, OutT.run_lift_ret, List.append_nil]
    cases o <;> exact fun h => by cases h

theorem made_crash (ctx : Ctx) (d : Device) (hf : 0 < ctx.fuel) (inv : InvokingArg) (m : MethodArg) (ops : List AddOp)
    (s : Session) {α : Type} (k : Option Resp × Option GoErr → TcgM α)
    (hk : ∀ x env h, (x.2 = none → d.isAnySSC = true ∧ ∃ r, x.1 = some r ∧ Parsed r) → (OutT.run env h (k x)).1 ≠ .panic)
    (env : Prog.Env SecReq SecRep) (h : Prog.Trace SecReq SecRep)
    (hp : (OutT.run env h (OutT.lift (Cmd.make ctx.base inv m ops) >>= fun cmd =>
      (s.sendCommand ctx d cmd >>= k : TcgM α) : TcgM α)).1 = .panic) :
    (d.kind = .opal1 ∨ d.kind = .opal2) ∧ ∃ r, Answered (OutT.run env h (OutT.lift (Cmd.make ctx.base inv m ops) >>= fun cmd =>
      (s.sendCommand ctx d cmd >>= k : TcgM α) : TcgM α)).2 r ∧ TooShort r := by
  obtain ⟨c, hc, -⟩ := make_total ctx.base inv m ops
  rw [hc] at hp ⊢
  exact send_then_crash ctx d s c hf k hk env h hp

/-- A call on a session panics only when the drive's last answer was too short, and only for an Opal device. -/
theorem tcgCall_panics (ctx : Ctx) (d : Device) (c : TcgCall) (hf : 0 < ctx.fuel)
    (env : Prog.Env SecReq SecRep) (h : Prog.Trace SecReq SecRep) (hp : (OutT.run env h (c.prog ctx d)).1 = .panic) :
    (d.kind = .opal1 ∨ d.kind = .opal2) ∧ judges c = true ∧
      ∃ r, Answered (OutT.run env h (c.prog ctx d)).2 r ∧ TooShort r := by
  have last : ∀ {α : Type} {p : TcgM α}, (OutT.run env h (p >>= fun _ => OutT.ret () : TcgM Unit)).1 = .panic →
      (OutT.run env h p).1 = .panic ∧ (OutT.run env h (p >>= fun _ => OutT.ret () : TcgM Unit)).2 = (OutT.run env h p).2 := by
    intro α p hx
    rw [OutT.run_bind] at hx ⊢
    generalize OutT.run env h p = r at hx ⊢
    obtain ⟨o, t⟩ := r
    cases o with
    | ret a => cases hx
    | panic => exact ⟨rfl, rfl⟩
    | running => cases hx
  have sent : ∀ inv m ops (s : Session), (OutT.run env h (OutT.lift (Cmd.make ctx.base inv m ops) >>= fun cmd =>
      s.sendCommand ctx d cmd : TcgM _)).1 = .panic → (d.kind = .opal1 ∨ d.kind = .opal2) ∧
        ∃ r, Answered (OutT.run env h (OutT.lift (Cmd.make ctx.base inv m ops) >>= fun cmd =>
          s.sendCommand ctx d cmd : TcgM _)).2 r ∧ TooShort r := by
    intro inv m ops s hx
    obtain ⟨c, hc, -⟩ := make_total ctx.base inv m ops
    rw [hc] at hx ⊢
    exact (send_crash ctx d s c hf env h).1 hx
  cases c with
  | start s sp ch au =>
    simp only [TcgCall.prog] at hp ⊢
    obtain ⟨h1, h2⟩ := last hp
    rw [h2]
    have hk : ∀ (x : Option Resp × Option GoErr) env h, (x.2 = none → d.isAnySSC = true ∧ ∃ r, x.1 = some r ∧ Parsed r) →
        (OutT.run env h (match x.2, x.1 with
          | some e, _ => OutT.ret (s, some e)
          | none, none => OutT.panic
          | none, some r => s.startTail ctx d ch au r : TcgM _)).1 ≠ .panic := by
      rintro ⟨y, e⟩ env h hx
      cases e with
      | some e => exact fun h => by cases h
      | none =>
        obtain ⟨hd, r, hr, hq⟩ := hx rfl
        simp only at hr
        subst hr
        exact startTail_calm ctx d s ch au hq hd env h
    obtain ⟨h3, h4⟩ := made_crash ctx d hf (.uid SMUID_UID) (.method M_STARTSESSION) (s.startOps ctx d sp ch au) s _ hk env h h1
    exact ⟨h3, rfl, h4⟩
  | authenticate s a ch =>
    simp only [TcgCall.prog] at hp ⊢
    obtain ⟨h1, h2⟩ := last hp
    rw [h2]
    have hk : ∀ (x : Option Resp × Option GoErr) env h, (x.2 = none → d.isAnySSC = true ∧ ∃ r, x.1 = some r ∧ Parsed r) →
        (OutT.run env h (match x.2, x.1 with
          | some e, _ => OutT.ret (some e)
          | none, none => OutT.panic
          | none, some r => OutT.lift (Session.authTail r) : TcgM _)).1 ≠ .panic := by
      rintro ⟨y, e⟩ env h hx
      cases e with
      | some e => exact fun h => by cases h
      | none =>
        obtain ⟨hd, r, hr, hq⟩ := hx rfl
        simp only at hr
        subst hr
        obtain ⟨-, -, a3⟩ := authTail_cases hq
        cases ht : Session.authTail r with
        | panic => exact absurd ht a3
        | ret x => simp only [ht]; exact fun h => by cases h
    obtain ⟨h3, h4⟩ := made_crash ctx d hf _ _ _ s _ hk env h h1
    exact ⟨h3, rfl, h4⟩
  | send s inv m ops =>
    simp only [TcgCall.prog] at hp ⊢
    obtain ⟨c, hc, -⟩ := built_begun ctx.base inv m ops
    rw [hc] at hp ⊢
    obtain ⟨h1, h2⟩ := last (p := s.sendCommand ctx d c) hp
    obtain ⟨h3, h4⟩ := (send_crash ctx d s c hf env h).1 h1
    refine ⟨h3, rfl, ?_⟩
    rw [← h2] at h4
    exact h4
  | close s =>
    exfalso
    simp only [TcgCall.prog] at hp
    unfold Session.close at hp
    simp only [Bool.and_false, Bool.false_eq_true, if_false] at hp
    cases hp
  | table s recv t a b =>
    simp only [TcgCall.prog] at hp ⊢
    obtain ⟨h1, h2⟩ := last hp
    rw [h2]
    unfold Device.getTable at h1 ⊢
    split at h1
    · cases h1
    · cases h1
    · obtain ⟨h3, h4⟩ := sent _ _ _ _ h1; exact ⟨h3, rfl, h4⟩
    · obtain ⟨h3, h4⟩ := sent _ _ _ _ h1; exact ⟨h3, rfl, h4⟩
  | entTable s t a b =>
    simp only [TcgCall.prog] at hp ⊢
    obtain ⟨h1, h2⟩ := last hp
    rw [h2]
    obtain ⟨h3, h4⟩ := sent _ _ _ _ h1
    exact ⟨h3, rfl, h4⟩
  | exec p inv m ops =>
    exfalso
    simp only [TcgCall.prog] at hp
    obtain ⟨c, hc, -⟩ := built_begun ctx.base inv m ops
    rw [hc] at hp
    obtain ⟨h1, -⟩ := last (p := d.exec ctx.fuel c p) hp
    exact (exec_calm d c p ctx.fuel env h) h1

theorem closeCall_done (ctx : Ctx) (d : Device) (s : Session) : (TcgCall.close s).prog ctx d = OutT.ret () := by
  simp only [TcgCall.prog]
  unfold Session.close
  simp only [Bool.and_false, Bool.false_eq_true, if_false]
  rfl

/-! ## Time -/

section
open OutT
variable {Q R : Type} {f : SecReq → OutT Q R SecRep} {w : Q → R → Nat} {env : Prog.Env Q R}
  {clk : Prog.Trace Q R → Nat} {c : Nat}

theorem endsAt_tcg (hc : Clockwork f w env clk c) (ctx : Ctx) (d : Device) (x : TcgCall)
    (hf : 402 ≤ ctx.fuel) (h : Prog.Trace Q R) :
    EndsAt env w h (match x with | .close _ => 0 | _ => c * 403) (interp f (x.prog ctx d)) := by
  have one : ∀ {α : Type} {p : TcgM α}, EndsAt env w h (if d.isAnySSC = true then c * 403 else 0) (interp f p) →
      EndsAt env w h (c * 403) (interp f (p >>= fun _ => ret () : TcgM Unit)) := by
    intro α p hp
    refine endsAt_mono (n := (if d.isAnySSC = true then c * 403 else 0) + 0)
      (endsAt_then hp (fun x t _ => endsAt_ret _)) ?_
    split <;> omega
  cases x with
  | start s sp ch au =>
    simp only [TcgCall.prog]
    exact one (endsAt_start hc ctx d s sp ch au hf h)
  | authenticate s a ch =>
    simp only [TcgCall.prog]
    refine one ?_
    unfold Session.authenticate
    refine endsAt_with (fun cmd => ?_)
    refine endsAt_mono (n := (if d.isAnySSC = true then c * 403 else 0) + 0)
      (endsAt_then (endsAt_send hc ctx d s cmd hf h) (fun x t _ => ?_)) (by omega)
    obtain ⟨resp, err⟩ := x
    cases err with
    | some e => exact endsAt_ret _
    | none =>
      cases resp with
      | none => exact endsAt_panic
      | some r =>
        show EndsAt env w _ _ (interp f (lift (Session.authTail r)))
        cases Session.authTail r with
        | ret a => exact endsAt_ret _
        | panic => exact endsAt_panic
  | send s inv m ops =>
    simp only [TcgCall.prog]
    exact endsAt_with (fun cmd => one (endsAt_send hc ctx d s cmd hf h))
  | close s =>
    simp only [TcgCall.prog]
    unfold Session.close
    simp only [Bool.and_false, Bool.false_eq_true, if_false]
    exact endsAt_ret _
  | table s recv t a b =>
    simp only [TcgCall.prog]
    refine one ?_
    unfold Device.getTable
    cases recv.kind with
    | generic => exact endsAt_ret _
    | enterprise => exact endsAt_ret _
    | opal1 => exact endsAt_with (fun cmd => endsAt_send hc ctx d s cmd hf h)
    | opal2 => exact endsAt_with (fun cmd => endsAt_send hc ctx d s cmd hf h)
  | entTable s t a b =>
    simp only [TcgCall.prog]
    refine one ?_
    exact endsAt_with (fun cmd => endsAt_send hc ctx d s cmd hf h)
  | exec p inv m ops =>
    simp only [TcgCall.prog]
    exact endsAt_with (fun cmd => one (endsAt_exec hc d cmd p ctx.fuel hf h))

end

end Dparm
