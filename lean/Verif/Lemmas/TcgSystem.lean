import Verif.Spec.TcgSystem
import Verif.Lemmas.LinuxSystem
import Verif.Lemmas.WireLength
import Verif.Props.Nvme
/-!
# Lemmas: TCG operations on the Linux system
-/
namespace Dparm
open Spec

/-! ## The requests of the TCG operations -/

theorem OutT.asks_lift_bind {Q R α β : Type} {A : Q → Prop} {x : P α} {f : α → OutT Q R β}
    (h : ∀ a, x = .ret a → OutT.Asks A (f a)) : OutT.Asks A (OutT.lift x >>= f) := by
  cases x with
  | panic => exact trivial
  | ret a => exact h a rfl

theorem poll_asks (d : Device) (t0 : Nat) : ∀ fuel, OutT.Asks (TcgAsk d.baseComId) (d.poll 1 t0 fuel) := by
  intro fuel
  induction fuel with
  | zero => exact trivial
  | succ n ih =>
    unfold Device.poll
    refine OutT.asks_bind (OutT.asks_ask trivial) (fun t => ?_)
    refine OutT.asks_bind (OutT.asks_ask (show pollSleep = 25000000 from rfl)) (fun _ => ?_)
    refine OutT.asks_bind (OutT.asks_ask ⟨rfl, rfl, rfl, rfl, rfl⟩) (fun r => ?_)
    dsimp only
    split
    · exact OutT.asks_ret _
    · split
      · exact OutT.asks_ret _
      · split
        · exact ih
        · exact OutT.asks_ret _

theorem exec_asks (fuel : Nat) (d : Device) (cmd : ABuf)
    (hw : 512 ≤ (Cmd.wire cmd).length ∧ (Cmd.wire cmd).length ≤ 61440 ∧ 512 ∣ (Cmd.wire cmd).length) :
    OutT.Asks (TcgAsk d.baseComId) (d.exec fuel cmd 1) := by
  unfold Device.exec
  refine OutT.asks_bind (OutT.asks_ask trivial) (fun t => ?_)
  split
  · exact OutT.asks_ret _
  · refine OutT.asks_bind (OutT.asks_ask ⟨rfl, rfl, rfl, rfl, hw⟩) (fun r => ?_)
    split
    · exact OutT.asks_ret _
    · exact poll_asks d _ fuel

section
attribute [local irreducible] OutT.Asks


theorem sendCommand_asks (ctx : Ctx) (d : Device) (s : Session) (cmd : ABuf)
    (hw : 512 ≤ (Cmd.wire (s.stamp d cmd)).length ∧ (Cmd.wire (s.stamp d cmd)).length ≤ 61440 ∧
      512 ∣ (Cmd.wire (s.stamp d cmd)).length) :
    OutT.Asks (TcgAsk d.baseComId) (s.sendCommand ctx d cmd) := by
  unfold Session.sendCommand
  refine OutT.asks_bind (exec_asks ctx.fuel d _ hw) (fun x => ?_)
  obtain ⟨resp, err⟩ := x
  cases err with
  | some e => exact OutT.asks_ret _
  | none =>
    cases resp with
    | none => exact OutT.asks_panic
    | some r => exact OutT.asks_bind (OutT.asks_lift _) (fun _ => OutT.asks_ret _)

theorem authenticate_asks (ctx : Ctx) (d : Device) (s : Session) (authority challenge : Bytes) :
    OutT.Asks (TcgAsk d.baseComId) (s.authenticate ctx d authority challenge) := by
  unfold Session.authenticate
  refine OutT.asks_lift_bind (fun cmd hc => ?_)
  refine OutT.asks_bind (sendCommand_asks ctx d _ cmd (make_wire_length _ _ _ _ _ d hc)) (fun x => ?_)
  obtain ⟨resp, err⟩ := x
  cases err with
  | some e => exact OutT.asks_ret _
  | none =>
    cases resp with
    | none => exact OutT.asks_panic
    | some r => exact OutT.asks_lift _

theorem startTail_asks (ctx : Ctx) (d : Device) (s : Session) (challenge : Bytes) (auth : AuthArg) (r : Resp) :
    OutT.Asks (TcgAsk d.baseComId) (s.startTail ctx d challenge auth r) := by
  unfold Session.startTail Session.startNumbers
  refine OutT.asks_lift_bind (fun h _ => OutT.asks_lift_bind (fun t _ => ?_))
  cases h with
  | none => exact OutT.asks_ret _
  | some h =>
    cases t with
    | none => exact OutT.asks_ret _
    | some t =>
      dsimp only
      split
      · exact OutT.asks_panic
      · exact OutT.asks_ret _
      · split
        · exact OutT.asks_panic
        · exact OutT.asks_ret _
        · split
          · exact OutT.asks_bind (authenticate_asks ctx d _ _ _) (fun _ => OutT.asks_ret _)
          · exact OutT.asks_ret _

theorem start_asks (ctx : Ctx) (d : Device) (s : Session) (sp : UID) (challenge : Bytes) (auth : AuthArg) :
    OutT.Asks (TcgAsk d.baseComId) (s.start ctx d sp challenge auth) := by
  unfold Session.start
  refine OutT.asks_lift_bind (fun cmd hc => ?_)
  refine OutT.asks_bind (sendCommand_asks ctx d _ cmd (make_wire_length _ _ _ _ _ d hc)) (fun x => ?_)
  obtain ⟨resp, err⟩ := x
  cases err with
  | some e => exact OutT.asks_ret _
  | none =>
    cases resp with
    | none => exact OutT.asks_panic
    | some r => exact startTail_asks ctx d s challenge auth r

theorem revertTPer_asks (ctx : Ctx) (d : Device) (pw : Bytes) (psid adm : Bool) :
    OutT.Asks (TcgAsk d.baseComId) (d.revertTPer ctx pw psid adm) := by
  have ho : OutT.Asks (TcgAsk d.baseComId) (d.revertOpal ctx pw psid) := by
    unfold Device.revertOpal
    refine OutT.asks_bind (start_asks ctx d _ _ _ _) (fun x => ?_)
    obtain ⟨s, e⟩ := x
    cases e with
    | some e => exact OutT.asks_ret _
    | none =>
      refine OutT.asks_lift_bind (fun cmd hc => ?_)
      exact OutT.asks_bind (sendCommand_asks ctx d _ cmd (make_wire_length _ _ _ _ _ d hc)) (fun x => OutT.asks_ret _)
  have he : OutT.Asks (TcgAsk d.baseComId) (d.revertEnterprise ctx pw psid adm) := by
    unfold Device.revertEnterprise
    refine OutT.asks_bind (start_asks ctx d _ _ _ _) (fun x => ?_)
    obtain ⟨s, e⟩ := x
    cases e with
    | some e => exact OutT.asks_ret _
    | none =>
      refine OutT.asks_lift_bind (fun cmd hc => ?_)
      exact OutT.asks_bind (sendCommand_asks ctx d _ cmd (make_wire_length _ _ _ _ _ d hc)) (fun x => OutT.asks_ret _)
  unfold Device.revertTPer
  split
  · exact OutT.asks_ret _
  · exact ho
  · exact ho
  · exact he

theorem getDefaultPassword_asks (ctx : Ctx) (d : Device) :
    OutT.Asks (TcgAsk d.baseComId) (d.getDefaultPassword ctx) := by
  unfold Device.getDefaultPassword
  split
  · exact OutT.asks_ret _
  · refine OutT.asks_bind (start_asks ctx d _ _ _ _) (fun x => ?_)
    obtain ⟨s, e⟩ := x
    cases e with
    | some e => exact OutT.asks_ret _
    | none =>
      dsimp only
      refine OutT.asks_bind ?_ (fun x => ?_)
      · have h1 : ∀ inv m ops, OutT.Asks (TcgAsk d.baseComId) (OutT.lift (Cmd.make ctx.base inv m ops) >>= fun cmd =>
            s.sendCommand ctx d cmd) := fun inv m ops =>
          OutT.asks_lift_bind (fun cmd hc => sendCommand_asks ctx d s cmd (make_wire_length ctx.base inv m ops s d hc))
        split
        · exact h1 _ _ _
        · exact h1 _ _ _
      · obtain ⟨resp, err⟩ := x
        cases err with
        | some e => exact OutT.asks_ret _
        | none =>
          cases resp with
          | none => exact OutT.asks_panic
          | some r =>
            refine OutT.asks_lift_bind (fun t _ => ?_)
            cases t with
            | none => exact OutT.asks_ret _
            | some t =>
              dsimp only
              split
              · exact OutT.asks_panic
              · exact OutT.asks_ret _
              · exact OutT.asks_ret _

end

/-! ## One request on an NVMe drive -/

theorem nvme_chunk {o : Opened} {fd : Nat} {id : Bytes} (hs : o.source = some (0, fd))
    (hd : o.handle.dh = some { ata := false, nvme := true, identity := id }) (rw dma : Bool) (p : Byte) (c : BitVec 16)
    (buf : Bytes) (to : Nat) (env : Prog.Env AReq ARep) (h : Prog.Trace AReq ARep) :
    ∃ a1 a2 a, OutT.run env h (secOnLinux o (.sec rw dma p c buf to)) =
      (.ret { err := ioctlErr a.sys.nv.ret a.sys.nv.errno,
              data := storeInto buf ((a.sys.nv.stored (securityNvme rw p c buf)
                (adminRecord (securityNvme rw p c buf) (BitVec.ofNat 64 a2.sys.addr))).getD []), behind := a2.sys.behind },
       [(.sys .place, a1), (.sys .place, a2),
        (.sys (.nvme fd NVME_IOCTL_ADMIN_CMD (adminRecord (securityNvme rw p c buf) (BitVec.ofNat 64 a2.sys.addr)) (some buf)), a)]) := by
  have hfull : storeInto buf buf = buf := by unfold storeInto copyAt; simp
  unfold secOnLinux Opened.onHandle
  rw [hs]
  dsimp only
  unfold Handle.securityCommand
  rw [hd]
  dsimp only
  obtain ⟨a1, h1⟩ : ∃ a1, a1 = env h (.sys .place) := ⟨_, rfl⟩
  obtain ⟨a2, h2⟩ : ∃ a2, a2 = env (h ++ [(.sys .place, a1)]) (.sys .place) := ⟨_, rfl⟩
  obtain ⟨a, h3⟩ : ∃ a, a = env ((h ++ [(.sys .place, a1)]) ++ [(.sys .place, a2)]) (.sys (.nvme fd NVME_IOCTL_ADMIN_CMD
    (adminRecord (securityNvme rw p c (storeInto buf buf)) (BitVec.ofNat 64 a2.sys.addr)) (some (storeInto buf buf)))) := ⟨_, rfl⟩
  refine ⟨a1, a2, a, ?_⟩
  refine Eq.trans (b := (Out.ret ({
      err := ioctlErr a.sys.nv.ret a.sys.nv.errno,
      data := storeInto (storeInto buf buf) ((a.sys.nv.stored (securityNvme rw p c (storeInto buf buf))
        (adminRecord (securityNvme rw p c (storeInto buf buf)) (BitVec.ofNat 64 a2.sys.addr))).getD []),
      behind := a2.sys.behind } : SecRep),
       [(.sys .place, a1), (.sys .place, a2),
        (.sys (.nvme fd NVME_IOCTL_ADMIN_CMD (adminRecord (securityNvme rw p c (storeInto buf buf)) (BitVec.ofNat 64 a2.sys.addr)) (some (storeInto buf buf))), a)])) ?_ ?_
  · rw [h3, h2, h1]
    rfl
  · rw [hfull]

end Dparm
