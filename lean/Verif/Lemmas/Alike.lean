import Verif.Lemmas.Refine
import Verif.Lemmas.WireLength
/-!
# Programs that differ only in requests a lower layer treats alike
-/
namespace Dparm
open Spec

/-- Outcomes alike up to a relation of the values. -/
def Out.Alike {α : Type} (B : α → α → Prop) : Out α → Out α → Prop
  | .ret a, .ret b => B a b
  | .panic, .panic => True
  | .running, .running => True
  | _, _ => False

/-- The same tree, with requests related by `E` and values related by `B`. -/
def Prog.Alike {Q R α : Type} (E : Q → Q → Prop) (B : α → α → Prop) : Prog Q R (Out α) → Prog Q R (Out α) → Prop
  | .done a, .done b => Out.Alike B a b
  | .ask q k, .ask q' k' => E q q' ∧ ∀ r, Prog.Alike E B (k r) (k' r)
  | _, _ => False

/-- `Prog.Alike` for programs with outcomes. -/
structure OutT.Alike {Q R α : Type} (E : Q → Q → Prop) (B : α → α → Prop) (p p' : OutT Q R α) : Prop where
  tree : Prog.Alike E B p p'

namespace OutT
variable {Q R Q' R' α β : Type} {E : Q → Q → Prop} {B : α → α → Prop} {C : β → β → Prop}

theorem alike_ret {a b : α} (h : B a b) : Alike E B (ret a : OutT Q R α) (ret b) := ⟨h⟩
theorem alike_panic : Alike E B (panic : OutT Q R α) panic := ⟨trivial⟩
theorem alike_running : Alike E B (running : OutT Q R α) running := ⟨trivial⟩
theorem alike_lift (x : P α) (h : ∀ a, B a a) : Alike E B (lift x : OutT Q R α) (lift x) := by
  cases x with
  | ret a => exact ⟨h a⟩
  | panic => exact ⟨trivial⟩

theorem alike_ask_bind {q q' : Q} {f f' : R → OutT Q R α} (h : E q q') (hf : ∀ r, Alike E B (f r) (f' r)) :
    Alike E B (ask q >>= f) (ask q' >>= f') := ⟨h, fun r => (hf r).tree⟩

theorem alike_bind {p p' : OutT Q R α} {f f' : α → OutT Q R β} (hp : Alike E B p p')
    (hf : ∀ a b, B a b → Alike E C (f a) (f' b)) : Alike E C (p >>= f) (p' >>= f') := by
  have : ∀ p p' : Prog Q R (Out α), Prog.Alike E B p p' → Prog.Alike E C (Prog.bind p (cont f)) (Prog.bind p' (cont f')) := by
    intro p
    induction p with
    | done o =>
      intro p' h
      cases p' with
      | done o' =>
        cases o <;> cases o' <;> first | exact absurd h id | trivial | exact (hf _ _ h).tree
      | ask q k => exact absurd h id
    | ask q k ih =>
      intro p' h
      cases p' with
      | done o' => exact absurd h id
      | ask q' k' => exact ⟨h.1, fun r => ih r _ (h.2 r)⟩
  exact ⟨this p p' hp.tree⟩

theorem alike_refl (hE : ∀ q, E q q) (hB : ∀ a, B a a) (p : OutT Q R α) : Alike E B p p := by
  have : ∀ p : Prog Q R (Out α), Prog.Alike E B p p := by
    intro p
    induction p with
    | done o => cases o <;> first | trivial | exact hB _
    | ask q k ih => exact ⟨hE q, ih⟩
  exact ⟨this p⟩

/-- A lower layer that answers related requests by the same program cannot tell the programs apart. -/
theorem alike_interp {A : Q → Prop} (f : Q → OutT Q' R' R) (hf : ∀ q q', A q → A q' → E q q' → f q = f q') {p p' : OutT Q R α}
    (hp : Alike E (fun a b => a = b) p p') (ha : Asks A p) (ha' : Asks A p') : interp f p = interp f p' := by
  have : ∀ p p' : Prog Q R (Out α), Prog.Alike E (fun a b => a = b) p p' → Prog.Asks A p → Prog.Asks A p' →
      interp f p = interp f p' := by
    intro p
    induction p with
    | done o =>
      intro p' h _ _
      cases p' with
      | done o' =>
        cases o <;> cases o' <;> first | exact absurd h id | rfl | (obtain rfl := (h : _ = _); rfl)
      | ask q k => exact absurd h id
    | ask q k ih =>
      intro p' h a a'
      cases p' with
      | done o' => exact absurd h id
      | ask q' k' =>
        show (f q >>= fun r => interp f (k r)) = (f q' >>= fun r => interp f (k' r))
        rw [hf q q' a.1 a'.1 h.1]
        congr 1
        funext r
        exact ih r _ (h.2 r) (a.2 r) (a'.2 r)
  exact this p p' hp.tree ha ha'

end OutT

section

/-- Requests that differ at most in the bytes of a send. -/
def SendsAlike (q q' : SecReq) : Prop :=
  q = q' ∨ ∃ dma p c data data' to, q = .sec true dma p c data to ∧ q' = .sec true dma p c data' to ∧
    data.length = data'.length

theorem SendsAlike.rfl' (q : SecReq) : SendsAlike q q := .inl rfl

theorem exec_alike (fuel : Nat) (d : Device) (cmd cmd' : ABuf) (p : Byte)
    (hw : d.isAnySSC = true → (Cmd.wire cmd).length = (Cmd.wire cmd').length) :
    OutT.Alike SendsAlike (fun a b => a = b) (d.exec fuel cmd p) (d.exec fuel cmd' p) := by
  unfold Device.exec
  refine OutT.alike_ask_bind (.inl rfl) (fun t => ?_)
  split
  · exact OutT.alike_ret rfl
  · rename_i hs
    refine OutT.alike_ask_bind (.inr ⟨_, _, _, _, _, _, rfl, rfl, hw (by simpa using hs)⟩) (fun r => ?_)
    exact OutT.alike_refl SendsAlike.rfl' (fun _ => rfl) _

theorem sendCommand_alike (ctx : Ctx) (d : Device) (s s' : Session) (cmd cmd' : ABuf)
    (hw : d.isAnySSC = true → (Cmd.wire (s.stamp d cmd)).length = (Cmd.wire (s'.stamp d cmd')).length) :
    OutT.Alike SendsAlike (fun a b => a = b) (s.sendCommand ctx d cmd) (s'.sendCommand ctx d cmd') := by
  unfold Session.sendCommand
  refine OutT.alike_bind (exec_alike ctx.fuel d _ _ _ hw) (fun a b hab => ?_)
  subst hab
  exact OutT.alike_refl SendsAlike.rfl' (fun _ => rfl) _

theorem ssc_not_enterprise {d : Device} (h : d.isAnySSC = true) : d.isEnterprise = false := by
  unfold Device.isAnySSC at h
  unfold Device.isEnterprise
  cases hk : d.kind <;> simp [hk] at h ⊢

/-- A StartSession command of an Opal device is 512 bytes long. -/
theorem start_wire_length (ctx : Ctx) (d : Device) (s : Session) (sp : UID) (challenge : Bytes) (auth : AuthArg)
    (ha : auth.bytes.length ≤ 50000) (hd : d.isAnySSC = true) {c : ABuf}
    (hc : Cmd.make ctx.base (.uid SMUID_UID) (.method M_STARTSESSION) (s.startOps ctx d sp challenge auth) = .ret c) :
    (Cmd.wire (s.stamp d c)).length = 512 := by
  have henc := startOps_enc ctx d s sp challenge auth hd
  have hlen := startCall_length sp ctx.kdf s.noHash d.serial challenge auth.bytes ha
  rw [← henc, List.length_append] at hlen
  obtain ⟨c', hc', g, hw, hwire⟩ := make_wire ctx.base (.uid SMUID_UID) (.method M_STARTSESSION)
    (s.startOps ctx d sp challenge auth) s d (by simp) (by omega)
  rw [hc'] at hc
  simp only [P.ret.injEq] at hc
  subst hc
  rw [hwire]
  unfold wireImage
  rw [List.length_take]
  simp only [List.length_append, zeros_length]
  omega

/-- What is left of a session once it is started, for the commands that follow. -/
def SameNumbers (a b : Session × Option GoErr) : Prop := a.2 = b.2 ∧ a.1.hsn = b.1.hsn ∧ a.1.tsn = b.1.tsn

theorem sameNumbers_hsn (s s' : Session) (x : BitVec 64) (e : GoErr) (ht : s.tsn = s'.tsn) :
    SameNumbers ({ s with hsn := x }, some e) ({ s' with hsn := x }, some e) := ⟨rfl, rfl, ht⟩

theorem sameNumbers_both (s s' : Session) (x y : BitVec 64) :
    SameNumbers ({ s with hsn := x, tsn := y }, none) ({ s' with hsn := x, tsn := y }, none) := ⟨rfl, rfl, rfl⟩

theorem numbers_alike (H T : Res (BitVec 32)) (s s' : Session) (hh : s.hsn = s'.hsn) (ht : s.tsn = s'.tsn) (P P' : Prop)
    [Decidable P] [Decidable P'] (hP : ¬ P) (hP' : ¬ P') (f f' : Session → TcgM (Session × Option GoErr)) :
    OutT.Alike SendsAlike SameNumbers
      (match H with
        | .panic => OutT.panic
        | .err e => OutT.ret (s, some e)
        | .ok hv =>
          let s1 := { s with hsn := (Session.bswap32 hv).setWidth 64 }
          match T with
          | .panic => OutT.panic
          | .err e => OutT.ret (s1, some e)
          | .ok tv =>
            let s2 := { s1 with tsn := (Session.bswap32 tv).setWidth 64 }
            if P then f s2 else OutT.ret (s2, none))
      (match H with
        | .panic => OutT.panic
        | .err e => OutT.ret (s', some e)
        | .ok hv =>
          let s1 := { s' with hsn := (Session.bswap32 hv).setWidth 64 }
          match T with
          | .panic => OutT.panic
          | .err e => OutT.ret (s1, some e)
          | .ok tv =>
            let s2 := { s1 with tsn := (Session.bswap32 tv).setWidth 64 }
            if P' then f' s2 else OutT.ret (s2, none)) := by
  match H, T with
  | .panic, _ => exact OutT.alike_panic
  | .err e, _ => exact OutT.alike_ret ⟨rfl, hh, ht⟩
  | .ok hv, .panic => exact OutT.alike_panic
  | .ok hv, .err e => exact OutT.alike_ret (sameNumbers_hsn s s' _ e ht)
  | .ok hv, .ok tv =>
    dsimp only
    rw [if_neg hP, if_neg hP']
    exact OutT.alike_ret (sameNumbers_both s s' _ _)

theorem startTail_alike (ctx : Ctx) (d : Device) (s s' : Session) (ch ch' : Bytes) (au au' : AuthArg) (r : Resp)
    (hd : d.isAnySSC = true) (hh : s.hsn = s'.hsn) (ht : s.tsn = s'.tsn) :
    OutT.Alike SendsAlike SameNumbers (s.startTail ctx d ch au r) (s'.startTail ctx d ch' au' r) := by
  have he := ssc_not_enterprise hd
  unfold Session.startTail Session.startNumbers
  refine OutT.alike_bind (B := fun a b => a = b) (OutT.alike_lift _ (fun _ => rfl)) (fun h h' e => ?_)
  subst e
  refine OutT.alike_bind (B := fun a b => a = b) (OutT.alike_lift _ (fun _ => rfl)) (fun t t' e => ?_)
  subst e
  cases h with
  | none => exact OutT.alike_ret ⟨rfl, hh, ht⟩
  | some h =>
    cases t with
    | none => exact OutT.alike_ret ⟨rfl, hh, ht⟩
    | some t =>
      exact numbers_alike (Tok.getUint32 h) (Tok.getUint32 t) s s' hh ht (ch ≠ [] ∧ d.isEnterprise = true)
        (ch' ≠ [] ∧ d.isEnterprise = true) (fun x => by rw [he] at x; exact absurd x.2 (by decide))
        (fun x => by rw [he] at x; exact absurd x.2 (by decide))
        (fun s2 => s2.authenticate ctx d au.bytes ch >>= fun e => OutT.ret (s2, e))
        (fun s2 => s2.authenticate ctx d au'.bytes ch' >>= fun e => OutT.ret (s2, e))

theorem start_alike (ctx : Ctx) (d : Device) (s s' : Session) (sp : UID) (ch ch' : Bytes) (au au' : AuthArg)
    (hl : au.bytes.length ≤ 50000) (hl' : au'.bytes.length ≤ 50000)
    (hh : s.hsn = s'.hsn) (ht : s.tsn = s'.tsn) :
    OutT.Alike SendsAlike SameNumbers (s.start ctx d sp ch au) (s'.start ctx d sp ch' au') := by
  unfold Session.start
  obtain ⟨c, hc, -⟩ := make_total ctx.base (.uid SMUID_UID) (.method M_STARTSESSION) (s.startOps ctx d sp ch au)
  obtain ⟨c', hc', -⟩ := make_total ctx.base (.uid SMUID_UID) (.method M_STARTSESSION) (s'.startOps ctx d sp ch' au')
  rw [hc, hc']
  by_cases hd : d.isAnySSC = true
  · refine OutT.alike_bind (B := fun a b => a = c ∧ b = c') (OutT.alike_ret ⟨rfl, rfl⟩) (fun a b hab => ?_)
    obtain ⟨rfl, rfl⟩ := hab
    refine OutT.alike_bind (sendCommand_alike ctx d s s' _ _ (fun _ => ?_)) (fun x y hxy => ?_)
    · rw [start_wire_length ctx d s sp ch au hl hd hc, start_wire_length ctx d s' sp ch' au' hl' hd hc']
    · subst hxy
      obtain ⟨resp, err⟩ := x
      cases err with
      | some e => exact OutT.alike_ret ⟨rfl, hh, ht⟩
      | none =>
        cases resp with
        | none => exact OutT.alike_panic
        | some r => exact startTail_alike ctx d s s' ch ch' au au' r hd hh ht
  · refine OutT.alike_bind (B := fun a b => a = c ∧ b = c') (OutT.alike_ret ⟨rfl, rfl⟩) (fun a b hab => ?_)
    obtain ⟨rfl, rfl⟩ := hab
    have hn : d.isAnySSC = false := by simpa using hd
    have key : ∀ (s : Session) (cmd : ABuf), s.sendCommand ctx d cmd = (OutT.ask .now >>= fun _ =>
        OutT.ret (none, some (GoErr.msg "not supported"))) := by
      intro s cmd
      unfold Session.sendCommand Device.exec
      rw [hn]
      rfl
    rw [key, key]
    exact OutT.alike_ask_bind (.inl rfl) (fun _ => OutT.alike_ret ⟨rfl, hh, ht⟩)

/-- The revert calls of two passwords differ at most in bytes of sends. -/
theorem revertOpal_alike (ctx : Ctx) (d : Device) (pw pw' : Bytes) (psid psid' : Bool) :
    OutT.Alike SendsAlike (fun a b => a = b) (d.revertOpal ctx pw psid) (d.revertOpal ctx pw' psid') := by
  have hlen : ∀ b : Bool, (AuthArg.uid (if b then PSID_UID else SID_UID)).bytes.length ≤ 50000 := by
    intro b; cases b <;> decide
  unfold Device.revertOpal
  refine OutT.alike_bind (start_alike ctx d _ _ ADMINSP_UID pw pw' _ _ (hlen psid) (hlen psid')
    (by cases psid <;> cases psid' <;> rfl) (by cases psid <;> cases psid' <;> rfl)) (fun x y hxy => ?_)
  obtain ⟨s, e⟩ := x
  obtain ⟨s', e'⟩ := y
  obtain ⟨rfl, hh, ht⟩ := hxy
  cases e with
  | some e => exact OutT.alike_ret rfl
  | none =>
    refine OutT.alike_bind (B := fun a b => a = b) (OutT.alike_lift _ (fun _ => rfl)) (fun c c' hc => ?_)
    subst hc
    refine OutT.alike_bind (sendCommand_alike ctx d s s' c c (fun _ => ?_)) (fun x y hxy => ?_)
    · have hs : s.stamp d c = s'.stamp d c := by
        unfold Session.stamp
        dsimp only at hh ht
        rw [hh, ht]
      rw [hs]
    · subst hxy
      exact OutT.alike_ret rfl

/-- On an Enterprise device the revert only reads the clock. -/
theorem revertEnterprise_eq (ctx : Ctx) (d : Device) (hk : d.kind = .enterprise) (pw : Bytes) (psid adm : Bool) :
    d.revertEnterprise ctx pw psid adm = (OutT.ask .now >>= fun _ => OutT.ret (some (GoErr.msg "not supported"))) := by
  have hn : d.isAnySSC = false := by unfold Device.isAnySSC; rw [hk]
  unfold Device.revertEnterprise Session.start
  dsimp only
  obtain ⟨c, hc, -⟩ := make_total ctx.base (.uid SMUID_UID) (.method M_STARTSESSION)
    ((if psid then { newTcgSession with noHash := true } else newTcgSession : Session).startOps ctx d ADMINSP_UID pw
      (.uid (if psid then PSID_UID else SID_UID)))
  rw [hc]
  unfold Session.sendCommand Device.exec
  rw [hn]
  rfl

theorem revertTPer_alike (ctx : Ctx) (d : Device) (pw pw' : Bytes) (psid psid' adm adm' : Bool) :
    OutT.Alike SendsAlike (fun a b => a = b) (d.revertTPer ctx pw psid adm) (d.revertTPer ctx pw' psid' adm') := by
  unfold Device.revertTPer
  cases hk : d.kind with
  | generic => exact OutT.alike_ret rfl
  | opal1 => exact revertOpal_alike ctx d pw pw' psid psid'
  | opal2 => exact revertOpal_alike ctx d pw pw' psid psid'
  | enterprise =>
    dsimp only
    rw [revertEnterprise_eq ctx d hk, revertEnterprise_eq ctx d hk]
    exact OutT.alike_ask_bind (.inl rfl) (fun _ => OutT.alike_ret rfl)

end
end Dparm
