import Verif.Props.Recover
import Verif.Props.SessionHistory
/-!
# Properties: a session object used on after recovered panics (C172)
-/
namespace Dparm
open Spec

theorem kept_step {ctx : Ctx} {d : Device} {s : Session} {o : SessOp} (ho : s.opened = false) (hf : 0 < ctx.fuel)
    {env : Prog.Env SecReq SecRep} {h t : Prog.Trace SecReq SecRep} {s' : Session} {r : Option (List SessRet)}
    (hr : OutT.run env h (o.callKept ctx d s) = (.ret (s', r), t)) :
    s'.opened = false ∧ ((r = none ∧ s' = s ∧ OutT.run env h (o.call ctx d s) = (.panic, t)) ∨
      ∃ x, r = some x ∧ OutT.run env h (o.call ctx d s) = (.ret (s', x), t)) := by
  rw [call_recovered ctx d s o ho hf] at hr
  have hopened := call_opened ctx d s ho o env h
  rcases hc : OutT.run env h (o.call ctx d s) with ⟨out, t'⟩
  rw [hc] at hr hopened
  cases out with
  | panic =>
    simp only [recovered, Prod.mk.injEq, Out.ret.injEq] at hr
    obtain ⟨⟨rfl, rfl⟩, rfl⟩ := hr
    exact ⟨ho, .inl ⟨rfl, rfl, rfl⟩⟩
  | running => simp [recovered] at hr
  | ret x =>
    obtain ⟨s1, x⟩ := x
    simp only [recovered, Prod.mk.injEq, Out.ret.injEq] at hr
    obtain ⟨⟨rfl, rfl⟩, rfl⟩ := hr
    exact ⟨hopened _ rfl, .inr ⟨x, rfl, rfl⟩⟩

theorem kept_cons {ctx : Ctx} {d : Device} {s : Session} {o : SessOp} {os : List SessOp}
    {env : Prog.Env SecReq SecRep} {h t : Prog.Trace SecReq SecRep} {s' : Session} {rs : List (Option (List SessRet))}
    (hr : OutT.run env h (sessionHistoryKept ctx d s (o :: os)) = (.ret (s', rs), t)) :
    ∃ s1 r t1 rs' t2, OutT.run env h (o.callKept ctx d s) = (.ret (s1, r), t1) ∧
      OutT.run env (h ++ t1) (sessionHistoryKept ctx d s1 os) = (.ret (s', rs'), t2) ∧ rs = r :: rs' ∧ t = t1 ++ t2 := by
  rw [sessionHistoryKept, OutT.run_bind] at hr
  rcases hc : OutT.run env h (o.callKept ctx d s) with ⟨out, t1⟩
  rw [hc] at hr
  cases out with
  | panic => simp at hr
  | running => simp at hr
  | ret x =>
    obtain ⟨s1, r⟩ := x
    dsimp only at hr
    rw [OutT.run_bind] at hr
    rcases hc2 : OutT.run env (h ++ t1) (sessionHistoryKept ctx d s1 os) with ⟨out2, t2⟩
    rw [hc2] at hr
    cases out2 with
    | panic => simp at hr
    | running => simp at hr
    | ret y =>
      obtain ⟨s2, rs'⟩ := y
      simp only [OutT.run_ret, List.append_nil, Prod.mk.injEq, Out.ret.injEq] at hr
      obtain ⟨⟨rfl, rfl⟩, rfl⟩ := hr
      exact ⟨s1, r, t1, rs', t2, rfl, hc2, rfl, rfl⟩

/-- **C172.** No history of calls under `recover` on a new session object ends in a panic. -/
theorem recovered_history_comes_back (ctx : Ctx) (d : Device) (hf : 0 < ctx.fuel) (env : Prog.Env SecReq SecRep)
    (h : Prog.Trace SecReq SecRep) (ops : List SessOp) : (OutT.run env h (sessionHistoryKept ctx d newTcgSession ops)).1 ≠ .panic := by
  have gen : ∀ (ops : List SessOp) (s : Session) (h : Prog.Trace SecReq SecRep), s.opened = false →
      (OutT.run env h (sessionHistoryKept ctx d s ops)).1 ≠ .panic := by
    intro ops
    induction ops with
    | nil => intro s h _ hp; cases hp
    | cons o os ih =>
      intro s h ho
      rw [sessionHistoryKept, OutT.run_bind]
      rcases hc : OutT.run env h (o.callKept ctx d s) with ⟨out, t1⟩
      cases out with
      | panic =>
        rw [call_recovered ctx d s o ho hf] at hc
        generalize (OutT.run env h (o.call ctx d s)).1 = x at hc
        cases x <;> simp [recovered] at hc
      | running => simp
      | ret x =>
        obtain ⟨s1, r⟩ := x
        dsimp only
        rw [OutT.run_bind]
        have := ih s1 (h ++ t1) (kept_step ho hf hc).1
        rcases hc2 : OutT.run env (h ++ t1) (sessionHistoryKept ctx d s1 os) with ⟨o2, t2⟩
        rw [hc2] at this
        cases o2 with
        | panic => exact absurd rfl this
        | running => simp
        | ret y => simp
  exact gen ops newTcgSession h rfl

theorem single {ctx : Ctx} {d : Device} {s s' : Session} {o : SessOp} {x : List SessRet}
    {env : Prog.Env SecReq SecRep} {h t : Prog.Trace SecReq SecRep} (hr : OutT.run env h (o.call ctx d s) = (.ret (s', x), t)) :
    OutT.run env h (sessionHistory ctx d s [o]) = (.ret (s', x), t) := by
  simp only [sessionHistory, OutT.run_bind, hr, OutT.run_ret, List.append_nil]

theorem kept_noHash (ctx : Ctx) (d : Device) (hf : 0 < ctx.fuel) (env : Prog.Env SecReq SecRep) (ops : List SessOp) :
    ∀ (s : Session) (h t : Prog.Trace SecReq SecRep) (s' : Session) (rs : List (Option (List SessRet))), s.opened = false →
      OutT.run env h (sessionHistoryKept ctx d s ops) = (.ret (s', rs), t) →
      s'.opened = false ∧ rs.length = ops.length ∧
      s'.noHash = (ops.filterMap (fun o => match o with | .setNoHashPassword b => some b | _ => none)).getLast?.getD s.noHash := by
  induction ops with
  | nil =>
    intro s h t s' rs ho hr
    simp only [sessionHistoryKept, OutT.run_ret, Prod.mk.injEq, Out.ret.injEq] at hr
    obtain ⟨⟨rfl, rfl⟩, rfl⟩ := hr
    exact ⟨ho, rfl, rfl⟩
  | cons o os ih =>
    intro s h t s' rs ho hr
    obtain ⟨s1, r, t1, rs', t2, h1, h2, rfl, rfl⟩ := kept_cons hr
    obtain ⟨o1, hcase⟩ := kept_step ho hf h1
    obtain ⟨a1, a2, a3⟩ := ih s1 (h ++ t1) t2 s' rs' o1 h2
    refine ⟨a1, by simp [a2], ?_⟩
    rw [a3]
    have key : s1.noHash = (([o].filterMap (fun o => match o with | .setNoHashPassword b => some b | _ => none)).getLast?.getD s.noHash) := by
      rcases hcase with ⟨_, rfl, hp⟩ | ⟨x, _, hx⟩
      · cases o with
        | setNoHashPassword b => simp [SessOp.call] at hp
        | _ => rfl
      · exact history_noHash ctx d [o] s env h (s1, x) (by rw [single hx])
    rw [key]
    cases o with
    | setNoHashPassword b =>
      simp only [List.filterMap_cons, List.filterMap_nil, List.getLast?_singleton, Option.getD_some]
      cases (os.filterMap (fun o => match o with | .setNoHashPassword b => some b | _ => none)) with
      | nil => rfl
      | cons x xs => simp [List.getLast?_cons]
    | _ => rfl

/-- Every `Start` of the history ended in a panic. -/
def StartsPanicked (ops : List SessOp) (rs : List (Option (List SessRet))) : Prop :=
  ∀ p ∈ ops.zip rs, p.1.isStart = true → p.2 = none

theorem kept_keeps_numbers (ctx : Ctx) (d : Device) (hf : 0 < ctx.fuel) (env : Prog.Env SecReq SecRep) (ops : List SessOp) :
    ∀ (s : Session) (h t : Prog.Trace SecReq SecRep) (s' : Session) (rs : List (Option (List SessRet))), s.opened = false →
      OutT.run env h (sessionHistoryKept ctx d s ops) = (.ret (s', rs), t) → StartsPanicked ops rs →
      s'.hsn = s.hsn ∧ s'.tsn = s.tsn := by
  induction ops with
  | nil =>
    intro s h t s' rs ho hr _
    simp only [sessionHistoryKept, OutT.run_ret, Prod.mk.injEq, Out.ret.injEq] at hr
    obtain ⟨⟨rfl, rfl⟩, rfl⟩ := hr
    exact ⟨rfl, rfl⟩
  | cons o os ih =>
    intro s h t s' rs ho hr hp
    obtain ⟨s1, r, t1, rs', t2, h1, h2, rfl, rfl⟩ := kept_cons hr
    obtain ⟨o1, hcase⟩ := kept_step ho hf h1
    have hp' : StartsPanicked os rs' := fun p hm => hp p (by rw [List.zip_cons_cons]; exact List.mem_cons_of_mem _ hm)
    obtain ⟨a1, a2⟩ := ih s1 (h ++ t1) t2 s' rs' o1 h2 hp'
    rw [a1, a2]
    rcases hcase with ⟨_, rfl, _⟩ | ⟨x, hx, hrun⟩
    · exact ⟨rfl, rfl⟩
    · refine history_keeps_numbers ctx d [o] ?_ s env h (s1, x) (by rw [single hrun])
      intro o' ho'
      rw [List.mem_singleton.1 ho']
      cases hs : o.isStart with
      | false => rfl
      | true =>
        have := hp (o, r) (by rw [List.zip_cons_cons]; exact List.mem_cons_self) hs
        rw [hx] at this; cases this

/-- **C172.** Session numbers on an object used on after panics: `op` is any further call, also under `recover`. (1) As long as every `Start`
on a new object panicked, everything sent carries the session numbers 0 and 0. (2) After a `Start` that returned nil, with any history
before it and after it any calls of which every `Start` panicked, everything the next call sends carries the two numbers of that `Start`'s
reply, big-endian: panics, in whatever call, neither lose nor alter the open session. -/
theorem recovered_history_numbers (ctx : Ctx) (d : Device) (hd : d.isAnySSC = true) (hf : 0 < ctx.fuel) (env : Prog.Env SecReq SecRep)
    (h : Prog.Trace SecReq SecRep) (op : SessOp) (hop : op.Begun) :
    (∀ ops s rs t, OutT.run env h (sessionHistoryKept ctx d newTcgSession ops) = (.ret (s, rs), t) → StartsPanicked ops rs →
      ∀ comId data rep, (sendOf comId data, rep) ∈ (OutT.run env (h ++ t) (op.callKept ctx d s)).2 →
        slice data 24 4 = [0, 0, 0, 0] ∧ slice data 20 4 = [0, 0, 0, 0]) ∧
    (∀ before s0 rs0 t0 sp challenge (auth : AuthArg) s1 t1 after s2 rs2 t2, auth.bytes.length ≤ 50000 →
      OutT.run env h (sessionHistoryKept ctx d newTcgSession before) = (.ret (s0, rs0), t0) →
      OutT.run env (h ++ t0) (SessOp.callKept ctx d s0 (.start sp challenge auth)) = (.ret (s1, some [.err none]), t1) →
      OutT.run env (h ++ t0 ++ t1) (sessionHistoryKept ctx d s1 after) = (.ret (s2, rs2), t2) → StartsPanicked after rs2 →
      ∃ r host tper, Answered t1 r ∧ Accepted r ∧ SessionNumbers r host tper ∧
        ∀ comId data rep, (sendOf comId data, rep) ∈ (OutT.run env (h ++ t0 ++ t1 ++ t2) (op.callKept ctx d s2)).2 →
          slice data 24 4 = beBytes 4 host ∧ slice data 20 4 = beBytes 4 tper) := by
  refine ⟨?_, ?_⟩
  · intro ops s rs t hrun hp comId data rep hm
    obtain ⟨o1, _, _⟩ := kept_noHash ctx d hf env ops newTcgSession h t s rs rfl hrun
    obtain ⟨e1, e2⟩ := kept_keeps_numbers ctx d hf env ops newTcgSession h t s rs rfl hrun hp
    rw [call_recovered ctx d s op o1 hf] at hm
    have := OutT.asks_run (call_numbers ctx d s op hop) env (h ++ t) _ hm comId data rfl
    rw [e1, e2] at this
    exact this
  · intro before s0 rs0 t0 sp challenge auth s1 t1 after s2 rs2 t2 ha hbefore hstart hafter hp
    obtain ⟨o0, _, _⟩ := kept_noHash ctx d hf env before newTcgSession h t0 s0 rs0 rfl hbefore
    obtain ⟨o1, hcase⟩ := kept_step o0 hf hstart
    rcases hcase with ⟨hno, _⟩ | ⟨x, hx, hcall⟩
    · cases hno
    · injection hx with hx
      subst hx
      obtain ⟨o2, _, _⟩ := kept_noHash ctx d hf env after s1 (h ++ t0 ++ t1) t2 s2 rs2 o1 hafter
      obtain ⟨e1, e2⟩ := kept_keeps_numbers ctx d hf env after s1 (h ++ t0 ++ t1) t2 s2 rs2 o1 hafter hp
      have hst : OutT.run env (h ++ t0) (s0.start ctx d sp challenge auth) = (.ret (s1, none), t1) := by
        unfold SessOp.call at hcall
        simp only at hcall
        rw [OutT.run_bind] at hcall
        rcases hr : OutT.run env (h ++ t0) (s0.start ctx d sp challenge auth) with ⟨o, t⟩
        rw [hr] at hcall
        cases o with
        | panic => simp at hcall
        | running => simp at hcall
        | ret x =>
          obtain ⟨s', e⟩ := x
          simp only [OutT.run_ret, List.append_nil, Prod.mk.injEq, Out.ret.injEq, List.cons.injEq, SessRet.err.injEq, and_true] at hcall
          obtain ⟨⟨rfl, rfl⟩, rfl⟩ := hcall
          rfl
      obtain ⟨c, _, _, _, hcase⟩ := start_summary ctx d s0 sp challenge auth env (h ++ t0) hd hf ha
      rw [hst] at hcase
      rcases hcase with ⟨x, e, h1, _⟩ | ⟨r, _, _, _, h1⟩ | ⟨r, host, tper, h1, h2, _, h3, s', h4, h5, h6, _⟩ | ⟨_, h1⟩
      · cases h1
      · cases h1
      · simp only [Out.ret.injEq, Prod.mk.injEq, and_true] at h4
        subst h4
        refine ⟨r, host, tper, h1, h2, h3, ?_⟩
        intro comId data rep hm
        rw [call_recovered ctx d s2 op o2 hf] at hm
        have := OutT.asks_run (call_numbers ctx d s2 op hop) env (h ++ t0 ++ t1 ++ t2) _ hm comId data rfl
        rw [e1, e2, h5, h6] at this
        exact this
      · cases h1

/-- **C172.** The credential after recovered panics: after any history of calls on a new session object, panics included, a `Start` or an
`Authenticate` sends one packet, with the password unhashed exactly if the last `SetNoHashPassword` turned hashing off, and
`IsNoHashPassword` tells. Every call of the history came back. -/
theorem recovered_history_credentials (ctx : Ctx) (d : Device) (hd : d.isAnySSC = true) (hf : 0 < ctx.fuel) (ops : List SessOp)
    (env : Prog.Env SecReq SecRep) (h t : Prog.Trace SecReq SecRep) (s : Session) (rs : List (Option (List SessRet)))
    (hrun : OutT.run env h (sessionHistoryKept ctx d newTcgSession ops) = (.ret (s, rs), t)) :
    rs.length = ops.length ∧
    (∀ sp challenge (auth : AuthArg), auth.bytes.length ≤ 50000 → ∃ sent tsn hsn,
      sends (OutT.run env (h ++ t) (SessOp.callKept ctx d s (.start sp challenge auth))).2 =
        [(sendOf d.baseComId (wireImage d.baseComId.toNat tsn hsn (startSessionCall sp.bytes
          (if challenge = [] then none
           else some (stringArg (challengeValue ctx.kdf (lastNoHash ops) d.serial challenge), auth.bytes)))), sent)]) ∧
    (∀ authority challenge, authority.length ≤ 50000 → ∃ sent tsn hsn,
      sends (OutT.run env (h ++ t) (SessOp.callKept ctx d s (.authenticate authority challenge))).2 =
        [(sendOf d.baseComId (wireImage d.baseComId.toNat tsn hsn (authenticateCall authority
          (if challenge = [] then none else some (stringArg (challengeValue ctx.kdf (lastNoHash ops) d.serial challenge))))), sent)]) ∧
    OutT.run env (h ++ t) (SessOp.callKept ctx d s .isNoHashPassword) = (.ret (s, some [.flag (lastNoHash ops)]), []) := by
  obtain ⟨ho, hlen, hn⟩ := kept_noHash ctx d hf env ops newTcgSession h t s rs rfl hrun
  have hn : s.noHash = lastNoHash ops := hn
  have hcall : ∀ {α : Type} (p : TcgM α) (f : α → Session × List SessRet),
      (OutT.run env (h ++ t) (p >>= fun x => OutT.ret (f x))).2 = (OutT.run env (h ++ t) p).2 := by
    intro α p f
    rw [OutT.run_bind]
    rcases OutT.run env (h ++ t) p with ⟨o, t'⟩
    cases o <;> simp
  have hkept : ∀ o : SessOp, (OutT.run env (h ++ t) (o.callKept ctx d s)).2 = (OutT.run env (h ++ t) (o.call ctx d s)).2 := by
    intro o
    rw [call_recovered ctx d s o ho hf]
  refine ⟨hlen, ?_, ?_, ?_⟩
  · intro sp challenge auth ha
    obtain ⟨sent, hs⟩ := start_sends ctx d s sp challenge auth env (h ++ t) hd hf ha
    refine ⟨sent, leBytes 4 (s.tsn.toNat % 2 ^ 32), leBytes 4 (s.hsn.toNat % 2 ^ 32), ?_⟩
    rw [hkept]
    show sends (OutT.run env (h ++ t) (s.start ctx d sp challenge auth >>= fun x => OutT.ret (x.1, [SessRet.err x.2]))).2 = _
    rw [hcall, hs, hn]
  · intro authority challenge ha
    obtain ⟨sent, hs⟩ := authenticate_sends ctx d s authority challenge env (h ++ t) hd hf ha
    refine ⟨sent, leBytes 4 (s.tsn.toNat % 2 ^ 32), leBytes 4 (s.hsn.toNat % 2 ^ 32), ?_⟩
    rw [hkept]
    show sends (OutT.run env (h ++ t) (s.authenticate ctx d authority challenge >>= fun x => OutT.ret (s, [SessRet.err x]))).2 = _
    rw [hcall, hs, hn]
  · rw [← hn]; rfl

/-- A drive that answers the first receive properly and the rest with a single list start. -/
def souringEnv : Prog.Env SecReq SecRep := fun h q =>
  if (h.filter (fun x => match x.1 with | .sec false .. => true | _ => false)).length < 1 then
    replyEnv [0xf8, 0xa1, 0, 0xa1, 0, 0xf0, 0x81, 105, 0x82, 0x10, 7, 0xf1, 0xf9, 0xf0, 0, 0, 0, 0xf1] h q
  else replyEnv [0xf0] h q

/-- A start, two panics, and another packet: it carries the numbers of the session (0x1007 and 105). -/
example : ((OutT.run souringEnv [] (sessionHistoryKept sampleCtx opalDevice newTcgSession
      [.start ADMINSP_UID [] (.uid SID_UID), .authenticate [] [], .start ADMINSP_UID [] (.uid SID_UID)])).2.filterMap
        (fun x => match x.1 with | .sec true _ _ _ data _ => some (slice data 20 8) | _ => none))
    = [[0, 0, 0, 0, 0, 0, 0, 0], [0, 0, 0x10, 7, 0, 0, 0, 105], [0, 0, 0x10, 7, 0, 0, 0, 105]] ∧
  (match (OutT.run souringEnv [] (sessionHistoryKept sampleCtx opalDevice newTcgSession
      [.start ADMINSP_UID [] (.uid SID_UID), .authenticate [] [], .start ADMINSP_UID [] (.uid SID_UID)])).1 with
    | .ret (s, [some [.err none], none, none]) => s.tsn == 0x07100000 && s.hsn == 0x69000000 | _ => false) = true := by
  constructor <;> decide +kernel

end Dparm
