import Verif.Lemmas.SharedDrive
import Verif.Spec.Concurrent
/-!
# Several clients on one drive (C150 to C152)
-/
namespace Dparm
open Spec

/-- `RevertTPer` with the PSID, or with a password whose derived key is the SID credential. -/
def TcgOp.RightFor (dr : Drive) (s : DriveState) (kdf : Kdf) : TcgOp → Prop
  | .revert d pw psid _ => (d.kind = .opal1 ∨ d.kind = .opal2) ∧ RightPassword dr s kdf d.serial pw psid
  | .defaultPassword _ => False

/-! ## C150: who can revert the drive -/

/-- Neither credential is among them. -/
def NoRight (dr : Drive) (sid : Bytes) (cred : Option (Bytes × Bytes)) : Prop :=
  ∀ c u, cred = some (c, u) → ¬ (u = psidAuthority ∧ c = dr.psid) ∧ ¬ (u = sidAuthority ∧ c = sid)

theorem noRight_admits {dr : Drive} {s : DriveState} {cred : Option (Bytes × Bytes)} (h : NoRight dr s.sid cred)
    (ha : dr.admits s (seenArgs cred) = true) : cred = none := by
  cases cred with
  | none => rfl
  | some x =>
    obtain ⟨c, u⟩ := x
    obtain ⟨h1, h2⟩ := h c u rfl
    simp only [Drive.admits, seenArgs, Option.map_some, Bool.or_eq_true, Bool.and_eq_true, beq_iff_eq] at ha
    rcases ha with ha | ha
    · exact absurd ha h1
    · exact absurd ha h2

/-- Whatever the goroutines do and in whatever order, and wherever they are stopped: if nobody calls `RevertTPer` with a right
password and no session of SID or PSID was open, the drive is not reverted and its password not changed. -/
theorem shared_drive_protected {dr : Drive} {W : Nat} {env : Prog.Env SecReq SecRep} {st : Prog.Trace SecReq SecRep → DriveState}
    (hs : SharedDrive dr W env st) (ctx : Ctx) (ops : List (List TcgOp)) (hfit : ∀ cl ∈ ops, ∀ op ∈ cl, op.Fits dr)
    (hno : ∀ cl ∈ ops, ∀ op ∈ cl, ¬ op.RightFor dr (st []) ctx.kdf) (hpriv : ∀ o ∈ (st []).sessions, ¬ o.Privileged)
    (sched : List Nat) :
    (st ((tcgClients ctx ops).run (sameDrive env) sched).trace.whole).sid = (st []).sid ∧
    (st ((tcgClients ctx ops).run (sameDrive env) sched).trace.whole).reverts = (st []).reverts := by
  have h := shared_inv (dr := dr) (C := NoRight dr (st []).sid) (env := env) ctx ops ?_
    (fun h _ => (st h).sid = (st []).sid ∧ (st h).reverts = (st []).reverts ∧ ∀ o ∈ (st h).sessions, ¬ o.Privileged)
    ⟨rfl, rfl, hpriv⟩ ?_ sched
  · obtain ⟨_, h1, h2, _⟩ := h
    exact ⟨h1, h2⟩
  · intro cl hcl op hop
    refine ⟨hfit cl hcl op hop, ?_⟩
    have hn := hno cl hcl op hop
    cases op with
    | defaultPassword d => intro c u h; cases h
    | revert d pw psid adm =>
      intro hssc c u h
      rw [presented_revert] at h
      split at h
      · cases h
      · rename_i h0
        simp only [Option.some.injEq, Prod.mk.injEq] at h
        obtain ⟨rfl, rfl⟩ := h
        have hk := ssc_opal hssc
        constructor
        · rintro ⟨h1, h2⟩
          cases psid with
          | false => exact absurd h1 (by decide)
          | true => exact hn ⟨hk, h0, h2⟩
        · rintro ⟨h1, h2⟩
          cases psid with
          | false => exact hn ⟨hk, h0, h2⟩
          | true => exact absurd h1 (by decide)
  · intro h n q ⟨h1, h2, h3⟩ hq _
    rcases libReq_state hs h q hq with ⟨x, w, e⟩ | ⟨cred, tper, w, hC, e⟩ | ⟨_, ⟨o, ho, hp⟩, _⟩
    · rw [e]; exact ⟨h1, h2, h3⟩
    · rw [e]
      obtain ⟨f1, f2⟩ := startSession_frame dr tper (st h) (seenArgs cred)
      refine ⟨f1.trans h1, f2.trans h2, ?_⟩
      rw [← h1] at hC
      dsimp only
      unfold Drive.startSession
      split
      · exact h3
      · split
        · exact h3
        · split
          · rename_i ha
            have := noRight_admits hC ha
            subst this
            intro o ho
            rcases List.mem_cons.1 ho with rfl | ho
            · rintro ⟨_, hp | hp⟩ <;> cases hp
            · exact h3 o ho
          · exact h3
    · exact absurd hp (h3 o ho)

/-- At every moment the drive has its old password and was not reverted, or it has its MSID and was reverted at least once, and
not more often than `RevertTPer` was called; and it has not more sessions open than it allows or had at the start. -/
theorem shared_drive_states {dr : Drive} {W : Nat} {env : Prog.Env SecReq SecRep} {st : Prog.Trace SecReq SecRep → DriveState}
    (hs : SharedDrive dr W env st) (ctx : Ctx) (ops : List (List TcgOp)) (hfit : ∀ cl ∈ ops, ∀ op ∈ cl, op.Fits dr)
    (sched : List Nat) (s : DriveState) (hst : s = st ((tcgClients ctx ops).run (sameDrive env) sched).trace.whole) :
    ((s.sid = (st []).sid ∧ s.reverts = (st []).reverts) ∨
      (s.sid = dr.msid ∧ (st []).reverts < s.reverts ∧
        s.reverts ≤ (st []).reverts + (ops.flatten.filter TcgOp.isRevert).length)) ∧
    s.sessions.length ≤ max (st []).sessions.length dr.maxSessions := by
  have hsum : (ops.flatten.filter TcgOp.isRevert).length = (ops.map revertCount).sum := by
    clear hfit hst
    induction ops with
    | nil => rfl
    | cons cl ops ih => simp only [List.flatten_cons, List.filter_append, List.length_append, List.map_cons, List.sum_cons, ih, revertCount]
  rw [hsum]
  have h := shared_inv (dr := dr) (C := fun _ => True) (env := env) ctx ops ?_
    (fun h n => (((st h).sid = (st []).sid ∧ (st h).reverts = (st []).reverts) ∨
      ((st h).sid = dr.msid ∧ (st []).reverts < (st h).reverts ∧ (st h).reverts + n ≤ (st []).reverts + (ops.map revertCount).sum)) ∧
      (n ≤ (ops.map revertCount).sum) ∧
      (st h).sessions.length ≤ max (st []).sessions.length dr.maxSessions)
    ⟨.inl ⟨rfl, rfl⟩, Nat.le_refl _, by omega⟩ ?_ sched
  · obtain ⟨n, h1, h2, h3⟩ := h
    rw [hst]
    refine ⟨?_, h3⟩
    rcases h1 with h1 | ⟨h1, h4, h5⟩
    · exact .inl h1
    · exact .inr ⟨h1, h4, by omega⟩
  · intro cl hcl op hop
    refine ⟨hfit cl hcl op hop, ?_⟩
    cases op with
    | defaultPassword d => trivial
    | revert d pw psid adm => intro _; trivial
  · intro h n q ⟨h1, h2, h3⟩ hq hn
    have hle : (if sendsRevert q then n - 1 else n) ≤ n := by split <;> omega
    rcases libReq_state hs h q hq with ⟨x, w, e⟩ | ⟨cred, tper, w, hC, e⟩ | ⟨hr, _, w, e⟩
    · rw [e]
      refine ⟨?_, by omega, h3⟩
      rcases h1 with h1 | ⟨h1, h4, h5⟩
      · exact .inl h1
      · exact .inr ⟨h1, h4, by show (st h).reverts + _ ≤ _; omega⟩
    · rw [e]
      obtain ⟨f1, f2⟩ := startSession_frame dr tper (st h) (seenArgs cred)
      refine ⟨?_, by omega, ?_⟩
      · dsimp only
        rw [f1, f2]
        rcases h1 with h1 | ⟨h1, h4, h5⟩
        · exact .inl h1
        · exact .inr ⟨h1, h4, by omega⟩
      · dsimp only
        unfold Drive.startSession
        split
        · exact h3
        · split
          · exact h3
          · split
            · rename_i hroom _
              simp only [List.length_cons]
              omega
            · exact h3
    · rw [e]
      have h0 := hn hr
      rw [hr]
      simp only [if_true, List.length_nil]
      refine ⟨.inr ⟨trivial, ?_⟩, by omega, by omega⟩
      rcases h1 with ⟨_, h1⟩ | ⟨_, h4, h5⟩ <;> omega

/-! ## C151: without other goroutines in between, the answer is the truth -/

/-- What a program does when nobody else gets a turn. -/
theorem pool_alone {Q R α β : Type} (env : Prog.Env Q R) (i : Nat) (f : β → Prog Q R α) (p : Prog Q R β) : ∀ (s : Pool Q R α),
    s.threads[i]? = some (Prog.bind p f) →
    (s.run (fun t _ q => env t.whole q) (List.replicate (Prog.run env s.trace.whole p).2.length i)).threads[i]?
      = some (f (Prog.run env s.trace.whole p).1) ∧
    (s.run (fun t _ q => env t.whole q) (List.replicate (Prog.run env s.trace.whole p).2.length i)).trace.whole
      = s.trace.whole ++ (Prog.run env s.trace.whole p).2 := by
  induction p with
  | done a => intro s h; exact ⟨h, by simp [Prog.run, Pool.run]⟩
  | ask q k ih =>
    intro s h
    rw [Prog.run_ask]
    simp only [List.length_cons, List.replicate_succ]
    have hstep : s.step (fun t _ q => env t.whole q) i = {
        threads := s.threads.set i (Prog.bind (k (env s.trace.whole q)) f),
        trace := s.trace ++ [(i, q, env s.trace.whole q)] } := by
      unfold Pool.step; rw [h]; rfl
    have hw : (s.step (fun t _ q => env t.whole q) i).trace.whole = s.trace.whole ++ [(q, env s.trace.whole q)] := by
      rw [hstep]; exact Tagged.whole_snoc ..
    have := ih (env s.trace.whole q) (s.step (fun t _ q => env t.whole q) i) (by
      rw [hstep]; exact List.getElem?_set_self (List.getElem?_eq_some_iff.1 h).1)
    rw [hw] at this
    refine ⟨this.1, this.2.trans ?_⟩
    rw [List.append_assoc]; rfl

/-- A goroutine calls `RevertTPer` at any moment of any schedule, and nobody else uses the drive until the call returns: it
returns nil only if the drive was reverted by it, with a right password; with a wrong password it returns an error and the drive
keeps its password; with a right one it returns nil if the drive has a session left and nothing takes longer than 10 s. -/
theorem shared_revert_exclusive {dr : Drive} {W : Nat} {env : Prog.Env SecReq SecRep} {st : Prog.Trace SecReq SecRep → DriveState}
    (hs : SharedDrive dr W env st) (ctx : Ctx) (hf : W < ctx.fuel) (s : Pool SecReq SecRep (List (Out TcgDone))) (i : Nat) (d : Device)
    (hk : d.kind = .opal1 ∨ d.kind = .opal2) (hd : d.baseComId = dr.comId) (pw : Bytes) (psid adm : Bool) (hl : psid = true → pw.length ≤ 400)
    (after : Out TcgDone → Prog SecReq SecRep (List (Out TcgDone)))
    (hi : s.threads[i]? = some (Prog.bind ((TcgOp.revert d pw psid adm).prog ctx) after)) :
    ∃ n e, (s.run (sameDrive env) (List.replicate n i)).threads[i]? = some (after (.ret (.reverted e))) ∧
      (e = none → RightPassword dr (st s.trace.whole) ctx.kdf d.serial pw psid ∧
        st (s.run (sameDrive env) (List.replicate n i)).trace.whole = revertedState dr (st s.trace.whole)) ∧
      (¬ RightPassword dr (st s.trace.whole) ctx.kdf d.serial pw psid → e ≠ none ∧
        (st (s.run (sameDrive env) (List.replicate n i)).trace.whole).sid = (st s.trace.whole).sid ∧
        (st (s.run (sameDrive env) (List.replicate n i)).trace.whole).reverts = (st s.trace.whole).reverts) ∧
      (Prompt env → RightPassword dr (st s.trace.whole) ctx.kdf d.serial pw psid →
        (st s.trace.whole).sessions.length < dr.maxSessions → e = none) := by
  obtain ⟨h1, h2⟩ := pool_alone env i after ((TcgOp.revert d pw psid adm).prog ctx) s hi
  have hrun : ∀ e t, OutT.run env s.trace.whole (d.revertTPer ctx pw psid adm) = (.ret e, t) →
      Prog.run env s.trace.whole ((TcgOp.revert d pw psid adm).prog ctx) = (.ret (.reverted e), t) := by
    intro e t he
    show OutT.run env s.trace.whole (d.revertTPer ctx pw psid adm >>= fun e => OutT.ret (TcgDone.reverted e)) = (.ret (TcgDone.reverted e), t)
    rw [OutT.run_bind, he]
    simp [OutT.run_ret]
  have hcase := revert_conforming hs.toConforming ctx d hk hd hf pw psid adm hl s.trace.whole
  rcases hr : OutT.run env s.trace.whole (d.revertTPer ctx pw psid adm) with ⟨o, t⟩
  rw [hr] at hcase
  simp only at hcase
  have fin : ∀ e, o = .ret e → (e = none → RightPassword dr (st s.trace.whole) ctx.kdf d.serial pw psid ∧
        st (s.trace.whole ++ t) = revertedState dr (st s.trace.whole)) →
      (¬ RightPassword dr (st s.trace.whole) ctx.kdf d.serial pw psid → e ≠ none ∧
        (st (s.trace.whole ++ t)).sid = (st s.trace.whole).sid ∧
        (st (s.trace.whole ++ t)).reverts = (st s.trace.whole).reverts) →
      (Prompt env → RightPassword dr (st s.trace.whole) ctx.kdf d.serial pw psid →
        (st s.trace.whole).sessions.length < dr.maxSessions → e = none) →
    ∃ n e, (s.run (sameDrive env) (List.replicate n i)).threads[i]? = some (after (.ret (.reverted e))) ∧
      (e = none → RightPassword dr (st s.trace.whole) ctx.kdf d.serial pw psid ∧
        st (s.run (sameDrive env) (List.replicate n i)).trace.whole = revertedState dr (st s.trace.whole)) ∧
      (¬ RightPassword dr (st s.trace.whole) ctx.kdf d.serial pw psid → e ≠ none ∧
        (st (s.run (sameDrive env) (List.replicate n i)).trace.whole).sid = (st s.trace.whole).sid ∧
        (st (s.run (sameDrive env) (List.replicate n i)).trace.whole).reverts = (st s.trace.whole).reverts) ∧
      (Prompt env → RightPassword dr (st s.trace.whole) ctx.kdf d.serial pw psid →
        (st s.trace.whole).sessions.length < dr.maxSessions → e = none) := by
    intro e ho k1 k2 k3
    subst ho
    have := hrun e t hr
    rw [this] at h1 h2
    refine ⟨t.length, e, h1, ?_⟩
    have h3 : (s.run (sameDrive env) (List.replicate t.length i)).trace.whole = s.trace.whole ++ t := h2
    rw [h3]
    exact ⟨k1, k2, k3⟩
  rcases hcase with ⟨ho, hR, _, hst⟩ | ⟨ho, hfull, hst⟩ | ⟨ho, _, hR, hst⟩ | ⟨hslow, ho, hst⟩
  · exact fin none ho (fun _ => ⟨hR, hst⟩) (fun h => absurd hR h) (fun _ _ _ => rfl)
  · exact fin _ ho (fun h => by cases h) (fun _ => ⟨by simp, by rw [hst], by rw [hst]⟩) (fun _ _ h => by omega)
  · exact fin _ ho (fun h => by cases h) (fun _ => ⟨by simp, hst⟩) (fun _ h => absurd h hR)
  · refine fin _ ho (fun h => by cases h) (fun h => ⟨by simp, ?_⟩) (fun h => absurd hslow (not_slow h))
    rcases hst with hst | hst
    · exact absurd hst h
    · exact hst

/-- The same for `GetDefaultPassword`, if nothing takes longer than 10 s: the MSID when the drive has a session left, otherwise an
error; the drive keeps its password. -/
theorem shared_password_exclusive {dr : Drive} {W : Nat} {env : Prog.Env SecReq SecRep} {st : Prog.Trace SecReq SecRep → DriveState}
    (hs : SharedDrive dr W env st) (hp : Prompt env) (ctx : Ctx) (hf : W < ctx.fuel) (s : Pool SecReq SecRep (List (Out TcgDone))) (i : Nat)
    (d : Device) (hk : d.kind = .opal1 ∨ d.kind = .opal2) (hd : d.baseComId = dr.comId)
    (after : Out TcgDone → Prog SecReq SecRep (List (Out TcgDone)))
    (hi : s.threads[i]? = some (Prog.bind ((TcgOp.defaultPassword d).prog ctx) after)) :
    ∃ n v e, (s.run (sameDrive env) (List.replicate n i)).threads[i]? = some (after (.ret (.password v e))) ∧
      ((st s.trace.whole).sessions.length < dr.maxSessions → v = dr.msid ∧ e = none) ∧
      (dr.maxSessions ≤ (st s.trace.whole).sessions.length → e ≠ none) ∧
      (st (s.run (sameDrive env) (List.replicate n i)).trace.whole).sid = (st s.trace.whole).sid ∧
      (st (s.run (sameDrive env) (List.replicate n i)).trace.whole).reverts = (st s.trace.whole).reverts := by
  obtain ⟨h1, h2⟩ := pool_alone env i after ((TcgOp.defaultPassword d).prog ctx) s hi
  rcases hr : OutT.run env s.trace.whole (d.getDefaultPassword ctx) with ⟨o, t⟩
  obtain ⟨c1, c2, c3, c4⟩ := default_password_conforming hs.toConforming hp ctx hf d hk hd s.trace.whole o t hr
  have hret : ∃ v e, o = .ret (v, e) ∧ ((st s.trace.whole).sessions.length < dr.maxSessions → v = dr.msid ∧ e = none) ∧
      (dr.maxSessions ≤ (st s.trace.whole).sessions.length → e ≠ none) := by
    by_cases hroom : (st s.trace.whole).sessions.length < dr.maxSessions
    · exact ⟨_, _, (c3 hroom).1, fun _ => ⟨rfl, rfl⟩, fun h => by omega⟩
    · exact ⟨_, _, (c4 (by omega)).1, fun h => absurd h hroom, fun _ => by simp⟩
  obtain ⟨v, e, rfl, hv1, hv2⟩ := hret
  have hrun : Prog.run env s.trace.whole ((TcgOp.defaultPassword d).prog ctx) = (.ret (.password v e), t) := by
    show OutT.run env s.trace.whole (d.getDefaultPassword ctx >>= fun (v, e) => OutT.ret (TcgDone.password v e))
      = (.ret (TcgDone.password v e), t)
    rw [OutT.run_bind, hr]
    simp [OutT.run_ret]
  rw [hrun] at h1 h2
  refine ⟨t.length, v, e, h1, hv1, hv2, ?_⟩
  have h3 : (s.run (sameDrive env) (List.replicate t.length i)).trace.whole = s.trace.whole ++ t := h2
  rw [h3]
  exact ⟨c1, c2⟩

/-! ## C152: with other goroutines in between it need not be -/

theorem ideal_shared (dr : Drive) (hm : dr.msid.length ≤ 1900) (s0 : DriveState) (ha : s0.answer = none) (hw : s0.wait = 0) :
    SharedDrive dr 0 (idealEnv dr s0) (idealState dr s0) :=
  { ideal_conforming dr hm s0 ha hw with
    idle := by
      intro h secs hn
      rw [idealState_snoc]
      generalize idealState dr s0 h = s at hn
      obtain ⟨a, b, c, d, e⟩ := s
      simp only at hn
      subst hn
      simp only [idealStep, and_self, if_true] }

/-- The drive of the examples, with room for three sessions. -/
def roomyDrive : Drive := { shippedDrive with maxSessions := 3 }

/-- One goroutine reverts with a wrong PSID, the other reads the default password twice. -/
def readerAndWrongPsid : List (List TcgOp) :=
  [[.revert shippedDevice [0x50, 0x32] true true], [.defaultPassword shippedDevice, .defaultPassword shippedDevice]]

/-- One goroutine reverts with the right PSID, the other with a wrong one. -/
def rightAndWrongPsid : List (List TcgOp) :=
  [[.revert shippedDevice [0x50, 0x31] true true], [.revert shippedDevice [0x50, 0x32] true true]]

/-- It has ended, its only operation was `RevertTPer`, and that returned nil. -/
def revertedNil (s : Pool SecReq SecRep (List (Out TcgDone))) (i : Nat) : Bool :=
  match s.threads[i]? with
  | some (.done [.ret (.reverted none)]) => true
  | _ => false

theorem revertedNil_ended {s : Pool SecReq SecRep (List (Out TcgDone))} {i : Nat} (h : revertedNil s i = true) :
    s.Ended i [.ret (.reverted none)] := by
  unfold revertedNil at h
  split at h
  · rename_i h'; exact h'
  · cases h

theorem roomy_shared : SharedDrive roomyDrive 0 (idealEnv roomyDrive ownedState) (idealState roomyDrive ownedState) :=
  ideal_shared _ (by decide) _ rfl rfl

theorem shipped_fits (pw : Bytes) (h : pw.length ≤ 400) (psid adm : Bool) : (TcgOp.revert shippedDevice pw psid adm).Fits roomyDrive :=
  fun _ => ⟨by decide, fun _ => h⟩

/-- False success: a schedule in which `RevertTPer` with a wrong password returns nil although the drive was not reverted (its
answers were those to the other goroutine). -/
theorem shared_revert_false_success : ∃ (dr : Drive) (W : Nat) (env : Prog.Env SecReq SecRep)
    (st : Prog.Trace SecReq SecRep → DriveState) (ctx : Ctx) (ops : List (List TcgOp)) (sched : List Nat) (d : Device) (pw : Bytes),
    SharedDrive dr W env st ∧ W < ctx.fuel ∧ (∀ cl ∈ ops, ∀ op ∈ cl, op.Fits dr) ∧ (∀ cl ∈ ops, ∀ op ∈ cl, ¬ op.RightFor dr (st []) ctx.kdf) ∧
    ops[0]? = some [.revert d pw true true] ∧
    ((tcgClients ctx ops).run (sameDrive env) sched).Ended 0 [.ret (.reverted none)] ∧
    (st ((tcgClients ctx ops).run (sameDrive env) sched).trace.whole).reverts = (st []).reverts := by
  have hfit : ∀ cl ∈ readerAndWrongPsid, ∀ op ∈ cl, op.Fits roomyDrive := by
    intro cl hcl op hop
    simp only [readerAndWrongPsid, List.mem_cons, List.not_mem_nil, or_false] at hcl
    rcases hcl with rfl | rfl
    · rw [List.mem_singleton] at hop; subst hop
      exact shipped_fits _ (by decide) _ _
    · simp only [List.mem_cons, List.not_mem_nil, or_false, or_self] at hop; subst hop
      exact fun _ => by decide
  have hno : ∀ cl ∈ readerAndWrongPsid, ∀ op ∈ cl, ¬ op.RightFor roomyDrive ownedState sampleCtx.kdf := by
    intro cl hcl op hop
    simp only [readerAndWrongPsid, List.mem_cons, List.not_mem_nil, or_false] at hcl
    rcases hcl with rfl | rfl
    · rw [List.mem_singleton] at hop; subst hop
      rintro ⟨_, _, h⟩
      exact absurd h (by decide)
    · simp only [List.mem_cons, List.not_mem_nil, or_false, or_self] at hop; subst hop
      exact fun h => h
  refine ⟨roomyDrive, 0, idealEnv roomyDrive ownedState, idealState roomyDrive ownedState, sampleCtx, readerAndWrongPsid,
    [0, 0, 1, 1, 0, 0, 0, 1, 1, 1, 0, 0, 1, 1, 0, 0, 0], shippedDevice, [0x50, 0x32], roomy_shared, by decide, hfit, hno, rfl,
    revertedNil_ended (by decide +kernel), ?_⟩
  exact (shared_drive_protected roomy_shared sampleCtx readerAndWrongPsid hfit hno (by intro o ho; cases ho) _).2

/-- A wrong password that reverts the drive: it is used after another goroutine has opened a session with the right one, and
before that goroutine has sent its Revert. -/
theorem shared_revert_wrong_password : ∃ (dr : Drive) (W : Nat) (env : Prog.Env SecReq SecRep)
    (st : Prog.Trace SecReq SecRep → DriveState) (ctx : Ctx) (ops : List (List TcgOp)) (sched : List Nat) (d : Device) (pw : Bytes),
    SharedDrive dr W env st ∧ W < ctx.fuel ∧ (∀ cl ∈ ops, ∀ op ∈ cl, op.Fits dr) ∧
    ops[1]? = some [.revert d pw true true] ∧ ¬ RightPassword dr (st []) ctx.kdf d.serial pw true ∧
    ((tcgClients ctx ops).run (sameDrive env) sched).Ended 1 [.ret (.reverted none)] ∧
    (((tcgClients ctx ops).run (sameDrive env) sched).trace.of 0).all (fun x => !sendsRevert x.1) = true ∧
    (st ((tcgClients ctx ops).run (sameDrive env) sched).trace.whole).reverts = (st []).reverts + 1 := by
  refine ⟨roomyDrive, 0, idealEnv roomyDrive ownedState, idealState roomyDrive ownedState, sampleCtx, rightAndWrongPsid,
    [1, 1, 0, 0, 1, 1, 1, 1, 1, 1, 1, 1], shippedDevice, [0x50, 0x32], roomy_shared, by decide, ?_, rfl, ?_,
    revertedNil_ended (by decide +kernel), by decide +kernel, by decide +kernel⟩
  · intro cl hcl op hop
    simp only [rightAndWrongPsid, List.mem_cons, List.not_mem_nil, or_false] at hcl
    rcases hcl with rfl | rfl <;> (rw [List.mem_singleton] at hop; subst hop; exact shipped_fits _ (by decide) _ _)
  · rintro ⟨_, h⟩
    exact absurd h (by decide)

/-- A wrong default password: `GetDefaultPassword` takes the number of another goroutine's session for the MSID. -/
theorem shared_password_false : ∃ (dr : Drive) (W : Nat) (env : Prog.Env SecReq SecRep)
    (st : Prog.Trace SecReq SecRep → DriveState) (ctx : Ctx) (ops : List (List TcgOp)) (sched : List Nat) (d : Device) (v : Bytes),
    SharedDrive dr W env st ∧ W < ctx.fuel ∧ (∀ cl ∈ ops, ∀ op ∈ cl, op.Fits dr) ∧ ops[0]? = some [.defaultPassword d] ∧
    ((tcgClients ctx ops).run (sameDrive env) sched).Ended 0 [.ret (.password v none)] ∧ v ≠ dr.msid := by
  have hend : ∀ s : Pool SecReq SecRep (List (Out TcgDone)), (match s.threads[0]? with
      | some (.done [.ret (.password [0, 0, 0, 0x69] none)]) => true | _ => false) = true →
      s.Ended 0 [.ret (.password [0, 0, 0, 0x69] none)] := by
    intro s h
    split at h
    · rename_i h'; exact h'
    · cases h
  refine ⟨roomyDrive, 0, idealEnv roomyDrive ownedState, idealState roomyDrive ownedState, sampleCtx,
    [[.defaultPassword shippedDevice], [.defaultPassword shippedDevice]], [0, 0, 0, 0, 0, 0, 0, 1, 1, 0, 0, 0], shippedDevice,
    [0, 0, 0, 0x69], roomy_shared, by decide, ?_, rfl, hend _ (by decide +kernel), by decide⟩
  intro cl hcl op hop
  simp only [List.mem_cons, List.not_mem_nil, or_false, or_self] at hcl
  subst hcl
  rw [List.mem_singleton] at hop; subst hop
  exact fun _ => by decide

/-! ## The hypotheses can be met -/

/-- C150: the drive keeps its password at every moment although two goroutines try to revert it, read it, and disturb each other. -/
example (sched : List Nat) : (idealState roomyDrive ownedState ((tcgClients sampleCtx [[.revert shippedDevice [0x50, 0x32] true true,
    .defaultPassword shippedDevice], [.revert shippedDevice [1, 2, 3] true true]]).run (sameDrive (idealEnv roomyDrive ownedState))
      sched).trace.whole).reverts = 0 := by
  refine (shared_drive_protected roomy_shared sampleCtx _ ?_ ?_ (by intro o ho; cases ho) sched).2
  · intro cl hcl op hop
    simp only [List.mem_cons, List.not_mem_nil, or_false] at hcl
    rcases hcl with rfl | rfl
    · simp only [List.mem_cons, List.not_mem_nil, or_false] at hop
      rcases hop with rfl | rfl
      · exact shipped_fits _ (by decide) _ _
      · exact fun _ => by decide
    · rw [List.mem_singleton] at hop; subst hop; exact shipped_fits _ (by decide) _ _
  · intro cl hcl op hop
    simp only [List.mem_cons, List.not_mem_nil, or_false] at hcl
    rcases hcl with rfl | rfl
    · simp only [List.mem_cons, List.not_mem_nil, or_false] at hop
      rcases hop with rfl | rfl
      · rintro ⟨_, _, h⟩; exact absurd h (by decide)
      · exact fun h => h
    · rw [List.mem_singleton] at hop; subst hop; rintro ⟨_, _, h⟩; exact absurd h (by decide)

/-- C150: both cases of `shared_drive_states` occur, here after the schedule of `shared_revert_wrong_password` and before it. -/
example : (idealState roomyDrive ownedState ((tcgClients sampleCtx rightAndWrongPsid).run
    (sameDrive (idealEnv roomyDrive ownedState)) [1, 1, 0, 0, 1, 1, 1, 1, 1]).trace.whole).sid = roomyDrive.msid ∧
    (idealState roomyDrive ownedState ((tcgClients sampleCtx rightAndWrongPsid).run
    (sameDrive (idealEnv roomyDrive ownedState)) [1, 1, 0, 0, 1, 1, 1, 1]).trace.whole).sid = ownedState.sid := by
  constructor <;> decide +kernel

/-- C151: the wrong PSID and the right one, alone, from the start. -/
example : ∃ n e, ((tcgClients sampleCtx rightAndWrongPsid).run (sameDrive (idealEnv roomyDrive ownedState)) (List.replicate n 1)).Ended 1
    [.ret (.reverted e)] ∧ e ≠ none := by
  obtain ⟨n, e, h1, _, h3, _⟩ := shared_revert_exclusive roomy_shared sampleCtx (by decide) (tcgClients sampleCtx rightAndWrongPsid) 1
    shippedDevice (.inr rfl) (by decide) [0x50, 0x32] true true (by decide)
    (fun o => Prog.bind (tcgClient sampleCtx []) (fun r => .done (o :: r))) rfl
  exact ⟨n, e, h1, (h3 (by rintro ⟨_, h⟩; exact absurd h (by decide))).1⟩
example : revertedNil ((tcgClients sampleCtx rightAndWrongPsid).run (sameDrive (idealEnv roomyDrive ownedState)) (List.replicate 10 0)) 0
    = true := by decide +kernel

/-- C151: the default password, after another goroutine was stopped in the middle of a revert. -/
example : ∃ n v e, (((tcgClients sampleCtx readerAndWrongPsid).run (sameDrive (idealEnv roomyDrive ownedState)) [0, 0]).run
    (sameDrive (idealEnv roomyDrive ownedState)) (List.replicate n 1)).threads[1]? = some (Prog.bind
      (tcgClient sampleCtx [.defaultPassword shippedDevice]) (fun r => .done (.ret (.password v e) :: r))) ∧ v = [0x4d, 0x31] ∧ e = none := by
  obtain ⟨n, v, e, h1, h2, _⟩ := shared_password_exclusive roomy_shared (ideal_prompt _ _) sampleCtx (by decide)
    ((tcgClients sampleCtx readerAndWrongPsid).run (sameDrive (idealEnv roomyDrive ownedState)) [0, 0]) 1 shippedDevice (.inr rfl) (by decide)
    (fun o => Prog.bind (tcgClient sampleCtx [.defaultPassword shippedDevice]) (fun r => .done (o :: r))) rfl
  exact ⟨n, v, e, h1, h2 (by decide +kernel)⟩

end Dparm
