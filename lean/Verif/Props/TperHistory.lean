import Verif.Spec.TperHistory
import Verif.Props.SessionsWin
import Verif.Props.SharedDrive
/-!
# C177: any history of operations on a conforming drive
-/
namespace Dparm
open Spec

/-- A program that performs operations one after the other and keeps what they return. -/
def tcgOps (ctx : Ctx) : List TcgOp → TcgM (List TcgDone)
  | [] => OutT.ret []
  | op :: ops => do
    let x ← op.prog ctx
    let xs ← tcgOps ctx ops
    OutT.ret (x :: xs)

section
attribute [local irreducible] Device.revertTPer Device.getDefaultPassword

theorem tcgOp_ledger {dr : Drive} {W : Nat} {env : Prog.Env SecReq SecRep}
    {st : Prog.Trace SecReq SecRep → DriveState} (hc : Conforming dr W env st) (hp : Prompt env)
    (ctx : Ctx) (hf : W < ctx.fuel) (op : TcgOp) (hop : OpOn dr op) (h : Prog.Trace SecReq SecRep) :
    (OutT.run env h (op.prog ctx)).1 = .ret ((st h).ledger.step dr ctx.kdf op).1 ∧
    (st (h ++ (OutT.run env h (op.prog ctx)).2)).ledger = ((st h).ledger.step dr ctx.kdf op).2 := by
  cases op with
  | revert d pw psid adm =>
    obtain ⟨hk, hd, hl⟩ := hop
    have hright : RightPassword dr (st h) ctx.kdf d.serial pw psid ↔ (st h).ledger.opens dr ctx.kdf d.serial pw psid := by
      unfold RightPassword revertCredential Ledger.opens DriveState.ledger
      cases psid <;> simp
    unfold TcgOp.prog
    rw [OutT.run_bind]
    have hm := revert_conforming_counted hc ctx d hk hd hf pw psid adm hl h
    rw [hright] at hm
    rcases hrun : OutT.run env h (d.revertTPer ctx pw psid adm) with ⟨o, t⟩
    rw [hrun] at hm
    simp only at hm
    unfold Ledger.step
    rcases hm with ⟨rfl, hr, hroom, hs⟩ | ⟨rfl, hfull, hs⟩ | ⟨rfl, hroom, hr, h1, h2, h3⟩ | ⟨hsl, -⟩
    · simp only [OutT.run_ret, List.append_nil]
      rw [if_neg (show ¬ dr.maxSessions ≤ (st h).ledger.opened from Nat.not_le.mpr hroom), if_pos hr, hs]
      exact ⟨rfl, rfl⟩
    · simp only [OutT.run_ret, List.append_nil]
      rw [if_pos (show dr.maxSessions ≤ (st h).ledger.opened from hfull), hs]
      exact ⟨rfl, rfl⟩
    · simp only [OutT.run_ret, List.append_nil]
      rw [if_neg (show ¬ dr.maxSessions ≤ (st h).ledger.opened from Nat.not_le.mpr hroom), if_neg hr]
      refine ⟨rfl, ?_⟩
      unfold DriveState.ledger
      rw [h1, h2, h3]
    · exact absurd hsl (not_slow hp)
  | defaultPassword d =>
    obtain ⟨hk, hd⟩ := hop
    unfold TcgOp.prog
    rw [OutT.run_bind]
    rcases hrun : OutT.run env h (d.getDefaultPassword ctx) with ⟨o, t⟩
    obtain ⟨h1, h2, h3, h4⟩ := default_password_conforming hc hp ctx hf d hk hd h o t hrun
    unfold Ledger.step
    by_cases hfull : dr.maxSessions ≤ (st h).sessions.length
    · obtain ⟨rfl, hs⟩ := h4 hfull
      simp only [OutT.run_ret, List.append_nil]
      rw [if_pos (show dr.maxSessions ≤ (st h).ledger.opened from hfull)]
      refine ⟨rfl, ?_⟩
      unfold DriveState.ledger
      rw [h1, h2, hs]
    · obtain ⟨rfl, hs⟩ := h3 (Nat.not_le.mp hfull)
      simp only [OutT.run_ret, List.append_nil]
      rw [if_neg (show ¬ dr.maxSessions ≤ (st h).ledger.opened from hfull)]
      refine ⟨rfl, ?_⟩
      unfold DriveState.ledger
      rw [h1, h2, hs]

/-- **C177.** On a conforming drive where nothing takes longer than 10 s, any sequence of `RevertTPer` and
`GetDefaultPassword` calls, with any passwords, for any devices recognised on it, returns exactly what the ledger says, call by
call, and leaves the drive as the ledger says. -/
theorem history_ledger {dr : Drive} {W : Nat} {env : Prog.Env SecReq SecRep}
    {st : Prog.Trace SecReq SecRep → DriveState} (hc : Conforming dr W env st) (hp : Prompt env)
    (ctx : Ctx) (hf : W < ctx.fuel) (ops : List TcgOp) (hops : ∀ op ∈ ops, OpOn dr op) (h : Prog.Trace SecReq SecRep) :
    (OutT.run env h (tcgOps ctx ops)).1 = .ret ((st h).ledger.steps dr ctx.kdf ops).1 ∧
    (st (h ++ (OutT.run env h (tcgOps ctx ops)).2)).ledger = ((st h).ledger.steps dr ctx.kdf ops).2 := by
  induction ops generalizing h with
  | nil => simp [tcgOps, Ledger.steps, OutT.run_ret]
  | cons op ops ih =>
    obtain ⟨h1, h2⟩ := tcgOp_ledger hc hp ctx hf op (hops op (List.mem_cons_self ..)) h
    rcases hx : OutT.run env h (op.prog ctx) with ⟨o1, t1⟩
    rw [hx] at h1 h2
    simp only at h1 h2
    subst h1
    obtain ⟨i1, i2⟩ := ih (fun x hm => hops x (List.mem_cons_of_mem _ hm)) (h ++ t1)
    rcases hy : OutT.run env (h ++ t1) (tcgOps ctx ops) with ⟨o2, t2⟩
    rw [hy] at i1 i2
    simp only at i1 i2
    subst i1
    rw [tcgOps, OutT.run_bind, hx]
    simp only [OutT.run_bind, hy, OutT.run_ret, List.append_nil]
    rw [← List.append_assoc, i2, h2]
    exact ⟨rfl, rfl⟩

theorem tcgOps_asks (ctx : Ctx) (d : Device) (ops : List TcgOp) (hops : ∀ op ∈ ops, OpFor d op) :
    OutT.Asks (TcgAsk d.baseComId) (tcgOps ctx ops) := by
  induction ops with
  | nil => exact OutT.asks_ret _
  | cons op ops ih =>
    rw [tcgOps]
    refine OutT.asks_bind ?_ fun x => ?_
    · have h0 := hops op (List.mem_cons_self ..)
      cases op with
      | revert d' pw psid adm =>
        obtain ⟨rfl, -⟩ := h0
        exact OutT.asks_bind (revertTPer_asks ctx _ pw psid adm) (fun _ => OutT.asks_ret _)
      | defaultPassword d' =>
        cases h0
        exact OutT.asks_bind (getDefaultPassword_asks ctx _) (fun _ => OutT.asks_ret _)
    · exact OutT.asks_bind (ih (fun y hm => hops y (List.mem_cons_of_mem _ hm))) (fun _ => OutT.asks_ret _)

theorem opFor_on {dr : Drive} {d : Device} (hk : d.kind = .opal1 ∨ d.kind = .opal2) (hd : d.baseComId = dr.comId)
    {ops : List TcgOp} (hops : ∀ op ∈ ops, OpFor d op) : ∀ op ∈ ops, OpOn dr op := by
  intro op hm
  have h0 := hops op hm
  cases op with
  | revert d' pw psid adm =>
    obtain ⟨rfl, h1⟩ := h0
    exact ⟨hk, hd, h1⟩
  | defaultPassword d' =>
    cases h0
    exact ⟨hk, hd⟩

/-- **C177** on Linux, on a drive opened over the NVMe driver or over the SCSI generic driver, at any later time. -/
theorem history_ledger_opened {dr : Drive} {W : Nat} {env : Prog.Env AReq ARep} {st : Prog.Trace AReq ARep → DriveState}
    {o : Opened} (ho : OpenedOn o dr W env st) (hp : PromptSystem env) (ctx : Ctx) (hf : W < ctx.fuel) (ops : List TcgOp)
    (hops : ∀ op ∈ ops, OpFor o.tcgDevice op) (h : Prog.Trace AReq ARep) :
    (OutT.run env h (tcgOnLinux o (tcgOps ctx ops))).1 = .ret ((st h).ledger.steps dr ctx.kdf ops).1 ∧
    (st (h ++ (OutT.run env h (tcgOnLinux o (tcgOps ctx ops))).2)).ledger = ((st h).ledger.steps dr ctx.kdf ops).2 := by
  obtain ⟨hk, hd, -⟩ := opened_runs ho
  exact on_opened ho hp h o.tcgDevice.baseComId _ (tcgOps_asks ctx _ ops hops)
    (fun r σ σ' => r = .ret (σ.ledger.steps dr ctx.kdf ops).1 ∧ σ'.ledger = (σ.ledger.steps dr ctx.kdf ops).2)
    (fun env' st' hc hp' => history_ledger hc hp' ctx hf ops (opFor_on hk hd hops) [])

/-- **C177** on Windows, on a drive opened over the miniport driver, at any later time. -/
theorem history_ledger_opened_win {dr : Drive} {W : Nat} {env : Prog.Env WAReq WARep}
    {st : Prog.Trace WAReq WARep → DriveState} {o : WinOpened} (ho : OpenedOnWin o dr W env st) (hp : PromptWindows env)
    (ctx : Ctx) (hf : W < ctx.fuel) (ops : List TcgOp) (hops : ∀ op ∈ ops, OpFor o.tcgDevice op)
    (h : Prog.Trace WAReq WARep) :
    (OutT.run env h (tcgOnWindows o (tcgOps ctx ops))).1 = .ret ((st h).ledger.steps dr ctx.kdf ops).1 ∧
    (st (h ++ (OutT.run env h (tcgOnWindows o (tcgOps ctx ops))).2)).ledger = ((st h).ledger.steps dr ctx.kdf ops).2 := by
  obtain ⟨hk, hd, -⟩ := opened_win_runs ho
  exact on_opened_win ho hp h o.tcgDevice.baseComId _ (tcgOps_asks ctx _ ops hops)
    (fun r σ σ' => r = .ret (σ.ledger.steps dr ctx.kdf ops).1 ∧ σ'.ledger = (σ.ledger.steps dr ctx.kdf ops).2)
    (fun env' st' hc hp' => history_ledger hc hp' ctx hf ops (opFor_on hk hd hops) [])

/-! ## What follows -/

/-- **C177, the count is right.** In any history, the drive was reverted exactly as often as `RevertTPer` said so. -/
theorem reverts_counted {dr : Drive} {W : Nat} {env : Prog.Env SecReq SecRep}
    {st : Prog.Trace SecReq SecRep → DriveState} (hc : Conforming dr W env st) (hp : Prompt env)
    (ctx : Ctx) (hf : W < ctx.fuel) (ops : List TcgOp) (hops : ∀ op ∈ ops, OpOn dr op) (h : Prog.Trace SecReq SecRep) :
    ∃ rs, (OutT.run env h (tcgOps ctx ops)).1 = .ret rs ∧ rs.length = ops.length ∧
      (st (h ++ (OutT.run env h (tcgOps ctx ops)).2)).reverts = (st h).reverts + rs.count (.reverted none) := by
  obtain ⟨h1, h2⟩ := history_ledger hc hp ctx hf ops hops h
  refine ⟨_, h1, ?_⟩
  have h3 := congrArg Ledger.reverts h2
  rw [show ∀ s : DriveState, s.ledger.reverts = s.reverts from fun _ => rfl] at h3
  rw [h3]
  have : ∀ (ops : List TcgOp) (b : Ledger), (b.steps dr ctx.kdf ops).1.length = ops.length ∧
      (b.steps dr ctx.kdf ops).2.reverts = b.reverts + (b.steps dr ctx.kdf ops).1.count (.reverted none) := by
    intro ops
    induction ops with
    | nil => intro b; simp [Ledger.steps]
    | cons op ops ih =>
      intro b
      obtain ⟨i1, i2⟩ := ih (b.step dr ctx.kdf op).2
      simp only [Ledger.steps, List.length_cons, List.count_cons, i1, i2, true_and]
      have hstep : (b.step dr ctx.kdf op).2.reverts
          = b.reverts + if (b.step dr ctx.kdf op).1 = .reverted none then 1 else 0 := by
        cases op with
        | revert d pw psid adm =>
          by_cases hfull : dr.maxSessions ≤ b.opened
          · simp [Ledger.step, hfull]
          · by_cases hr : b.opens dr ctx.kdf d.serial pw psid
            · simp [Ledger.step, hfull, hr]
            · simp [Ledger.step, hfull, hr]
        | defaultPassword d =>
          by_cases hfull : dr.maxSessions ≤ b.opened
          · simp [Ledger.step, hfull]
          · simp [Ledger.step, hfull]
      rw [hstep]
      simp only [beq_iff_eq]
      omega
  exact this ops (st h).ledger

/-- **C177, factory state holds (limit).** After a successful revert of a drive whose MSID does not have exactly 34 bytes, no
history without the PSID reverts it again: the MSID itself does not, though it is now the SID credential. -/
theorem factory_state_stays {dr : Drive} {W : Nat} {env : Prog.Env SecReq SecRep}
    {st : Prog.Trace SecReq SecRep → DriveState} (hc : Conforming dr W env st) (hp : Prompt env)
    (ctx : Ctx) (hf : W < ctx.fuel) (hm : dr.msid.length ≠ 34)
    (ops : List TcgOp) (hops : ∀ op ∈ ops, OpOn dr op)
    (hno : ∀ d adm, .revert d dr.psid true adm ∉ ops) (h : Prog.Trace SecReq SecRep) (hs : (st h).sid = dr.msid) :
    (st (h ++ (OutT.run env h (tcgOps ctx ops)).2)).sid = dr.msid ∧
    (st (h ++ (OutT.run env h (tcgOps ctx ops)).2)).reverts = (st h).reverts := by
  obtain ⟨-, h2⟩ := history_ledger hc hp ctx hf ops hops h
  have : ∀ (ops : List TcgOp) (b : Ledger), (∀ d adm, .revert d dr.psid true adm ∉ ops) → b.credential = dr.msid →
      (b.steps dr ctx.kdf ops).2.credential = dr.msid ∧ (b.steps dr ctx.kdf ops).2.reverts = b.reverts := by
    intro ops
    induction ops with
    | nil => intro b _ hb; exact ⟨hb, rfl⟩
    | cons op ops ih =>
      intro b hn hb
      have hstep : (b.step dr ctx.kdf op).2.credential = dr.msid ∧ (b.step dr ctx.kdf op).2.reverts = b.reverts := by
        cases op with
        | revert d pw psid adm =>
          have hnot : ¬ b.opens dr ctx.kdf d.serial pw psid := by
            rintro ⟨-, hx⟩
            cases psid with
            | true =>
              simp only [if_true] at hx
              exact hn d adm (by rw [← hx]; exact List.mem_cons_self ..)
            | false =>
              simp only [Bool.false_eq_true, if_false] at hx
              have := congrArg List.length hx
              rw [hb, List.length_append, ctx.kdf.len] at this
              simp at this
              omega
          by_cases hfull : dr.maxSessions ≤ b.opened
          · simp [Ledger.step, hfull, hb]
          · simp [Ledger.step, hfull, hnot, hb]
        | defaultPassword d =>
          by_cases hfull : dr.maxSessions ≤ b.opened
          · simp [Ledger.step, hfull, hb]
          · simp [Ledger.step, hfull, hb]
      obtain ⟨i1, i2⟩ := ih (b.step dr ctx.kdf op).2 (fun d adm hx => hn d adm (List.mem_cons_of_mem _ hx)) hstep.1
      simp only [Ledger.steps]
      exact ⟨i1, i2.trans hstep.2⟩
  obtain ⟨k1, k2⟩ := this ops (st h).ledger hno hs
  rw [← h2] at k1 k2
  exact ⟨k1, k2⟩

end

/-! ## Stopped at any point -/

/-- A preorder that every exchange respects holds between any two moments of a run. -/
theorem Prog.run_between {Q R α S : Type} {A : Q → Prop} {env : Prog.Env Q R} (σ : Prog.Trace Q R → S) (T : S → S → Prop)
    (hrefl : ∀ s, T s s) (htrans : ∀ a b c, T a b → T b c → T a c)
    (hstep : ∀ h q, A q → T (σ h) (σ (h ++ [(q, env h q)]))) (p : Prog Q R α) :
    ∀ (h : Prog.Trace Q R), Prog.Asks A p → ∀ u v, (Prog.run env h p).2 = u ++ v →
      T (σ h) (σ (h ++ u)) ∧ T (σ (h ++ u)) (σ (h ++ (u ++ v))) := by
  induction p with
  | done a =>
    intro h _ u v he
    simp only [Prog.run_done] at he
    obtain ⟨rfl, rfl⟩ := List.append_eq_nil_iff.1 he.symm
    simp only [List.append_nil]
    exact ⟨hrefl _, hrefl _⟩
  | ask q k ih =>
    intro h ⟨ha, hk⟩ u v he
    rw [Prog.run_ask] at he
    have hs := hstep h q ha
    cases u with
    | nil =>
      simp only [List.nil_append] at he
      subst he
      obtain ⟨h1, h2⟩ := ih (env h q) (h ++ [(q, env h q)]) (hk _) [] _ rfl
      simp only [List.append_nil, List.nil_append, List.append_assoc, List.cons_append] at h1 h2 ⊢
      exact ⟨hrefl _, htrans _ _ _ hs h2⟩
    | cons x u =>
      simp only [List.cons_append, List.cons.injEq] at he
      obtain ⟨rfl, he⟩ := he
      obtain ⟨h1, h2⟩ := ih (env h q) (h ++ [(q, env h q)]) (hk _) u v he
      simp only [List.append_assoc, List.cons_append, List.nil_append] at h1 h2 ⊢
      exact ⟨htrans _ _ _ hs h1, h2⟩

theorem Prog.asks_of_safe {Q R S α : Type} {P : Policy Q R S} {B : S → Prop} {A : Q → Prop}
    (hans : ∀ s q r, P.answers s q r) (hA : ∀ s q, P.allowed s q → A q) (p : Prog Q R (Out α)) :
    ∀ (s : S) (K : α → S → Prop), Prog.Safe P B p s K → Prog.Asks A p := by
  induction p with
  | done a => intro _ _ _; trivial
  | ask q k ih => intro s K ⟨_, h1, h2⟩; exact ⟨hA _ _ h1, fun r => ih r _ _ (h2 r (hans _ _ _))⟩

/-- The drive may have been reverted on the way; if it was not, its password is the same. -/
def OnlyByRevert (a b : DriveState) : Prop := a.reverts ≤ b.reverts ∧ (b.reverts = a.reverts → b.sid = a.sid)

section
attribute [local irreducible] Device.revertTPer Device.getDefaultPassword

theorem tcgOp_between {dr : Drive} {W : Nat} {env : Prog.Env SecReq SecRep}
    {st : Prog.Trace SecReq SecRep → DriveState} (hs : SharedDrive dr W env st) (ctx : Ctx) (op : TcgOp) (hop : OpOn dr op)
    (h u v : Prog.Trace SecReq SecRep) (he : (OutT.run env h (op.prog ctx)).2 = u ++ v) :
    OnlyByRevert (st h) (st (h ++ u)) ∧ OnlyByRevert (st (h ++ u)) (st (h ++ (u ++ v))) := by
  have hsafe := op_safe (dr := dr) (C := fun _ => True) ctx op
    (by
      cases op with
      | revert d pw psid adm => exact fun _ => hop.2
      | defaultPassword d => exact fun _ => hop.2)
    (by
      cases op with
      | revert d pw psid adm => exact fun _ => trivial
      | defaultPassword d => trivial) 0
  have hasks : Prog.Asks (LibReq dr (fun _ => True)) (op.prog ctx) :=
    Prog.asks_of_safe (P := revertCredit dr (fun _ => True)) (fun _ _ _ => trivial) (fun _ _ h => h.1) (op.prog ctx) _ _ hsafe
  refine Prog.run_between (A := LibReq dr (fun _ => True)) st OnlyByRevert (fun s => ⟨Nat.le_refl _, fun _ => rfl⟩) ?_ ?_ (op.prog ctx) h hasks u v he
  · rintro a b c ⟨h1, h2⟩ ⟨h3, h4⟩
    exact ⟨Nat.le_trans h1 h3, fun e => (h4 (by omega)).trans (h2 (by omega))⟩
  · intro h q hq
    rcases libReq_state hs h q hq with ⟨x, w, e⟩ | ⟨cred, tper, w, -, e⟩ | ⟨-, -, w, e⟩
    · rw [e]; exact ⟨Nat.le_refl _, fun _ => rfl⟩
    · rw [e]
      obtain ⟨f1, f2⟩ := startSession_frame dr tper (st h) (seenArgs cred)
      exact ⟨Nat.le_of_eq f2.symm, fun _ => f1⟩
    · rw [e]
      exact ⟨Nat.le_succ _, fun x => absurd x (Nat.succ_ne_self _)⟩

/-- **C177, stopped at any point.** If the program is stopped after any exchange of any call (and fetching when nothing waits
leaves the drive alone), credential and number of reverts are what the ledger says after some number of its calls. -/
theorem history_stopped {dr : Drive} {W : Nat} {env : Prog.Env SecReq SecRep}
    {st : Prog.Trace SecReq SecRep → DriveState} (hs : SharedDrive dr W env st) (hp : Prompt env)
    (ctx : Ctx) (hf : W < ctx.fuel) (ops : List TcgOp) (hops : ∀ op ∈ ops, OpOn dr op) (h u v : Prog.Trace SecReq SecRep)
    (he : (OutT.run env h (tcgOps ctx ops)).2 = u ++ v) :
    ∃ k ≤ ops.length, (st (h ++ u)).sid = ((st h).ledger.steps dr ctx.kdf (ops.take k)).2.credential ∧
      (st (h ++ u)).reverts = ((st h).ledger.steps dr ctx.kdf (ops.take k)).2.reverts := by
  induction ops generalizing h u with
  | nil =>
    have hn : (OutT.run env h (tcgOps ctx [])).2 = [] := by rw [tcgOps, OutT.run_ret]
    rw [hn] at he
    obtain ⟨rfl, rfl⟩ := List.append_eq_nil_iff.1 he.symm
    exact ⟨0, Nat.le_refl _, by rw [List.append_nil]; rfl, by rw [List.append_nil]; rfl⟩
  | cons op ops ih =>
    have hop := hops op (List.mem_cons_self ..)
    obtain ⟨h1, h2⟩ := tcgOp_ledger hs.toConforming hp ctx hf op hop h
    rcases hx : OutT.run env h (op.prog ctx) with ⟨o1, t1⟩
    rw [hx] at h1 h2
    simp only at h1 h2
    subst h1
    have htr : (OutT.run env h (tcgOps ctx (op :: ops))).2 = t1 ++ (OutT.run env (h ++ t1) (tcgOps ctx ops)).2 := by
      obtain ⟨i1, -⟩ := history_ledger hs.toConforming hp ctx hf ops (fun x hm => hops x (List.mem_cons_of_mem _ hm)) (h ++ t1)
      rcases hy : OutT.run env (h ++ t1) (tcgOps ctx ops) with ⟨o2, t2⟩
      rw [hy] at i1
      simp only at i1
      subst i1
      rw [tcgOps, OutT.run_bind, hx]
      simp only [OutT.run_bind, hy, OutT.run_ret, List.append_nil]
    rw [htr] at he
    have early : ∀ w, t1 = u ++ w → ∃ k ≤ (op :: ops).length,
        (st (h ++ u)).sid = ((st h).ledger.steps dr ctx.kdf ((op :: ops).take k)).2.credential ∧
        (st (h ++ u)).reverts = ((st h).ledger.steps dr ctx.kdf ((op :: ops).take k)).2.reverts := by
      intro w hw
      obtain ⟨⟨a1, a2⟩, b1, b2⟩ := tcgOp_between hs ctx op hop h u w (by rw [hx]; exact hw)
      rw [← hw] at b1 b2
      have c1 : (st (h ++ t1)).sid = ((st h).ledger.step dr ctx.kdf op).2.credential := congrArg Ledger.credential h2
      have c2 : (st (h ++ t1)).reverts = ((st h).ledger.step dr ctx.kdf op).2.reverts := congrArg Ledger.reverts h2
      have hle : ((st h).ledger.step dr ctx.kdf op).2.reverts ≤ (st h).reverts + 1 := by
        show _ ≤ (st h).ledger.reverts + 1
        cases op with
        | revert d pw psid adm =>
          by_cases hfull : dr.maxSessions ≤ (st h).ledger.opened
          · simp [Ledger.step, hfull]
          · by_cases hr : (st h).ledger.opens dr ctx.kdf d.serial pw psid
            · simp [Ledger.step, hfull, hr]
            · simp [Ledger.step, hfull, hr]
        | defaultPassword d =>
          by_cases hfull : dr.maxSessions ≤ (st h).ledger.opened
          · simp [Ledger.step, hfull]
          · simp [Ledger.step, hfull]
      by_cases hz : (st (h ++ u)).reverts = (st h).reverts
      · exact ⟨0, Nat.zero_le _, a2 hz, hz⟩
      · have hlast : (st (h ++ t1)).reverts = (st (h ++ u)).reverts := by omega
        refine ⟨1, by simp, ?_, ?_⟩
        · rw [← b2 hlast, c1]; rfl
        · rw [← hlast, c2]; rfl
    rcases List.append_eq_append_iff.1 he with ⟨a, h3, h4⟩ | ⟨c, h3, h4⟩
    · subst h3
      obtain ⟨k, k1, k2, k3⟩ := ih (fun x hm => hops x (List.mem_cons_of_mem _ hm)) (h ++ t1) a h4
      refine ⟨k + 1, by simpa using k1, ?_, ?_⟩
      · rw [← List.append_assoc, k2, h2]; rfl
      · rw [← List.append_assoc, k3, h2]; rfl
    · exact early c h3

end

/-! ## These hypotheses can be met -/

/-- The owner of a drive with one session at a time: a wrong PSID, the right password, the MSID read, and after that not even
the PSID is taken; the drive was reverted once. -/
def ownerOps (d : Device) : List TcgOp :=
  [.revert d [0x50, 0x32] true true, .revert d [0x70, 0x77] false true, .defaultPassword d, .revert d [0x50, 0x31] true true]

/-- An owner who gives no password loses the session, so that the right password no longer helps. -/
def carelessOps (d : Device) : List TcgOp := [.revert d [] false true, .revert d [0x70, 0x77] false true]

example : (OutT.run (idealEnv shippedDrive ownedState) [] (tcgOps sampleCtx (ownerOps shippedDevice))).1
    = .ret [.reverted (some (.tcg 1)), .reverted none, .password [0x4d, 0x31] none, .reverted (some (.tcg 7))] ∧
    (idealState shippedDrive ownedState (OutT.run (idealEnv shippedDrive ownedState) []
      (tcgOps sampleCtx (ownerOps shippedDevice))).2).ledger = ⟨[0x4d, 0x31], 1, 1⟩ :=
  history_ledger (shipped_conforming ownedState rfl rfl) (ideal_prompt _ _) sampleCtx (by decide) (ownerOps shippedDevice)
    (by
      intro op hm
      simp only [ownerOps, List.mem_cons, List.not_mem_nil, or_false] at hm
      rcases hm with rfl | rfl | rfl | rfl
      · exact ⟨.inr rfl, rfl, fun _ => by decide⟩
      · exact ⟨.inr rfl, rfl, fun x => by cases x⟩
      · exact ⟨.inr rfl, rfl⟩
      · exact ⟨.inr rfl, rfl, fun _ => by decide⟩) []

theorem carelessOps_for (d : Device) : ∀ op ∈ carelessOps d, OpFor d op := by
  intro op hm
  simp only [carelessOps, List.mem_cons, List.not_mem_nil, or_false] at hm
  rcases hm with rfl | rfl <;> exact ⟨rfl, fun x => by cases x⟩

example : ∃ o t, OutT.run (idealNvme 3 shippedDrive ownedState) [] (tcgOnLinux o (tcgOps sampleCtx (carelessOps o.tcgDevice)))
      = (.ret [.reverted (some (.tcg 1)), .reverted (some (.tcg 7))], t) ∧
    (idealNvmeState 3 shippedDrive ownedState t).ledger = ⟨ownedState.sid, 1, 0⟩ := by
  obtain ⟨o, ho⟩ := opened_nvme_sample
  obtain ⟨h1, h2⟩ := history_ledger_opened ho (idealNvme_prompt 3 shippedDrive ownedState) sampleCtx (by decide)
    (carelessOps o.tcgDevice) (carelessOps_for _) []
  exact ⟨o, _, Prod.ext h1 rfl, h2⟩

example : ∃ o t, OutT.run (idealWin 9 shippedDrive ownedState) [] (tcgOnWindows o (tcgOps sampleCtx (carelessOps o.tcgDevice)))
      = (.ret [.reverted (some (.tcg 1)), .reverted (some (.tcg 7))], t) ∧
    (idealWinState 9 shippedDrive ownedState t).ledger = ⟨ownedState.sid, 1, 0⟩ := by
  obtain ⟨o, ho⟩ := opened_win_sample
  obtain ⟨h1, h2⟩ := history_ledger_opened_win ho (idealWin_prompt 9 shippedDrive ownedState) sampleCtx (by decide)
    (carelessOps o.tcgDevice) (carelessOps_for _) []
  exact ⟨o, _, Prod.ext h1 rfl, h2⟩

/-- Both consequences apply: one revert reported and done; and in factory state the MSID reverts nothing. -/
example : ∃ rs, (OutT.run (idealEnv shippedDrive ownedState) [] (tcgOps sampleCtx
    [.revert shippedDevice [0x70, 0x77] false true])).1 = .ret rs ∧ rs.length = 1 ∧
    (idealState shippedDrive ownedState (OutT.run (idealEnv shippedDrive ownedState) [] (tcgOps sampleCtx
      [.revert shippedDevice [0x70, 0x77] false true])).2).reverts = 0 + rs.count (.reverted none) :=
  reverts_counted (shipped_conforming ownedState rfl rfl) (ideal_prompt _ _) sampleCtx (by decide) _
    (by
      intro op hm
      cases List.mem_singleton.1 hm
      exact ⟨.inr rfl, rfl, fun x => by cases x⟩) []
example : (idealState shippedDrive factoryState ([] ++ (OutT.run (idealEnv shippedDrive factoryState) [] (tcgOps sampleCtx
    [.revert shippedDevice [0x4d, 0x31] false true])).2)).reverts = 0 := by
  have h0 : (idealState shippedDrive factoryState []) = factoryState := rfl
  have h := factory_state_stays (shipped_conforming factoryState rfl rfl) (ideal_prompt _ _) sampleCtx (by decide) (by decide)
    [.revert shippedDevice [0x4d, 0x31] false true]
    (by
      intro op hm
      cases List.mem_singleton.1 hm
      exact ⟨.inr rfl, rfl, fun x => by cases x⟩) (by intro d adm hm; simp at hm) [] (by rw [h0]; rfl)
  rw [h0] at h
  exact h.2

/-- The owner's program stopped after any exchange: the drive has its old password, or its MSID and was
reverted once (by the password) or twice (then by the PSID: this drive has three sessions). -/
example (u v : Prog.Trace SecReq SecRep) (he : (OutT.run (idealEnv roomyDrive ownedState) []
      (tcgOps sampleCtx (ownerOps shippedDevice))).2 = u ++ v) :
    ((idealState roomyDrive ownedState ([] ++ u)).sid, (idealState roomyDrive ownedState ([] ++ u)).reverts)
      ∈ [(ownedState.sid, 0), ([0x4d, 0x31], 1), ([0x4d, 0x31], 2)] := by
  obtain ⟨k, hk, g, h⟩ := history_stopped roomy_shared (ideal_prompt _ _) sampleCtx (by decide) (ownerOps shippedDevice)
    (by
      intro op hm
      simp only [ownerOps, List.mem_cons, List.not_mem_nil, or_false] at hm
      rcases hm with rfl | rfl | rfl | rfl
      · exact ⟨.inr rfl, rfl, fun _ => by decide⟩
      · exact ⟨.inr rfl, rfl, fun x => by cases x⟩
      · exact ⟨.inr rfl, rfl⟩
      · exact ⟨.inr rfl, rfl, fun _ => by decide⟩) [] u v he
  rw [g, h]
  have h0 : (idealState roomyDrive ownedState []) = ownedState := rfl
  rw [h0]
  have hk' : k ≤ 4 := hk
  have : ∀ k ≤ 4, ((ownedState.ledger.steps roomyDrive sampleCtx.kdf ((ownerOps shippedDevice).take k)).2.credential,
      (ownedState.ledger.steps roomyDrive sampleCtx.kdf ((ownerOps shippedDevice).take k)).2.reverts)
      ∈ [(ownedState.sid, 0), ([0x4d, 0x31], 1), ([0x4d, 0x31], 2)] := by
    intro k hk
    rcases (show k = 0 ∨ k = 1 ∨ k = 2 ∨ k = 3 ∨ k = 4 by omega) with rfl | rfl | rfl | rfl | rfl <;> decide +kernel
  exact this k hk'

end Dparm
