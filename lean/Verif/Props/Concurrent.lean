import Verif.Spec.Concurrent
import Verif.Lemmas.Concurrent
import Verif.Props.Client
import Verif.Props.WinClient
/-!
# C146-C148: several clients at once
-/
namespace Dparm
open Spec

theorem clientProg_run (order : List (Bytes × Bytes) → List (Bytes × Bytes)) (ctx : Ctx) (env : Prog.Env AReq ARep)
    (calls : List LinuxCall) : ∀ (st : Held) (h : Prog.Trace AReq ARep),
    Prog.run env h (clientProg order ctx calls st) =
      (((clientRun order ctx env calls st h).held, (clientRun order ctx env calls st h).reports),
        (clientRun order ctx env calls st h).trace) := by
  induction calls with
  | nil => intro st h; rfl
  | cons c cs ih =>
    intro st h
    unfold clientProg
    refine (Prog.run_bind env h (c.prog order ctx st) _).trans ?_
    unfold clientRun OutT.run
    rcases hr : Prog.run env h (c.prog order ctx st) with ⟨o, t⟩
    dsimp only
    rw [show Prog.run env (h ++ t) (Prog.bind (clientProg order ctx cs (st.afterCall o).1)
      (fun r => .done (r.1, (st.afterCall o).2 :: r.2))) = _ from Prog.run_bind env (h ++ t) _ _, ih]
    simp

theorem winClientProg_run (conv : Wide → Bytes) (ctx : Ctx) (env : Prog.Env WAReq WARep)
    (calls : List WinClientCall) : ∀ (st : WinHeld) (h : Prog.Trace WAReq WARep),
    Prog.run env h (winClientProg conv ctx calls st) =
      (((winClientRun conv ctx env calls st h).held, (winClientRun conv ctx env calls st h).reports),
        (winClientRun conv ctx env calls st h).trace) := by
  induction calls with
  | nil => intro st h; rfl
  | cons c cs ih =>
    intro st h
    unfold winClientProg
    refine (Prog.run_bind env h (c.prog conv ctx st) _).trans ?_
    unfold winClientRun OutT.run
    rcases hr : Prog.run env h (c.prog conv ctx st) with ⟨o, t⟩
    dsimp only
    rw [show Prog.run env (h ++ t) (Prog.bind (winClientProg conv ctx cs (st.afterCall o).1)
      (fun r => .done (r.1, (st.afterCall o).2 :: r.2))) = _ from Prog.run_bind env (h ++ t) _ _, ih]
    simp

theorem clientProg_allowed (order : List (Bytes × Bytes) → List (Bytes × Bytes)) (ctx : Ctx) (calls : List LinuxCall) :
    ∀ (st : Held) (L : List Nat), HeldInv st L → Prog.Allowed fdsA (clientProg order ctx calls st) L := by
  induction calls with
  | nil => intro st L _; trivial
  | cons c cs ih =>
    intro st L h
    have hb : ∀ L', callB c L L' → HeldInv st L' := by
      intro L' hb
      unfold callB at hb
      split at hb
      · exact h.still hb
      · rw [hb]; exact h
    unfold clientProg
    exact Prog.allowed_bind (fun a L' ha => Prog.allowed_map (ih _ L' ha.1))
      (fun L' hL' => ⟨Prog.allowed_map (ih _ L' (hb L' hL')), Prog.allowed_map (ih _ L' (hb L' hL'))⟩)
      (call_safe order ctx c st L h)

theorem winClientProg_allowed (conv : Wide → Bytes) (ctx : Ctx) (calls : List WinClientCall) :
    ∀ (st : WinHeld) (L : List WinRes), WinHeldInv st L → Prog.Allowed resA (winClientProg conv ctx calls st) L := by
  induction calls with
  | nil => intro st L _; trivial
  | cons c cs ih =>
    intro st L h
    have hb : ∀ L', winCallB c L L' → WinHeldInv st L' := by
      intro L' hb
      unfold winCallB at hb
      split at hb
      · exact h.still hb
      · rw [hb]; exact h
    unfold winClientProg
    exact Prog.allowed_bind (fun a L' ha => Prog.allowed_map (ih _ L' ha.1))
      (fun L' hL' => ⟨Prog.allowed_map (ih _ L' (hb L' hL')), Prog.allowed_map (ih _ L' (hb L' hL'))⟩)
      (win_call_safe conv ctx c st L h)

/-- The descriptor an exchange closes. -/
def endsFd : AReq → Option Nat
  | .sys (.os (.closeFd fd)) => some fd
  | _ => none

/-- The descriptor an exchange obtains. -/
def givesFd (q : AReq) (r : ARep) : Option Nat := match q with
  | .sys (.os (.openDev _)) => if r.sys.os.err = none then some r.sys.os.fd else none
  | _ => none

theorem fdsA_lends : Lends fdsA usesFd endsFd givesFd where
  allowed := fun h => h
  answers := by
    intro s q r h path hq he
    subst hq
    exact h _ (by simp [givesFd, he])
  ended := by
    intro s q r x h
    unfold endsFd at h
    split at h
    · cases h; rfl
    · cases h
  given := by
    intro s q r x _ h
    unfold givesFd at h
    split at h
    · rename_i path _
      show fdsAfter s (.sys (.os (.openDev path)), r) = x :: s
      unfold fdsAfter
      dsimp only
      split at h
      · rename_i he
        rw [if_pos he]
        cases h
        rfl
      · cases h
    · cases h
  same := by
    intro s q r he hg
    show fdsAfter s (q, r) = s
    unfold fdsAfter
    split
    · rename_i heq
      cases heq
      unfold givesFd at hg
      dsimp only at hg ⊢
      split at hg
      · cases hg
      · rename_i hne; rw [if_neg hne]
    · rename_i heq
      cases heq
      cases he
    · rfl
  ends_uses := by
    intro q x h
    unfold endsFd at h
    split at h
    · cases h; rfl
    · cases h

/-- The same for Windows. -/
def usesRes : WAReq → Option WinRes
  | .sys q => winUses q
  | _ => none
def endsRes : WAReq → Option WinRes
  | .sys q => winEnds q
  | _ => none
def givesRes (q : WAReq) (r : WARep) : Option WinRes := match q with
  | .sys q => winGives q r.sys
  | _ => none

theorem resA_lends : Lends resA usesRes endsRes givesRes where
  allowed := by
    intro s q h x hx
    cases q with
    | sys q => exact h q rfl x hx
    | now => cases hx
    | sleep => cases hx
    | _ => cases hx
  answers := by
    intro s q r h q' hq x hx
    subst hq
    exact h x hx
  ended := by
    intro s q r x h
    cases q with
    | sys q =>
      show resNext s q r.sys = _
      unfold resNext
      rw [show winEnds q = some x from h]
    | _ => cases h
  given := by
    intro s q r x he h
    cases q with
    | sys q =>
      show resNext s q r.sys = _
      unfold resNext
      rw [show winEnds q = none from he, show winGives q r.sys = some x from h]
    | _ => cases h
  same := by
    intro s q r he h
    cases q with
    | sys q =>
      show resNext s q r.sys = _
      unfold resNext
      rw [show winEnds q = none from he, show winGives q r.sys = none from h]
    | _ => rfl
  ends_uses := by
    intro q x h
    cases q with
    | sys q =>
      show winUses q = some x
      cases q <;> first | exact h | cases h
    | _ => cases h

theorem sysFresh_for {env : SysEnv AReq ARep} (hf : SysFreshFds env) : FreshFor fdsA givesFd env := by
  intro t i q x hx
  unfold givesFd at hx
  split at hx
  · rename_i path
    split at hx
    · rename_i he
      cases hx
      exact hf t i path he
    · cases hx
  · cases hx

theorem sysFreshHandles_for {env : SysEnv WAReq WARep} (hf : SysFreshHandles env) : FreshFor resA givesRes env := by
  intro t i q x hx
  cases q with
  | sys q => exact hf t i q x hx
  | _ => cases hx

theorem clients_inv (order : List (Bytes × Bytes) → List (Bytes × Bytes)) (ctx : Ctx) {env : SysEnv AReq ARep}
    (hf : SysFreshFds env) (calls : List (List LinuxCall)) (sched : List Nat) :
    PoolInv fdsA usesFd givesFd (clients order ctx calls) ((clients order ctx calls).run env sched) := by
  refine poolInv_run fdsA_lends (sysFresh_for hf) sched _ (poolInv_start rfl ?_)
  intro p hp
  obtain ⟨cs, _, rfl⟩ := List.mem_map.1 hp
  exact clientProg_allowed order ctx cs [] [] (heldInv_nil _)

theorem winClients_inv (conv : Wide → Bytes) (ctx : Ctx) {env : SysEnv WAReq WARep} (hf : SysFreshHandles env)
    (calls : List (List WinClientCall)) (sched : List Nat) :
    PoolInv resA usesRes givesRes (winClients conv ctx calls) ((winClients conv ctx calls).run env sched) := by
  refine poolInv_run resA_lends (sysFreshHandles_for hf) sched _ (poolInv_start rfl ?_)
  intro p hp
  obtain ⟨cs, _, rfl⟩ := List.mem_map.1 hp
  exact winClientProg_allowed conv ctx cs [] [] (winHeldInv_nil _)

/-- **C146.** Clients that run at the same time, each with its own handles, under any schedule: a system call that works on
a descriptor or closes it works on one that the same client has opened and not closed, and that no other client has. -/
theorem concurrent_own_descriptors (order : List (Bytes × Bytes) → List (Bytes × Bytes)) (ctx : Ctx) (env : SysEnv AReq ARep)
    (hf : SysFreshFds env) (calls : List (List LinuxCall)) (sched : List Nat) (t₁ t₂ : Tagged AReq ARep) (i : Nat) (q : AReq)
    (r : ARep) (ht : ((clients order ctx calls).run env sched).trace = t₁ ++ (i, q, r) :: t₂) (fd : Nat)
    (hx : usesFd q = some fd) :
    fd ∈ openFds (t₁.of i) ∧ (∀ j, j ≠ i → fd ∉ openFds (t₁.of j)) ∧ fd ∈ openFds t₁.whole := by
  have h := (clients_inv order ctx hf calls sched).ok t₁ i q r t₂ ht
  exact ⟨h.mine fd hx, h.others fd hx, h.isOpen fd hx⟩

/-- **C146.** The same on Windows: devices, volumes, device lists and searches. -/
theorem win_concurrent_own_handles (conv : Wide → Bytes) (ctx : Ctx) (env : SysEnv WAReq WARep)
    (hf : SysFreshHandles env) (calls : List (List WinClientCall)) (sched : List Nat) (t₁ t₂ : Tagged WAReq WARep) (i : Nat)
    (q : WReq) (r : WARep) (ht : ((winClients conv ctx calls).run env sched).trace = t₁ ++ (i, .sys q, r) :: t₂) (x : WinRes)
    (hx : winUses q = some x) :
    x ∈ openRes (t₁.of i) ∧ (∀ j, j ≠ i → x ∉ openRes (t₁.of j)) ∧ x ∈ openRes t₁.whole := by
  have h := (winClients_inv conv ctx hf calls sched).ok t₁ i (.sys q) r t₂ ht
  exact ⟨h.mine x hx, h.others x hx, h.isOpen x hx⟩

/-- **C147.** Running at the same time as others changes nothing for a client: there is a system on which the client, running
alone, makes the system calls it made here and gets the answers it got here, and if it has ended here, then with the same
result. The system hands out only descriptors that are not open, so everything proved about one client holds here. -/
theorem concurrent_as_alone (order : List (Bytes × Bytes) → List (Bytes × Bytes)) (ctx : Ctx) (env : SysEnv AReq ARep)
    (hf : SysFreshFds env) (calls : List (List LinuxCall)) (sched : List Nat) (i : Nat) (cs : List LinuxCall)
    (hi : calls[i]? = some cs) :
    let s := (clients order ctx calls).run env sched
    ∃ alone, FreshFds alone ∧ s.trace.of i <+: (clientRun order ctx alone cs [] []).trace ∧
      ∀ res, s.Ended i res →
        clientRun order ctx alone cs [] [] = { held := res.1, reports := res.2, trace := s.trace.of i } := by
  intro s
  have h := clients_inv order ctx hf calls sched
  obtain ⟨p', h1, h2⟩ := h.follows i (clientProg order ctx cs []) (by simp [clients, hi])
  refine ⟨replay (s.trace.of i) (fun _ => { sys := { os := { err := some (.errno 2) } } }), ?_, ?_, ?_⟩
  · intro hist path herr
    rcases replay_cases (s.trace.of i) (fun _ => { sys := { os := { err := some (.errno 2) } } }) hist
      (.sys (.os (.openDev path))) with hc | ⟨rest, hc⟩
    · rw [hc] at herr; cases herr
    · refine h.own_fresh i hc ?_
      unfold givesFd
      dsimp only
      rw [if_pos herr]
  · have := Prog.Follows.run (env := replay (s.trace.of i) (fun _ => { sys := { os := { err := some (.errno 2) } } })) [] h2
      (replay_replays _ _)
    rw [clientProg_run] at this
    exact ⟨_, (congrArg Prod.snd this).symm⟩
  · intro res hres
    have := Prog.Follows.run (env := replay (s.trace.of i) (fun _ => { sys := { os := { err := some (.errno 2) } } })) [] h2
      (replay_replays _ _)
    rw [clientProg_run] at this
    have hp : p' = .done res := by
      have : some p' = some (.done res) := h1.symm.trans hres
      exact Option.some.inj this
    rw [hp, Prog.run_done, List.append_nil] at this
    generalize clientRun order ctx _ cs [] [] = z at this
    obtain ⟨a, b, c⟩ := z
    simp only [Prod.mk.injEq] at this
    obtain ⟨rfl, rfl⟩ := this
    rfl

/-- **C147.** The same on Windows. -/
theorem win_concurrent_as_alone (conv : Wide → Bytes) (ctx : Ctx) (env : SysEnv WAReq WARep) (hf : SysFreshHandles env)
    (calls : List (List WinClientCall)) (sched : List Nat) (i : Nat) (cs : List WinClientCall) (hi : calls[i]? = some cs) :
    let s := (winClients conv ctx calls).run env sched
    ∃ alone, FreshHandles alone ∧ s.trace.of i <+: (winClientRun conv ctx alone cs [] []).trace ∧
      ∀ res, s.Ended i res →
        winClientRun conv ctx alone cs [] [] = { held := res.1, reports := res.2, trace := s.trace.of i } := by
  intro s
  have h := winClients_inv conv ctx hf calls sched
  obtain ⟨p', h1, h2⟩ := h.follows i (winClientProg conv ctx cs []) (by simp [winClients, hi])
  refine ⟨replay (s.trace.of i) (fun _ => { sys := { err := some (.errno 2) } }), ?_, ?_, ?_⟩
  · intro hist q x hx
    rcases replay_cases (s.trace.of i) (fun _ => { sys := { err := some (.errno 2) } }) hist (.sys q) with hc | ⟨rest, hc⟩
    · rw [hc] at hx
      simp [winGives] at hx
    · exact h.own_fresh i hc hx
  · have := Prog.Follows.run (env := replay (s.trace.of i) (fun _ => { sys := { err := some (.errno 2) } })) [] h2
      (replay_replays _ _)
    rw [winClientProg_run] at this
    exact ⟨_, (congrArg Prod.snd this).symm⟩
  · intro res hres
    have := Prog.Follows.run (env := replay (s.trace.of i) (fun _ => { sys := { err := some (.errno 2) } })) [] h2
      (replay_replays _ _)
    rw [winClientProg_run] at this
    have hp : p' = .done res := by
      have : some p' = some (.done res) := h1.symm.trans hres
      exact Option.some.inj this
    rw [hp, Prog.run_done, List.append_nil] at this
    generalize winClientRun conv ctx _ cs [] [] = z at this
    obtain ⟨a, b, c⟩ := z
    simp only [Prod.mk.injEq] at this
    obtain ⟨rfl, rfl⟩ := this
    rfl

/-- **C148.** What stays open when all clients have ended and every call that opens drives went well: the descriptors of the
handles the clients hold, each of one client only. -/
theorem concurrent_leak_free (order : List (Bytes × Bytes) → List (Bytes × Bytes)) (ctx : Ctx) (env : SysEnv AReq ARep)
    (hf : SysFreshFds env) (calls : List (List LinuxCall)) (sched : List Nat) (res : Nat → Held × List (Out (List Opened)))
    (he : ∀ (i : Nat) cs, calls[i]? = some cs → ((clients order ctx calls).run env sched).Ended i (res i))
    (hw : ∀ (i : Nat) cs, calls[i]? = some cs → ∀ x ∈ cs.zip (res i).2, WentWell x.1 x.2) (fd : Nat) :
    (fd ∈ openFds ((clients order ctx calls).run env sched).trace.whole ↔
      ∃ i < calls.length, ∃ o ∈ (res i).1, HoldsFd o fd) ∧
    (∀ i < calls.length, ∀ j < calls.length, ∀ o ∈ (res i).1, ∀ o' ∈ (res j).1, HoldsFd o fd → HoldsFd o' fd → i = j) := by
  have h := clients_inv order ctx hf calls sched
  have hown : ∀ i < calls.length, (fd ∈ openFds (((clients order ctx calls).run env sched).trace.of i) ↔
      ∃ o ∈ (res i).1, HoldsFd o fd) := by
    intro i hi
    have hcs : calls[i]? = some calls[i] := List.getElem?_eq_getElem hi
    obtain ⟨alone, h1, _, h2⟩ := concurrent_as_alone order ctx env hf calls sched i _ hcs
    have h3 := h2 (res i) (he i _ hcs)
    have := leak_free order ctx alone h1 calls[i] (by rw [h3]; exact hw i _ hcs) fd
    rw [h3] at this
    exact this
  have hnone : ∀ i, calls.length ≤ i → ((clients order ctx calls).run env sched).trace.of i = [] := fun i hi =>
    pool_of_none (s := clients order ctx calls) rfl sched (by simpa [clients] using hi)
  refine ⟨?_, ?_⟩
  · refine (h.all fd).trans ?_
    constructor
    · rintro ⟨i, hi⟩
      by_cases hlt : i < calls.length
      · exact ⟨i, hlt, (hown i hlt).1 hi⟩
      · rw [hnone i (by omega)] at hi
        cases hi
    · rintro ⟨i, hlt, ho⟩
      exact ⟨i, (hown i hlt).2 ho⟩
  · intro i hi j hj o ho o' ho' hh hh'
    by_cases hij : i = j
    · exact hij
    · exact absurd ((hown j hj).2 ⟨o', ho', hh'⟩) (h.disj i j fd hij ((hown i hi).2 ⟨o, ho, hh⟩))

/-- **C148.** The same on Windows. -/
theorem win_concurrent_leak_free (conv : Wide → Bytes) (ctx : Ctx) (env : SysEnv WAReq WARep)
    (hf : SysFreshHandles env) (calls : List (List WinClientCall)) (sched : List Nat)
    (res : Nat → WinHeld × List (Out (List WinOpened)))
    (he : ∀ (i : Nat) cs, calls[i]? = some cs → ((winClients conv ctx calls).run env sched).Ended i (res i))
    (hw : ∀ (i : Nat) cs, calls[i]? = some cs → ∀ x ∈ cs.zip (res i).2, WinWentWell x.1 x.2) (x : WinRes) :
    (x ∈ openRes ((winClients conv ctx calls).run env sched).trace.whole ↔
      ∃ i < calls.length, ∃ o ∈ (res i).1, HoldsRes o x) ∧
    (∀ i < calls.length, ∀ j < calls.length, ∀ o ∈ (res i).1, ∀ o' ∈ (res j).1, HoldsRes o x → HoldsRes o' x → i = j) := by
  have h := winClients_inv conv ctx hf calls sched
  have hown : ∀ i < calls.length, (x ∈ openRes (((winClients conv ctx calls).run env sched).trace.of i) ↔
      ∃ o ∈ (res i).1, HoldsRes o x) := by
    intro i hi
    have hcs : calls[i]? = some calls[i] := List.getElem?_eq_getElem hi
    obtain ⟨alone, h1, _, h2⟩ := win_concurrent_as_alone conv ctx env hf calls sched i _ hcs
    have h3 := h2 (res i) (he i _ hcs)
    have := win_leak_free conv ctx alone h1 calls[i] (by rw [h3]; exact hw i _ hcs) x
    rw [h3] at this
    exact this
  have hnone : ∀ i, calls.length ≤ i → ((winClients conv ctx calls).run env sched).trace.of i = [] := fun i hi =>
    pool_of_none (s := winClients conv ctx calls) rfl sched (by simpa [winClients] using hi)
  refine ⟨?_, ?_⟩
  · refine (h.all x).trans ?_
    constructor
    · rintro ⟨i, hi⟩
      by_cases hlt : i < calls.length
      · exact ⟨i, hlt, (hown i hlt).1 hi⟩
      · rw [hnone i (by omega)] at hi
        cases hi
    · rintro ⟨i, hlt, ho⟩
      exact ⟨i, (hown i hlt).2 ho⟩
  · intro i hi j hj o ho o' ho' hh hh'
    by_cases hij : i = j
    · exact hij
    · exact absurd ((hown j hj).2 ⟨o', ho', hh'⟩) (h.disj i j x hij ((hown i hi).2 ⟨o, ho, hh⟩))

/-! ### Samples -/

/-- The result of a goroutine that has ended. -/
def Prog.result {Q R α : Type} : Prog Q R α → Option α
  | .done a => some a
  | .ask _ _ => none

/-- What it holds then. -/
def Prog.holds {Q R α β : Type} (p : Prog Q R (List α × β)) : List α := ((Prog.result p).map Prod.fst).getD []

/-- The sample system of Props/Client.lean, which does not care who asks. -/
def sampleSys : SysEnv AReq ARep := fun t _ q => sampleClient t.whole q

theorem sampleSys_fresh : SysFreshFds sampleSys := fun t _ path => sampleClient_fresh t.whole path

/-- Three clients: one opens, closes twice and opens again, one opens and asks, one enumerates. -/
def sampleThree : List (List LinuxCall) :=
  [[.openPath (ascii "/dev/sda"), .close 0, .close 0, .openPath (ascii "/dev/sda")],
    [.openPath (ascii "/dev/sda"), .driverName 0, .security 0 false false 1 1 (zeros 512) 3], [.enumDrives, .drivingType 0]]

/-- They take turns. -/
def takeTurns (n k : Nat) : List Nat := (List.range k).map (· % n)

set_option maxRecDepth 20000 in
/-- All end; two handles stay open, on two descriptors. -/
example :
    let s := (clients id sampleCtx sampleThree).run sampleSys (takeTurns 3 200)
    s.threads.map (fun p => p.result.isSome) = [true, true, true] ∧
    s.threads.map (fun p => p.holds.map (fun o => (o.handle.dh.isSome, o.source))) =
      [[(false, some (1, 3)), (true, some (1, 21))], [(true, some (1, 6))], []] ∧
    openFds s.trace.whole = [21, 6] := by
  decide +kernel

/-- The hypotheses of `concurrent_leak_free` hold of that run. -/
def sampleResults (i : Nat) : Held × List (Out (List Opened)) :=
  (((clients id sampleCtx sampleThree).run sampleSys (takeTurns 3 200)).threads[i]?.bind Prog.result).getD ([], [])

example : (∀ (i : Nat) cs, sampleThree[i]? = some cs →
      ((clients id sampleCtx sampleThree).run sampleSys (takeTurns 3 200)).Ended i (sampleResults i)) ∧
    (∀ (i : Nat) cs, sampleThree[i]? = some cs → ∀ x ∈ cs.zip (sampleResults i).2, WentWell x.1 x.2) := by
  have key : ∀ i < 3, (((clients id sampleCtx sampleThree).run sampleSys (takeTurns 3 200)).threads[i]?.bind Prog.result).isSome ∧
      ∀ x ∈ (sampleThree[i]?.getD []).zip (sampleResults i).2, WentWell x.1 x.2 := by decide +kernel
  have hi : ∀ (i : Nat) cs, sampleThree[i]? = some cs → i < 3 := fun i cs h => (List.getElem?_eq_some_iff.1 h).1
  refine ⟨fun i cs h => ?_, fun i cs h => ?_⟩
  · have h1 := (key i (hi i cs h)).1
    unfold Pool.Ended sampleResults
    generalize ((clients id sampleCtx sampleThree).run sampleSys (takeTurns 3 200)).threads[i]? = z at h1 ⊢
    cases z with
    | none => cases h1
    | some p => cases p with
      | done a => rfl
      | ask q k => cases h1
  · have := (key i (hi i cs h)).2
    rw [h] at this
    exact this

/-- Windows: the same system for everybody. -/
def sampleWinSys : SysEnv WAReq WARep := fun t _ q => sampleWinClient t.whole q

theorem sampleWinSys_fresh : SysFreshHandles sampleWinSys := fun t _ q x => sampleWinClient_fresh t.whole q x

set_option maxRecDepth 20000 in
example :
    let s := (winClients sampleConv sampleCtx [[.openPath sampleRun [0x41#8], .enumVolumes (fun _ => 0) 5, .close sampleRun 0],
      [.openPath sampleRun [0x41#8], .driverName 0], [.enumDrives sampleRun 9]]).run sampleWinSys (takeTurns 3 200)
    s.threads.map (fun p => p.result.isSome) = [true, true, true] ∧
    s.threads.map (fun p => p.holds.map (fun o => (o.handle.dh.isSome, o.drv))) =
      [[(false, some (.scsi 1))], [(true, some (.scsi 2))], []] ∧
    openRes s.trace.whole = [.file 64, .file 2] := by
  decide +kernel

end Dparm
