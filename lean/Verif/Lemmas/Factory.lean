import Verif.Lemmas.Asks
import Verif.Spec.Factory
import Verif.Lemmas.Handle
/-!
# Lemmas about the drive factory
-/
namespace Dparm

/-- Shifting the first exchange of the history into the environment. -/
theorem Prog.run_shift {Q R α : Type} (env : Prog.Env Q R) (x : Q × R) (p : Prog Q R α) (hist : Prog.Trace Q R) :
    Prog.run env (x :: hist) p = Prog.run (fun h q => env (x :: h) q) hist p := by
  induction p generalizing hist with
  | done a => rfl
  | ask q k ih =>
    rw [Prog.run_ask, Prog.run_ask]
    have := ih (env (x :: hist) q) (hist ++ [(q, env (x :: hist) q)])
    rw [List.cons_append, this]

/-- Calls through `onDriver` are calls to that driver only; as seen by the handle they are a run of the handle's program. -/
theorem onDriver_run {α : Type} (i fd : Nat) (p : DrvM α) (env : Prog.Env FReq FRep) (hist : Prog.Trace FReq FRep) :
    ∃ env' : Prog.Env DrvReq DrvRep,
      (OutT.run env hist (onDriver i fd p)).1 = (OutT.run env' [] p).1 ∧
      callsTo i (OutT.run env hist (onDriver i fd p)).2 = (OutT.run env' [] p).2 := by
  have main : ∀ (p : Prog DrvReq DrvRep (Out α)) (hist : Prog.Trace FReq FRep),
      ∃ env' : Prog.Env DrvReq DrvRep,
      (OutT.run env hist (onDriver i fd p)).1 = (Prog.run env' [] p).1 ∧
      callsTo i (OutT.run env hist (onDriver i fd p)).2 = (Prog.run env' [] p).2 := by
    intro p
    induction p with
    | done a => intro hist; exact ⟨fun _ _ => {}, rfl, rfl⟩
    | ask q k ih =>
      intro hist
      obtain ⟨r, hr⟩ : ∃ r, r = env hist (.drv i fd q) := ⟨_, rfl⟩
      obtain ⟨env', h1, h2⟩ := ih r.drv (hist ++ [(.drv i fd q, r)])
      refine ⟨fun h q' => match h with
        | [] => r.drv
        | _ :: t => env' t q', ?_⟩
      have hrun : OutT.run env hist (onDriver (α := α) i fd (Prog.ask q k)) =
          ((OutT.run env (hist ++ [(.drv i fd q, r)]) (onDriver (α := α) i fd (k r.drv))).1,
           (.drv i fd q, r) :: (OutT.run env (hist ++ [(.drv i fd q, r)]) (onDriver (α := α) i fd (k r.drv))).2) := by
        subst hr; rfl
      rw [hrun, Prog.run_ask]
      simp only [List.nil_append]
      rw [Prog.run_shift]
      simp only
      refine ⟨h1, ?_⟩
      rw [← h2]
      simp [callsTo]
  exact main p hist

theorem onDriver_asks {α : Type} (i fd : Nat) {A : DrvReq → Prop} {p : DrvM α} (hp : OutT.Asks A p) :
    OutT.Asks (fun q => ∃ d, A d ∧ q = .drv i fd d) (onDriver i fd p) :=
  OutT.asks_interp _ p hp (fun q hq => OutT.asks_bind (OutT.asks_ask ⟨q, hq, rfl⟩) (fun _ => OutT.asks_ret _))

theorem onDriver_returns {α : Type} (i fd : Nat) {B : α → Prop} {p : DrvM α} (hp : OutT.Returns B p) :
    OutT.Returns B (onDriver i fd p) := OutT.returns_interp _ p hp

/-- Requests `Init` can make: the security command and its two fallbacks. -/
def isSecurityCall : DrvReq → Prop
  | .sec .. => True
  | .taskFile .. => True
  | .nvmeAdmin _ => True
  | _ => False

theorem securityCommand_asks (h : Handle) (rw dma : Bool) (protocol : Byte) (comId : BitVec 16) (buf : Bytes) (t : Nat) :
    OutT.Asks isSecurityCall (h.securityCommand rw dma protocol comId buf t) := by
  unfold Handle.securityCommand
  split
  · exact OutT.asks_ret _
  · refine OutT.asks_bind (OutT.asks_ask trivial) (fun r => ?_)
    dsimp only
    split
    · exact OutT.asks_ret _
    · split
      · exact OutT.asks_bind (OutT.asks_ask trivial) (fun _ => OutT.asks_ret _)
      · split
        · exact OutT.asks_bind (OutT.asks_ask trivial) (fun _ => OutT.asks_ret _)
        · exact OutT.asks_ret _

theorem tcgDiscovery0_asks (h : Handle) : OutT.Asks isSecurityCall h.tcgDiscovery0 := by
  unfold Handle.tcgDiscovery0
  refine OutT.asks_bind (securityCommand_asks ..) (fun r => ?_)
  split
  · exact OutT.asks_ret _
  · exact OutT.asks_bind (OutT.asks_lift _) (fun _ => OutT.asks_ret _)

theorem init_asks (h : Handle) : OutT.Asks isSecurityCall h.init := by
  unfold Handle.init
  refine OutT.asks_bind (OutT.asks_lift _) (fun a => ?_)
  dsimp only
  split
  · exact OutT.asks_ret _
  · refine OutT.asks_bind (OutT.asks_lift _) (fun a => ?_)
    obtain ⟨i2, e2⟩ := a
    dsimp only
    split
    · exact OutT.asks_ret _
    · exact OutT.asks_bind (tcgDiscovery0_asks _) (fun _ => OutT.asks_ret _)

theorem init_returns_dh (h : Handle) : OutT.Returns (fun x => x.1.dh = h.dh) h.init := by
  unfold Handle.init
  refine OutT.returns_bind (OutT.returns_any _) (fun a _ => ?_)
  dsimp only
  split
  · exact OutT.returns_ret rfl
  · refine OutT.returns_bind (OutT.returns_any _) (fun a _ => ?_)
    obtain ⟨i2, e2⟩ := a
    dsimp only
    split
    · exact OutT.returns_ret rfl
    · refine OutT.returns_bind (B := fun x => x.1.dh = h.dh) ?_ (fun a ha => OutT.returns_ret ha)
      unfold Handle.tcgDiscovery0
      refine OutT.returns_bind (OutT.returns_any _) (fun a _ => ?_)
      dsimp only
      split
      · exact OutT.returns_ret rfl
      · exact OutT.returns_bind (OutT.returns_any _) (fun a _ => OutT.returns_ret rfl)

/-- Requests made before the drivers are tried. -/
def isProbe : FReq → Prop
  | .diskfs _ => True
  | .sectorSize _ => True
  | .totalSize _ => True
  | .geometry _ => True
  | .readAt _ _ => True
  | .readDir _ => True
  | .evalSymlinks _ => True
  | .readFile _ => True
  | _ => False

theorem basicTable_asks (path : Bytes) (t : PartTable) (b : BasicInfo) : OutT.Asks isProbe (basicTable path t b) := by
  unfold basicTable
  split
  · exact OutT.asks_ret _
  · exact OutT.asks_ret _
  · refine OutT.asks_bind (OutT.asks_interp _ _ (OutT.asks_true mbrRead)
      (fun q _ => OutT.asks_bind (OutT.asks_ask trivial) (fun _ => OutT.asks_ret _))) (fun r => ?_)
    split <;> exact OutT.asks_ret _

theorem readBasicInfo_asks (fd : Nat) (path : Bytes) : OutT.Asks isProbe (readBasicInfo fd path) := by
  unfold readBasicInfo
  refine OutT.asks_bind (OutT.asks_ask trivial) (fun d => ?_)
  split
  · exact OutT.asks_ret _
  · refine OutT.asks_bind (OutT.asks_ask trivial) (fun _ => ?_)
    refine OutT.asks_bind (OutT.asks_ask trivial) (fun _ => ?_)
    refine OutT.asks_bind (OutT.asks_ask trivial) (fun _ => ?_)
    split
    · exact OutT.asks_ret _
    · exact OutT.asks_bind (basicTable_asks ..) (fun _ => OutT.asks_ret _)

theorem idEntries_asks (names : List Bytes) : ∀ m, OutT.Asks isProbe (idEntries names m) := by
  induction names with
  | nil => intro m; exact OutT.asks_ret _
  | cons name rest ih =>
    intro m
    unfold idEntries
    split
    · exact ih m
    · refine OutT.asks_bind (OutT.asks_ask trivial) (fun r => ?_)
      split
      · exact OutT.asks_ret _
      · exact ih _

theorem getIdInfo_asks (order : List (Bytes × Bytes) → List (Bytes × Bytes)) (path : Bytes) :
    OutT.Asks isProbe (getIdInfo order path) := by
  unfold getIdInfo
  refine OutT.asks_bind (OutT.asks_ask trivial) (fun d => ?_)
  split
  · exact OutT.asks_ret _
  · refine OutT.asks_bind (idEntries_asks ..) (fun x => ?_)
    split
    · exact OutT.asks_panic
    · exact OutT.asks_ret _
    · exact OutT.asks_bind (OutT.asks_ask trivial) (fun _ =>
        OutT.asks_bind (OutT.asks_ask trivial) (fun _ => OutT.asks_ret _))

theorem tries_append (a b : Prog.Trace FReq FRep) : tries (a ++ b) = tries a ++ tries b := by
  simp [tries, List.filterMap_append]
theorem callsTo_append (i : Nat) (a b : Prog.Trace FReq FRep) : callsTo i (a ++ b) = callsTo i a ++ callsTo i b := by
  simp [callsTo, List.filterMap_append]
theorem opens_append (a b : Prog.Trace FReq FRep) : opens (a ++ b) = opens a ++ opens b := by
  simp [opens, List.filterMap_append]
theorem stats_append (a b : Prog.Trace FReq FRep) : stats (a ++ b) = stats a ++ stats b := by
  simp [stats, List.filterMap_append]
theorem closings_append (fd : Nat) (a b : Prog.Trace FReq FRep) : closings fd (a ++ b) = closings fd a + closings fd b := by
  simp [closings, List.filter_append]

/-- Probing requests leave no mark in any of the readings of the trace. -/
theorem probe_marks {tr : Prog.Trace FReq FRep} (h : ∀ x ∈ tr, isProbe x.1) :
    tries tr = [] ∧ (∀ i, callsTo i tr = []) ∧ opens tr = [] ∧ stats tr = [] ∧ ∀ fd, closings fd tr = 0 := by
  induction tr with
  | nil => exact ⟨rfl, fun _ => rfl, rfl, rfl, fun _ => rfl⟩
  | cons x t ih =>
    obtain ⟨h1, h2, h3, h4, h5⟩ := ih (fun y hy => h y (by simp [hy]))
    have hx := h x (by simp)
    obtain ⟨q, r⟩ := x
    cases q <;> simp only [isProbe] at hx <;>
      exact ⟨h1, fun i => h2 i, h3, h4, fun fd => h5 fd⟩

/-- Security calls to driver `i` on `fd`: what they look like in each reading. -/
theorem driver_marks {i fd : Nat} {tr : Prog.Trace FReq FRep}
    (h : ∀ x ∈ tr, ∃ d, isSecurityCall d ∧ x.1 = .drv i fd d) :
    tries tr = [] ∧ (∀ j, j ≠ i → callsTo j tr = []) ∧ opens tr = [] ∧ stats tr = [] ∧ ∀ f, closings f tr = 0 := by
  induction tr with
  | nil => exact ⟨rfl, fun _ _ => rfl, rfl, rfl, fun _ => rfl⟩
  | cons x t ih =>
    obtain ⟨h1, h2, h3, h4, h5⟩ := ih (fun y hy => h y (by simp [hy]))
    obtain ⟨d, hd, hx⟩ := h x (by simp)
    obtain ⟨q, r⟩ := x
    simp only at hx
    subst hx
    refine ⟨h1, fun j hj => ?_, h3, h4, fun f => ?_⟩
    · rw [← h2 j hj]
      simp [callsTo, Ne.symm hj]
    · rw [← h5 f]
      cases d <;> simp only [isSecurityCall] at hd <;> rfl

end Dparm
