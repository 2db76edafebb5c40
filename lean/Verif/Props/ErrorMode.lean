import Verif.Spec.ErrorMode
import Verif.Props.Concurrent
import Verif.Props.WinSystem
/-!
# C149: the error mode of the process (Windows)
-/
namespace Dparm
open Spec

/-! ### Who changes the error mode -/

/-- Requests that leave the error mode alone. -/
def Modeless (q : WReq) : Prop := ∀ m, q ≠ .setErrorMode m

/-- The same one layer below. -/
def ModelessA (q : WAReq) : Prop := ∀ m, q ≠ .sys (.setErrorMode m)

theorem reads_modeless {q : WReq} (h : WinReadsOnly q) : Modeless q := by rintro m rfl; exact h

theorem worksOn_modeless {h : Nat} {q : WReq} (hq : worksOn h q) : Modeless q := by rintro m rfl; exact hq

theorem winCall_modeless {q : WReq} (h : Modeless q) : OutT.Asks ModelessA (winCall q) :=
  OutT.asks_bind (OutT.asks_ask (fun m hm => by cases hm; exact h m rfl)) (fun _ => OutT.asks_ret _)

theorem onWindows_modeless {α : Type} {p : WinM α} (hp : OutT.Asks Modeless p) : OutT.Asks ModelessA (OutT.interp winCall p) :=
  OutT.asks_interp_of _ hp (fun _ hq => winCall_modeless hq)

theorem reads_onWindows {α : Type} {p : WinM α} (hp : OutT.Asks WinReadsOnly p) : OutT.Asks ModelessA (OutT.interp winCall p) :=
  onWindows_modeless (OutT.asks_mono (fun _ => reads_modeless) hp)

theorem winDrv_modeless (k : WinDrv) (addr base : Nat) (behind : Nat → Byte) (q : DrvReq) :
    OutT.Asks Modeless (winDrv k addr base behind q) := by
  by_cases hq : q = .close
  · subst hq
    cases k <;> exact OutT.asks_bind (OutT.asks_ask (fun m h => by cases h)) (fun _ => OutT.asks_ret _)
  · exact OutT.asks_mono (fun _ ⟨_, _, h⟩ => worksOn_modeless h) (winDrv_work k addr base behind q hq)

theorem method_modeless (o : WinOpened) {α : Type} (p : Handle → DrvM α) : OutT.Asks ModelessA (o.method p) := by
  unfold WinOpened.method
  cases o.drv with
  | none => exact OutT.asks_interp_of _ (OutT.asks_true _) (fun _ _ => OutT.asks_panic)
  | some k =>
    refine OutT.asks_interp_of _ (OutT.asks_true _) (fun q _ => ?_)
    exact OutT.asks_bind (OutT.asks_ask (fun m h => by cases h)) (fun _ => onWindows_modeless (winDrv_modeless ..))

theorem tcg_modeless (o : WinOpened) {α : Type} (p : TcgM α) : OutT.Asks ModelessA (tcgOnWindows o p) := by
  refine OutT.asks_interp_of _ (OutT.asks_true _) (fun q _ => ?_)
  cases q with
  | sec rw dma p c data to => exact method_modeless o (fun h => h.securityCommand rw dma p c data to)
  | now => exact OutT.asks_bind (OutT.asks_ask (fun m h => by cases h)) (fun _ => OutT.asks_ret _)
  | sleep ns => exact OutT.asks_bind (OutT.asks_ask (fun m h => by cases h)) (fun _ => OutT.asks_ret _)

theorem on_modeless (st : WinHeld) (i : Nat) {f : WinOpened → WAM WinReported} (hf : ∀ o, OutT.Asks ModelessA (f o)) :
    OutT.Asks ModelessA (st.on i f) := by
  unfold WinHeld.on
  split
  · exact hf _
  · exact OutT.asks_ret _

theorem query_modeless (st : WinHeld) (i : Nat) {α : Type} (p : Handle → DrvM α) : OutT.Asks ModelessA (st.query i p) :=
  on_modeless st i (fun o => OutT.asks_bind (method_modeless o p) (fun _ => OutT.asks_ret _))

/-- Only `EnumVolumes` changes the error mode. -/
theorem call_modeless (conv : Wide → Bytes) (ctx : Ctx) (st : WinHeld) (c : WinClientCall) (hc : c.enumsVolumes = false) :
    OutT.Asks ModelessA (c.prog conv ctx st) := by
  have ho : ∀ w path, OutT.Asks ModelessA (OutT.interp winCall (winOpenPath w path)) :=
    fun w path => reads_onWindows (winOpenByPath_reads w _ _ path)
  cases c with
  | openPath w path => exact OutT.asks_bind (ho w path) (fun _ => OutT.asks_ret _)
  | enumDrives w fuel => exact OutT.asks_bind (reads_onWindows (winEnumDrives_reads ..)) (fun _ => OutT.asks_ret _)
  | enumVolumes beyond fuel => cases hc
  | openVolume w vols path =>
    refine OutT.asks_bind (reads_onWindows ?_) (fun r => ?_)
    · unfold winOpenByVolumePath
      split
      · exact OutT.asks_ret _
      · split
        · exact OutT.asks_ret _
        · exact OutT.asks_bind (winOpenByPath_reads w _ _ _) (fun _ => OutT.asks_ret _)
    · split <;> exact OutT.asks_ret _
  | openPartition w p => exact OutT.asks_bind (ho w _) (fun _ => OutT.asks_ret _)
  | close w i =>
    exact on_modeless st i (fun o => OutT.asks_bind (reads_onWindows (winOpenedClose_reads w o)) (fun _ => OutT.asks_ret _))
  | drivingType i => exact query_modeless st i _
  | driverName i => exact query_modeless st i _
  | ata i rw dma tf data secs => cases data <;> exact query_modeless st i _
  | logPage i nsid logId rae size => exact query_modeless st i _
  | security i rw dma p c b t => exact query_modeless st i _
  | discover i => exact on_modeless st i (fun o => OutT.asks_bind (method_modeless o _) (fun _ => OutT.asks_ret _))
  | revert i d pw psid adm => exact on_modeless st i (fun o => OutT.asks_bind (tcg_modeless o _) (fun _ => OutT.asks_ret _))
  | defaultPassword i d => exact on_modeless st i (fun o => OutT.asks_bind (tcg_modeless o _) (fun _ => OutT.asks_ret _))
  | tcg i d c => exact on_modeless st i (fun o => OutT.asks_bind (tcg_modeless o _) (fun _ => OutT.asks_ret _))

theorem winClientProg_modeless (conv : Wide → Bytes) (ctx : Ctx) (calls : List WinClientCall)
    (hc : ∀ c ∈ calls, c.enumsVolumes = false) : ∀ st, Prog.Asks ModelessA (winClientProg conv ctx calls st) := by
  induction calls with
  | nil => intro st; trivial
  | cons c cs ih =>
    intro st
    exact Prog.asks_bind _ _ (call_modeless conv ctx st c (hc c (List.mem_cons_self ..))) (fun o =>
      Prog.asks_bind _ _ (ih (fun c h => hc c (List.mem_cons_of_mem _ h)) _) (fun _ => trivial))

/-! ### Changes of the error mode as pairs -/

theorem modeChanges_append (t u : Prog.Trace WAReq WARep) : modeChanges (t ++ u) = modeChanges t ++ modeChanges u :=
  List.filterMap_append

theorem modeChanges_modeless {t : Prog.Trace WAReq WARep} (h : ∀ x ∈ t, ModelessA x.1) : modeChanges t = [] := by
  refine List.filterMap_eq_nil_iff.2 (fun x hx => ?_)
  obtain ⟨q, r⟩ := x
  unfold modeChange
  split
  · rename_i heq
    exact absurd (congrArg Prod.fst heq) (h _ hx _)
  · rfl

/-- The last mode of a list of changes. -/
def lastMode (m : Nat) : List (Nat × Nat) → Nat
  | [] => m
  | x :: l => lastMode x.1 l

/-- Every answer is the mode before. -/
def Honest (m : Nat) : List (Nat × Nat) → Prop
  | [] => True
  | x :: l => x.2 = m ∧ Honest x.1 l

theorem lastMode_append (l l' : List (Nat × Nat)) : ∀ m, lastMode m (l ++ l') = lastMode (lastMode m l) l' := by
  induction l with
  | nil => intro m; rfl
  | cons x l ih => intro m; exact ih x.1

theorem honest_append (l l' : List (Nat × Nat)) : ∀ m, Honest m (l ++ l') ↔ Honest m l ∧ Honest (lastMode m l) l' := by
  induction l with
  | nil => intro m; simp [Honest, lastMode]
  | cons x l ih => intro m; simp only [List.cons_append, Honest, lastMode, ih, and_assoc]

theorem errorMode_eq (m : Nat) (t : Prog.Trace WAReq WARep) : errorMode m t = lastMode m (modeChanges t) := by
  unfold errorMode
  generalize modeChanges t = l
  rcases List.eq_nil_or_concat l with rfl | ⟨l, x, rfl⟩
  · rfl
  · simp [lastMode_append, lastMode]

/-- An honest system, along a run. -/
theorem honest_run {α : Type} {m₀ : Nat} {env : Prog.Env WAReq WARep} (he : TellsMode m₀ env) (p : Prog WAReq WARep α) :
    ∀ h, Honest m₀ (modeChanges h) → Honest m₀ (modeChanges (h ++ (Prog.run env h p).2)) := by
  induction p with
  | done a => intro h hh; simpa using hh
  | ask q k ih =>
    intro h hh
    rw [Prog.run_ask]
    have h1 : Honest m₀ (modeChanges (h ++ [(q, env h q)])) := by
      rw [modeChanges_append, honest_append]
      refine ⟨hh, ?_⟩
      unfold modeChanges
      rw [List.filterMap_cons, List.filterMap_nil]
      generalize hx : modeChange (q, env h q) = x
      cases x with
      | none => trivial
      | some x =>
        unfold modeChange at hx
        split at hx
        · rename_i heq
          cases heq
          cases hx
          exact ⟨(he h _).trans (errorMode_eq m₀ h), trivial⟩
        · cases hx
    simpa using ih (env h q) (h ++ [(q, env h q)]) h1

/-- Changes in pairs: to 1, and back to what was found. -/
inductive Paired : List (Nat × Nat) → Prop
  | nil : Paired []
  | cons (m x : Nat) {l : List (Nat × Nat)} : Paired l → Paired ((1, m) :: (m, x) :: l)

theorem Paired.append {l l' : List (Nat × Nat)} (h : Paired l) (h' : Paired l') : Paired (l ++ l') := by
  induction h with
  | nil => exact h'
  | cons m x _ ih => exact .cons m x ih

theorem Paired.restores {l : List (Nat × Nat)} (h : Paired l) : ∀ {m}, Honest m l → lastMode m l = m := by
  induction h with
  | nil => intro m _; rfl
  | cons a x _ ih =>
    intro m hh
    obtain ⟨h1, h2, h3⟩ := hh
    dsimp only at h1 h2 h3
    subst h1
    exact ih h3

/-! ### What `EnumVolumes` does to it -/

theorem winEnumVolumes_brackets (conv : Wide → Bytes) (beyond : Nat → Byte) (fuel : Nat) (env : Prog.Env WReq WRep)
    (hist t : Prog.Trace WReq WRep) (z : Out (Res (List WinVol)))
    (hrun : OutT.run env hist (winEnumVolumes conv beyond fuel) = (z, t)) (hz : z ≠ .running) :
    ∃ m x u, t = (.setErrorMode 1, m) :: (u ++ [(.setErrorMode m.n, x)]) ∧ ∀ y ∈ u, Modeless y.1 := by
  unfold winEnumVolumes at hrun
  rw [OutT.run_ask_bind] at hrun
  obtain ⟨m, hm⟩ : ∃ m, m = env hist (.setErrorMode 1) := ⟨_, rfl⟩
  rw [← hm] at hrun
  generalize hist ++ [(WReq.setErrorMode 1, m)] = H1 at hrun
  have hu := OutT.asks_run (winSearchVolumes_reads conv beyond fuel) env H1
  rcases hS : OutT.run env H1 (winSearchVolumes conv beyond fuel) with ⟨s, u⟩
  rw [hS] at hu
  have hx := OutT.run_call env (H1 ++ u) (.setErrorMode m.n)
  have hcomb : t = (.setErrorMode 1, m) :: (u ++ [(.setErrorMode m.n, env (H1 ++ u) (.setErrorMode m.n))]) := by
    cases s with
    | running =>
      rw [OutT.run_defer_running env H1 hS] at hrun
      simp only [Prod.mk.injEq] at hrun
      exact absurd hrun.1.symm hz
    | panic =>
      rw [OutT.run_defer_panic env H1 hS hx] at hrun
      simp only [Prod.mk.injEq] at hrun
      exact hrun.2.symm
    | ret a =>
      rw [OutT.run_defer_ret env H1 hS hx] at hrun
      simp only [Prod.mk.injEq] at hrun
      exact hrun.2.symm
  exact ⟨m, _, u, hcomb, fun y hy => reads_modeless (hu y hy)⟩

/-- The changes of the error mode as the layer above sees them. -/
def modeChangeW : WReq × WRep → List (Nat × Nat)
  | (.setErrorMode m, r) => [(m, r.n)]
  | _ => []

theorem modeChangeW_modeless {u : Prog.Trace WReq WRep} (h : ∀ y ∈ u, Modeless y.1) : u.flatMap modeChangeW = [] := by
  refine List.flatMap_eq_nil_iff.2 (fun x hx => ?_)
  obtain ⟨q, r⟩ := x
  unfold modeChangeW
  split
  · rename_i heq
    exact absurd (congrArg Prod.fst heq) (h _ hx _)
  · rfl

/-- The changes of the error mode in an enumeration of volumes that ends, also with a panic. -/
theorem enumVolumes_modes (conv : Wide → Bytes) (beyond : Nat → Byte) (fuel : Nat) (env : Prog.Env WAReq WARep)
    (hist : Prog.Trace WAReq WARep) (z : Out (Res (List WinVol))) (t : Prog.Trace WAReq WARep)
    (hrun : OutT.run env hist (OutT.interp winCall (winEnumVolumes conv beyond fuel)) = (z, t)) (hz : z ≠ .running) :
    ∃ m x, modeChanges t = [(1, m), (m, x)] := by
  obtain ⟨h1, h2⟩ := OutT.interp_chunks (A := fun _ => True) (B := fun _ _ => True) winCall env default hist
    (fun q _ h => ⟨_, rfl, trivial⟩) (OutT.within_of_asks (OutT.asks_true (winEnumVolumes conv beyond fuel)))
  rw [hrun] at h1 h2
  rcases hr : OutT.run (OutT.upperEnv winCall env default hist) [] (winEnumVolumes conv beyond fuel) with ⟨z', T⟩
  rw [hr] at h1 h2
  dsimp only at h1 h2
  subst h1
  obtain ⟨m, x, u, rfl, hu⟩ := winEnumVolumes_brackets conv beyond fuel _ _ _ _ hr hz
  refine ⟨m.n, x.n, ?_⟩
  have := h2.filterMap modeChange modeChangeW (by
    intro q r h c _ hc
    have : c = [(.sys q, env h (.sys q))] ∧ r = (env h (.sys q)).sys := by
      have h3 : OutT.run env h (winCall q) = (.ret (env h (.sys q)).sys, [(.sys q, env h (.sys q))]) := rfl
      rw [h3] at hc
      simp only [Prod.mk.injEq, Out.ret.injEq] at hc
      exact ⟨hc.2.symm, hc.1.symm⟩
    obtain ⟨rfl, rfl⟩ := this
    cases q <;> rfl)
  unfold modeChanges
  rw [this, List.flatMap_cons, List.flatMap_append, modeChangeW_modeless hu]
  rfl

/-- A call that ends changes the error mode back. -/
theorem call_modes (conv : Wide → Bytes) (ctx : Ctx) (st : WinHeld) (c : WinClientCall) (env : Prog.Env WAReq WARep)
    (hist : Prog.Trace WAReq WARep) (z : Out WinReported) (t : Prog.Trace WAReq WARep)
    (hrun : OutT.run env hist (c.prog conv ctx st) = (z, t)) (hz : z ≠ .running) :
    Paired (modeChanges t) ∧ (c.enumsVolumes = true → ∃ m x, modeChanges t = [(1, m), (m, x)]) := by
  by_cases hc : c.enumsVolumes = false
  · have := OutT.asks_run (call_modeless conv ctx st c hc) env hist
    rw [hrun] at this
    refine ⟨?_, fun h => by rw [hc] at h; cases h⟩
    rw [modeChanges_modeless this]
    exact .nil
  · have key : ∃ m x, modeChanges t = [(1, m), (m, x)] := by
      cases c with
      | enumVolumes beyond fuel =>
        have hb : OutT.run env hist ((OutT.interp winCall (winEnumVolumes conv beyond fuel)) >>=
          fun _ => OutT.ret { held := st }) = (z, t) := hrun
        rw [OutT.run_bind] at hb
        rcases hr : OutT.run env hist (OutT.interp winCall (winEnumVolumes conv beyond fuel)) with ⟨w, u⟩
        rw [hr] at hb
        cases w with
        | running => simp only [Prod.mk.injEq] at hb; exact absurd hb.1.symm hz
        | panic =>
          simp only [Prod.mk.injEq] at hb
          rw [← hb.2]
          exact enumVolumes_modes conv beyond fuel env hist _ _ hr (by simp)
        | ret a =>
          simp only [OutT.run_ret, List.append_nil, Prod.mk.injEq] at hb
          rw [← hb.2]
          exact enumVolumes_modes conv beyond fuel env hist _ _ hr (by simp)
      | _ => exact absurd rfl hc
    refine ⟨?_, fun _ => key⟩
    obtain ⟨m, x, h⟩ := key
    rw [h]
    exact .cons m x .nil

theorem winClientRun_modes (conv : Wide → Bytes) (ctx : Ctx) (env : Prog.Env WAReq WARep) (calls : List WinClientCall) :
    ∀ (st : WinHeld) (h : Prog.Trace WAReq WARep), Out.running ∉ (winClientRun conv ctx env calls st h).reports →
      Paired (modeChanges (winClientRun conv ctx env calls st h).trace) := by
  induction calls with
  | nil => intro st h _; exact .nil
  | cons c cs ih =>
    intro st h hr
    unfold winClientRun at hr ⊢
    rcases hc : OutT.run env h (c.prog conv ctx st) with ⟨z, t⟩
    rw [hc] at hr
    dsimp only at hr ⊢
    rw [List.mem_cons, not_or] at hr
    rw [modeChanges_append]
    refine .append (call_modes conv ctx st c env h z t hc ?_).1 (ih _ _ hr.2)
    rintro rfl
    exact hr.1 rfl

/-- **C149.** A client alone: when its calls have ended, also with errors or panics, the error mode of the process is what it
was before. -/
theorem error_mode_restored (conv : Wide → Bytes) (ctx : Ctx) (m₀ : Nat) (env : Prog.Env WAReq WARep) (he : TellsMode m₀ env)
    (calls : List WinClientCall) (hr : Out.running ∉ (winClientRun conv ctx env calls [] []).reports) :
    errorMode m₀ (winClientRun conv ctx env calls [] []).trace = m₀ := by
  rw [errorMode_eq]
  refine (winClientRun_modes conv ctx env calls [] [] hr).restores ?_
  have := honest_run he (winClientProg conv ctx calls []) [] trivial
  rwa [winClientProg_run] at this

/-! ### Goroutines -/

/-- An honest system, along a schedule. -/
theorem honest_pool {α : Type} {m₀ : Nat} {env : SysEnv WAReq WARep} (he : SysTellsMode m₀ env) (sched : List Nat) :
    ∀ (s : Pool WAReq WARep α), Honest m₀ (modeChanges s.trace.whole) → Honest m₀ (modeChanges (s.run env sched).trace.whole) := by
  induction sched with
  | nil => intro s h; exact h
  | cons i sched ih =>
    intro s h
    refine ih (s.step env i) ?_
    unfold Pool.step
    split
    · rename_i q k _
      dsimp only
      rw [Tagged.whole_snoc, modeChanges_append, honest_append]
      refine ⟨h, ?_⟩
      unfold modeChanges
      rw [List.filterMap_cons, List.filterMap_nil]
      generalize hx : modeChange (q, env s.trace i q) = x
      cases x with
      | none => trivial
      | some x =>
        unfold modeChange at hx
        split at hx
        · rename_i heq
          cases heq
          cases hx
          exact ⟨(he s.trace i _).trans (errorMode_eq m₀ _), trivial⟩
        · cases hx
    · exact h

/-- A goroutine sets only modes it found, and 1. -/
def modeP (m₀ : Nat) : Policy WAReq WARep Unit where
  allowed _ q := ∀ m, q = .sys (.setErrorMode m) → m = m₀ ∨ m = 1
  answers _ q r := ∀ m, q = .sys (.setErrorMode m) → r.sys.n = m₀ ∨ r.sys.n = 1
  next _ _ _ := ()

theorem modeless_safe {m₀ : Nat} {α : Type} {p : WAM α} (h : OutT.Asks ModelessA p) :
    OutT.Safe (modeP m₀) (fun _ => True) p () (fun _ _ => True) :=
  OutT.safe_mono (OutT.safe_of_asks (P := modeP m₀) (B := fun _ => True) trivial h
    (fun q hq => ⟨fun m hm => absurd hm (hq m), fun _ => rfl⟩) (OutT.returns_any p)) (fun _ _ _ => trivial)

/-- The same as the layer above sees it. -/
def modePW (m₀ : Nat) : Policy WReq WRep Unit where
  allowed _ q := ∀ m, q = .setErrorMode m → m = m₀ ∨ m = 1
  answers _ q r := ∀ m, q = .setErrorMode m → r.n = m₀ ∨ r.n = 1
  next _ _ _ := ()

theorem call_modeSafe (m₀ : Nat) (conv : Wide → Bytes) (ctx : Ctx) (st : WinHeld) (c : WinClientCall) :
    OutT.Safe (modeP m₀) (fun _ => True) (c.prog conv ctx st) () (fun _ _ => True) := by
  by_cases hc : c.enumsVolumes = false
  · exact modeless_safe (call_modeless conv ctx st c hc)
  · cases c with
    | enumVolumes beyond fuel =>
      refine OutT.safe_bind' (C := fun _ _ => True) ?_ (fun _ _ _ => OutT.safe_ret trivial)
      refine OutT.safe_interp (P := modePW m₀) (P' := modeP m₀) (B := fun _ => True) winCall ?_ ?_
      · intro q s _ ha
        refine OutT.safe_ask_bind trivial (fun m hm => ha m (by cases hm; rfl)) (fun r hr => OutT.safe_ret ⟨?_, rfl⟩)
        rintro m rfl
        exact hr m rfl
      · unfold winEnumVolumes
        refine OutT.safe_ask_bind (P := modePW m₀) trivial (fun m hm => by cases hm; exact .inr rfl) (fun r hr => ?_)
        have hd : OutT.Safe (modePW m₀) (fun _ => True) (OutT.call (.setErrorMode r.n)) () (fun _ _ => True) :=
          OutT.safe_ask_bind (P := modePW m₀) trivial (fun m hm => by cases hm; exact hr 1 rfl)
            (fun _ _ => OutT.safe_ret trivial)
        refine OutT.safe_defer (B := fun _ => True) (C := fun _ _ => True) ?_ (fun _ h => h) (fun _ _ => hd) (fun _ _ _ => hd)
        exact OutT.safe_mono (OutT.safe_of_asks (P := modePW m₀) (B := fun _ => True) trivial (winSearchVolumes_reads conv beyond fuel)
          (fun q hq => ⟨fun m hm => absurd hm (reads_modeless hq m), fun _ => rfl⟩) (OutT.returns_any _)) (fun _ _ _ => trivial)
    | _ => exact absurd rfl hc

theorem winClientProg_modeAllowed (m₀ : Nat) (conv : Wide → Bytes) (ctx : Ctx) (calls : List WinClientCall) :
    ∀ st, Prog.Allowed (modeP m₀) (winClientProg conv ctx calls st) () := by
  induction calls with
  | nil => intro st; trivial
  | cons c cs ih =>
    intro st
    unfold winClientProg
    exact Prog.allowed_bind (K := fun _ _ => True) (fun a _ _ => Prog.allowed_map (ih _))
      (fun _ _ => ⟨Prog.allowed_map (ih _), Prog.allowed_map (ih _)⟩) (call_modeSafe m₀ conv ctx st c)

/-- All modes are `m₀` or 1. -/
def TwoModes (m₀ : Nat) (l : List (Nat × Nat)) : Prop := ∀ x ∈ l, x.1 = m₀ ∨ x.1 = 1

theorem TwoModes.last {m₀ : Nat} {l : List (Nat × Nat)} (h : TwoModes m₀ l) : lastMode m₀ l = m₀ ∨ lastMode m₀ l = 1 := by
  rcases List.eq_nil_or_concat l with rfl | ⟨l, x, rfl⟩
  · exact .inl rfl
  · rw [List.concat_eq_append, lastMode_append]
    exact h x (by simp)

theorem twoModes_pool {α : Type} {m₀ : Nat} {env : SysEnv WAReq WARep} (he : SysTellsMode m₀ env) (sched : List Nat) :
    ∀ (s : Pool WAReq WARep α), TwoModes m₀ (modeChanges s.trace.whole) → (∀ p ∈ s.threads, Prog.Allowed (modeP m₀) p ()) →
      TwoModes m₀ (modeChanges (s.run env sched).trace.whole) := by
  induction sched with
  | nil => intro s h _; exact h
  | cons i sched ih =>
    intro s h ha
    refine ih (s.step env i) ?_ ?_
    · unfold Pool.step
      split
      · rename_i q k hi
        dsimp only
        rw [Tagged.whole_snoc, modeChanges_append]
        intro x hx
        rcases List.mem_append.1 hx with hx | hx
        · exact h x hx
        · obtain ⟨y, hy, hx⟩ := List.mem_filterMap.1 hx
          rw [List.mem_singleton] at hy
          subst hy
          unfold modeChange at hx
          split at hx
          · rename_i heq
            cases heq
            cases hx
            exact (ha _ (List.mem_of_getElem? hi)).1 _ rfl
          · cases hx
      · exact h
    · unfold Pool.step
      split
      · rename_i q k hi
        intro p hp
        rcases List.mem_or_eq_of_mem_set hp with hp | rfl
        · exact ha p hp
        · refine (ha _ (List.mem_of_getElem? hi)).2 _ ?_
          rintro m rfl
          rw [he s.trace i m, errorMode_eq]
          exact h.last
      · exact ha

/-- **C149.** Goroutines, at any time under any schedule: the error mode is the one before, or 1 (SEM_FAILCRITICALERRORS). -/
theorem error_mode_one_of_two (conv : Wide → Bytes) (ctx : Ctx) (m₀ : Nat) (env : SysEnv WAReq WARep) (he : SysTellsMode m₀ env)
    (calls : List (List WinClientCall)) (sched : List Nat) :
    errorMode m₀ ((winClients conv ctx calls).run env sched).trace.whole = m₀ ∨
      errorMode m₀ ((winClients conv ctx calls).run env sched).trace.whole = 1 := by
  rw [errorMode_eq]
  refine (twoModes_pool he sched (winClients conv ctx calls) (fun x hx => by cases hx) ?_).last
  intro p hp
  obtain ⟨cs, _, rfl⟩ := List.mem_map.1 hp
  exact winClientProg_modeAllowed m₀ conv ctx cs []

/-- Exchanges of one goroutine, if all changes of the error mode are by it. -/
theorem modeChanges_of {t : Tagged WAReq WARep} {i : Nat} (h : ∀ j, j ≠ i → modeChanges (t.of j) = []) :
    modeChanges t.whole = modeChanges (t.of i) := by
  induction t with
  | nil => rfl
  | cons x t ih =>
    have hcons : ∀ j, Tagged.of (x :: t : Tagged WAReq WARep) j = (if x.1 = j then [x.2] else []) ++ Tagged.of t j := by
      intro j
      by_cases hj : x.1 = j <;> simp [Tagged.of, hj]
    have ih := ih (fun j hj => by
      have := h j hj
      rw [hcons, modeChanges_append, List.append_eq_nil_iff] at this
      exact this.2)
    rw [show Tagged.whole (x :: t : Tagged WAReq WARep) = [x.2] ++ Tagged.whole t from rfl, modeChanges_append, hcons i,
      modeChanges_append, ih]
    by_cases hx : x.1 = i
    · rw [if_pos hx]
    · rw [if_neg hx]
      have := h x.1 hx
      rw [hcons, if_pos rfl, modeChanges_append, List.append_eq_nil_iff] at this
      rw [this.1]
      rfl

/-- **C149.** If only one goroutine enumerates volumes, and it has ended, the error mode is the one before, whatever the others
have done or are doing. -/
theorem error_mode_one_enumerator (conv : Wide → Bytes) (ctx : Ctx) (m₀ : Nat) (env : SysEnv WAReq WARep) (he : SysTellsMode m₀ env)
    (calls : List (List WinClientCall)) (sched : List Nat) (i : Nat) (cs : List WinClientCall) (hi : calls[i]? = some cs)
    (ho : ∀ (j : Nat) cs', j ≠ i → calls[j]? = some cs' → ∀ c ∈ cs', c.enumsVolumes = false)
    (res : WinHeld × List (Out (List WinOpened))) (hend : ((winClients conv ctx calls).run env sched).Ended i res)
    (hr : Out.running ∉ res.2) :
    errorMode m₀ ((winClients conv ctx calls).run env sched).trace.whole = m₀ := by
  have hh := honest_pool he sched (winClients conv ctx calls) trivial
  have hof : ∀ j, j ≠ i → modeChanges (((winClients conv ctx calls).run env sched).trace.of j) = [] := by
    intro j hj
    cases hc : calls[j]? with
    | none =>
      rw [pool_of_none (s := winClients conv ctx calls) rfl sched (by simpa [winClients] using hc)]
      rfl
    | some cs' =>
      obtain ⟨p', _, h2⟩ := pool_follows (env := env) (winClients conv ctx calls) rfl sched j (winClientProg conv ctx cs' [])
        (by simp [winClients, hc])
      exact modeChanges_modeless (h2.asks (winClientProg_modeless conv ctx cs' (ho j cs' hj hc) []))
  rw [errorMode_eq]
  rw [modeChanges_of hof] at hh ⊢
  have h1 := pool_ended_run (winClients conv ctx calls) rfl sched i (winClientProg conv ctx cs []) (by simp [winClients, hi]) res hend
    (fun _ => {})
  rw [winClientProg_run] at h1
  simp only [Prod.mk.injEq] at h1
  have h2 := winClientRun_modes conv ctx (replay (((winClients conv ctx calls).run env sched).trace.of i) (fun _ => {})) cs [] []
    (by rw [show (winClientRun conv ctx _ cs [] []).reports = res.2 from congrArg Prod.snd h1.1]; exact hr)
  rw [h1.2] at h2
  exact h2.restores hh

theorem whole_tag (i : Nat) (u : Prog.Trace WAReq WARep) : Tagged.whole (u.map (fun x => (i, x)) : Tagged WAReq WARep) = u := by
  unfold Tagged.whole; rw [List.map_map]; exact List.map_id _

/-- **C149** (a defect of the code). Two goroutines that enumerate volumes at the same time: whatever Windows answers, there is
a schedule under which both end and the process is left with error mode 1, whatever it was before. -/
theorem error_mode_race (conv : Wide → Bytes) (ctx : Ctx) (m₀ : Nat) (env : SysEnv WAReq WARep) (he : SysTellsMode m₀ env)
    (b b' : Nat → Byte) (fuel fuel' : Nat) :
    ∃ sched res res', let s := (winClients conv ctx [[.enumVolumes b fuel], [.enumVolumes b' fuel']]).run env sched
      s.Ended 0 res ∧ s.Ended 1 res' ∧ (Out.running ∉ res'.2 → errorMode m₀ s.trace.whole = 1) := by
  obtain ⟨s₀, hs₀⟩ : ∃ s₀, s₀ = winClients conv ctx [[.enumVolumes b fuel], [.enumVolumes b' fuel']] := ⟨_, rfl⟩
  obtain ⟨k0, h0⟩ : ∃ k, winClientProg conv ctx [.enumVolumes b fuel] [] = .ask (.sys (.setErrorMode 1)) k := ⟨_, rfl⟩
  obtain ⟨k1, h1⟩ : ∃ k, winClientProg conv ctx [.enumVolumes b' fuel'] [] = .ask (.sys (.setErrorMode 1)) k := ⟨_, rfl⟩
  have ht0 : s₀.threads = [.ask (.sys (.setErrorMode 1)) k0, .ask (.sys (.setErrorMode 1)) k1] := by
    rw [hs₀, ← h0, ← h1]; rfl
  have htr : s₀.trace = [] := by rw [hs₀]; rfl
  obtain ⟨r0, hr0⟩ : ∃ r, r = env [] 0 (.sys (.setErrorMode 1)) := ⟨_, rfl⟩
  obtain ⟨r1, hr1⟩ : ∃ r, r = env [(0, .sys (.setErrorMode 1), r0)] 1 (.sys (.setErrorMode 1)) := ⟨_, rfl⟩
  have hn1 : r1.sys.n = 1 := by rw [hr1, he]; rfl
  -- both have changed the mode
  have hs1 : s₀.step env 0 = { threads := [k0 r0, .ask (.sys (.setErrorMode 1)) k1], trace := [(0, .sys (.setErrorMode 1), r0)] } := by
    unfold Pool.step; rw [ht0, htr, hr0]; rfl
  have hs2 : s₀.run env [0, 1] =
      { threads := [k0 r0, k1 r1], trace := [(0, .sys (.setErrorMode 1), r0), (1, .sys (.setErrorMode 1), r1)] } := by
    show (s₀.step env 0).step env 1 = _
    rw [hs1]; unfold Pool.step; rw [hr1]; rfl
  obtain ⟨n, a, ha⟩ := pool_solo_ends env 0 (k0 r0) (s₀.run env [0, 1]) (by rw [hs2]; rfl)
  obtain ⟨s3, hs3⟩ : ∃ s3, s3 = (s₀.run env [0, 1]).run env (List.replicate n 0) := ⟨_, rfl⟩
  rw [← hs3] at ha
  have h31 := pool_run_other (env := env) (show 0 ≠ 1 by decide) n (s₀.run env [0, 1])
  rw [← hs3, hs2] at h31
  obtain ⟨n', a', ha'⟩ := pool_solo_ends env 1 (k1 r1) s3 h31.1
  have h40 := pool_run_other (env := env) (show 1 ≠ 0 by decide) n' s3
  obtain ⟨u, hu1, hu2⟩ := pool_run_solo (env := env) (i := 1) n' s3
  have hall : s₀.run env ([0, 1] ++ List.replicate n 0 ++ List.replicate n' 1) = s3.run env (List.replicate n' 1) := by
    rw [pool_run_append, pool_run_append, hs3]
  refine ⟨[0, 1] ++ List.replicate n 0 ++ List.replicate n' 1, a, a', ?_⟩
  dsimp only
  rw [← hs₀, hall]
  refine ⟨h40.1.trans ha, ha', fun hr => ?_⟩
  have h5 := pool_ended_run s₀ htr ([0, 1] ++ List.replicate n 0 ++ List.replicate n' 1) 1
    (winClientProg conv ctx [.enumVolumes b' fuel'] []) (by rw [ht0, h1]; rfl) a' (by rw [hall]; exact ha') (fun _ => {})
  rw [hall, hu2, h31.2] at h5
  have hof : Tagged.of [(0, WAReq.sys (.setErrorMode 1), r0), (1, WAReq.sys (.setErrorMode 1), r1)] 1 =
      [(WAReq.sys (.setErrorMode 1), r1)] := rfl
  rw [hof] at h5
  generalize replay ([(WAReq.sys (.setErrorMode 1), r1)] ++ u) (fun _ => ({} : WARep)) = env' at h5
  rw [winClientProg_run] at h5
  simp only [Prod.mk.injEq] at h5
  obtain ⟨h6, h7⟩ := h5
  rcases hc : OutT.run env' [] (WinClientCall.prog conv ctx [] (.enumVolumes b' fuel')) with ⟨z, t⟩
  have h8 : (winClientRun conv ctx env' [.enumVolumes b' fuel'] [] []).trace = t ∧
      (winClientRun conv ctx env' [.enumVolumes b' fuel'] [] []).reports = [(WinHeld.afterCall [] z).2] := by
    unfold winClientRun
    rw [hc]
    exact ⟨List.append_nil _, rfl⟩
  have hz : z ≠ .running := by
    rintro rfl
    rw [← h6, h8.2] at hr
    exact hr (List.mem_singleton.2 rfl)
  obtain ⟨m, x, h9⟩ := (call_modes conv ctx [] _ env' [] z t hc hz).2 rfl
  rw [← h8.1, h7] at h9
  have h10 : modeChanges ([(WAReq.sys (.setErrorMode 1), r1)] ++ u) = (1, r1.sys.n) :: modeChanges u := rfl
  rw [h10, hn1] at h9
  simp only [List.cons.injEq, Prod.mk.injEq, true_and] at h9
  obtain ⟨rfl, h9⟩ := h9
  rw [errorMode_eq, hu1, Tagged.whole_append, whole_tag, modeChanges_append, lastMode_append, h9]
  rfl

/-! ### Samples -/

/-- The sample Windows of Props/WinClient.lean with an error mode, 5 at the start. -/
def sampleModes : SysEnv WAReq WARep := fun t _ q => match q with
  | .sys (.setErrorMode _) => { sys := { n := errorMode 5 t.whole } }
  | q => sampleWinClient t.whole q

theorem sampleModes_tells : SysTellsMode 5 sampleModes := fun _ _ _ => rfl

set_option maxRecDepth 20000 in
/-- A client that opens, enumerates volumes and closes beside one that enumerates drives: mode 5 in the end, 1 in between. Two
that enumerate volumes: 1 in the end. -/
example :
    let calls : List (List WinClientCall) :=
      [[.openPath sampleRun [0x41#8], .enumVolumes (fun _ => 0) 5, .close sampleRun 0], [.enumDrives sampleRun 9]]
    let s := (winClients sampleConv sampleCtx calls).run sampleModes (takeTurns 2 200)
    let mid := (winClients sampleConv sampleCtx calls).run sampleModes (takeTurns 2 30)
    let two := (winClients sampleConv sampleCtx [[.enumVolumes (fun _ => 0) 5], [.enumVolumes (fun _ => 0) 5]]).run sampleModes
      ([0, 1] ++ List.replicate 40 0 ++ List.replicate 40 1)
    s.threads.map (fun p => p.result.isSome) = [true, true] ∧ errorMode 5 s.trace.whole = 5 ∧
    errorMode 5 mid.trace.whole = 1 ∧
    two.threads.map (fun p => p.result.isSome) = [true, true] ∧ errorMode 5 two.trace.whole = 1 := by
  decide +kernel

end Dparm
