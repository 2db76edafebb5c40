import Verif.Lemmas.TcgCalls
import Verif.Lemmas.WinCrash
/-!
# Properties: what can crash a client on Windows (C163)
-/
namespace Dparm
open Spec

/-! ## From the system calls to the whole program -/

theorem win_sane {α : Type} {A : α → Prop} {C : Prog.Trace WReq WRep → Prop} {p : WinM α} (h : Sane A C p) :
    Sane A (fun t => ∃ u, SysCalls u t ∧ C u) (OutT.interp winCall p) := by
  intro env hist
  obtain ⟨env', h1, h2⟩ := winCall_run p env hist
  rcases h env' [] with ⟨a, h3, h4⟩ | ⟨h3, h4⟩
  · exact .inl ⟨a, h1.trans h3, h4⟩
  · exact .inr ⟨h1.trans h3, _, h2, h4⟩

theorem win_never {α : Type} {A : α → Prop} {p : WinM α} (h : Sane A (fun _ => False) p) {C : Prog.Trace WAReq WARep → Prop} :
    Sane A C (OutT.interp winCall p) :=
  sane_mono (fun _ h => h) (fun _ ⟨_, _, h⟩ => h.elim) (win_sane h)

/-! ## The methods of a handle -/

/-- The requests a driver answers. -/
def Answerable (k : WinDrv) : DrvReq → Prop
  | .sec _ _ _ _ data _ => data ≠ [] ∨ OnMiniport k ∨ ∃ h, k = .ata h
  | .taskFile _ _ _ data _ => k.isAta = true ∧ data ≠ []
  | .taskNil .. => False
  | .nvmeAdmin _ => k.isNvme = true
  | .logPage .. => k.isNvme = true
  | _ => True

theorem winDrv_never (k : WinDrv) (addr base : Nat) (behind : Nat → Byte) (q : DrvReq) (hq : Answerable k q) :
    Sane (fun _ => True) (fun _ => False) (winDrv k addr base behind q) := by
  have pass : ∀ (w : WinPass), w.Ok → ∀ (h : Nat) (rw : Bool) (data : Bytes), data ≠ [] → ∀ (f : Option GoErr × Bytes → DrvRep),
      Sane (fun _ => True) (fun _ => False) (w.run h rw data addr base >>= fun x => OutT.ret (f x)) := by
    intro w hw h rw data hd f env hist
    obtain ⟨e, d, u, hr, -⟩ := pass_returns w hw h rw data addr base hd env hist
    rw [OutT.run_bind_ret env hist hr]
    exact .inl ⟨_, rfl, trivial⟩
  cases q with
  | close => exact sane_total (fun _ => trivial)
  | drivingType => exact sane_ret trivial
  | driverName => exact sane_ret trivial
  | sec rw dma p c data secs =>
    cases k with
    | nvmeWin h sh => exact sane_ret trivial
    | windowsNvme h =>
      refine pass _ (passOf_ok (.scsiSecurity p c) rw secs) h rw data ?_ _
      rcases hq with hq | ⟨_, _, hq⟩ | ⟨_, hq⟩
      · exact hq
      · cases hq
      · cases hq
    | scsi h =>
      refine pass _ (passOf_ok (.scsiSecurity p c) rw secs) h rw data ?_ _
      rcases hq with hq | ⟨_, _, hq⟩ | ⟨_, hq⟩
      · exact hq
      · cases hq
      · cases hq
    | ata h => exact sane_ret trivial
  | taskFile rw dma tf data secs =>
    obtain ⟨hk, hd⟩ := hq
    cases k with
    | nvmeWin h sh => cases hk
    | windowsNvme h => cases hk
    | scsi h => exact pass _ (passOf_ok (.scsiTask tf) rw secs) h rw data hd _
    | ata h => exact pass _ (passOf_ok (.ataTask tf) rw secs) h rw data hd _
  | taskNil rw dma tf secs => exact hq.elim
  | nvmeAdmin c =>
    cases k with
    | ata h => cases hq
    | scsi h => cases hq
    | windowsNvme h => exact sane_ret trivial
    | nvmeWin h sh =>
      refine sane_total ?_
      unfold winDrv miniportAdmin
      dsimp only
      split
      · exact OutT.total_ret trivial
      · refine OutT.total_bind (C := fun _ => True) (OutT.total_ask_bind (fun r => ?_)) (fun _ _ => OutT.total_ret trivial)
        split <;> exact OutT.total_ret trivial
  | logPage nsid logId rae size =>
    cases k with
    | ata h => cases hq
    | scsi h => cases hq
    | nvmeWin h sh => exact sane_ret trivial
    | windowsNvme h =>
      refine sane_total ?_
      unfold winDrv windowsLogPage
      dsimp only
      rw [if_neg (show ¬ ((size : Int) < 0) by omega)]
      generalize storageQuery _ _ _ _ = pq
      refine OutT.total_bind (C := fun r => r ≠ .panic) (OutT.total_ask_bind (fun r => ?_)) (fun r hr => ?_)
      · split
        · exact OutT.total_ret (fun h => by cases h)
        · split
          · exact OutT.total_ret (fun h => by cases h)
          · exact OutT.total_ret (fun h => by cases h)
      · cases r with
        | panic => exact absurd rfl hr
        | err e => exact OutT.total_ret trivial
        | ok d => exact OutT.total_ret trivial

theorem placed_never (k : WinDrv) (q : DrvReq) (hq : Answerable k q) (C : Prog.Trace WAReq WARep → Prop) :
    Sane (fun _ => True) C (winDrvPlaced k q) := by
  refine sane_never ?_
  unfold winDrvPlaced
  refine sane_bind (A := fun _ => True) (fun _ _ h => h) (sane_total (fun _ => trivial)) (fun p _ => ?_)
  exact win_never (winDrv_never k p.addr p.base p.behind q hq)

theorem placed_then {k : WinDrv} {q : DrvReq} {α : Type} {A : α → Prop} {f : DrvRep → WAM α} {C : Prog.Trace WAReq WARep → Prop}
    (hq : Answerable k q) (hf : ∀ r, Sane A (fun _ => False) (f r)) : Sane A C (winDrvPlaced k q >>= f) :=
  sane_never (sane_bind (A := fun _ => True) (fun _ _ h => h) (placed_never k q hq _) (fun r _ => hf r))

/-- A method of a handle that has a driver. -/
theorem method_bound {o : WinOpened} {k : WinDrv} (h : WinBound o k) {α : Type} (p : Handle → DrvM α) :
    o.method p = OutT.interp (winDrvPlaced k) (p o.handle) := by
  unfold WinOpened.method
  rw [h.1]

/-- A method that does not reach the driver. -/
theorem method_bare {o : WinOpened} {α : Type} {p : Handle → DrvM α} {x : P α} (h : p o.handle = OutT.lift x) :
    o.method p = OutT.lift x := by
  unfold WinOpened.method
  rw [h]
  cases o.drv <;> cases x <;> rfl

theorem security_never {o : WinOpened} (h : WinSound o) (rw dma : Bool) (p : Byte) (c : BitVec 16) (buf : Bytes) (secs : Nat)
    (hb : buf ≠ [] ∨ ∃ k, WinBound o k ∧ OnMiniport k) (C : Prog.Trace WAReq WARep → Prop) :
    Sane (fun _ => True) C (o.method (fun h => h.securityCommand rw dma p c buf secs)) := by
  rcases h with hd | ⟨⟨k, hk⟩, -⟩
  · have : (fun h : Handle => h.securityCommand rw dma p c buf secs) o.handle =
        OutT.lift (.ret { err := some (.msg "not supported"), data := buf }) := by
      dsimp only
      unfold Handle.securityCommand
      rw [hd]
      rfl
    rw [method_bare this]
    exact sane_ret trivial
  · rw [method_bound hk]
    obtain ⟨hs, id, hd⟩ := hk
    have hm : buf ≠ [] ∨ OnMiniport k := by
      rcases hb with hb | ⟨k', ⟨h1, -⟩, h2⟩
      · exact .inl hb
      · rw [hs] at h1
        cases h1
        exact .inr h2
    unfold Handle.securityCommand
    rw [hd]
    dsimp only
    rw [interp_ask_then]
    refine placed_then (by
      rcases hm with hm | hm
      · exact .inl hm
      · exact .inr (.inl hm)) (fun r => ?_)
    split
    · exact sane_ret trivial
    · cases ha : k.isAta with
      | true =>
        rw [if_pos rfl, interp_ask_then]
        refine placed_then ?_ (fun _ => sane_ret trivial)
        refine ⟨ha, ?_⟩
        rcases hm with hm | ⟨_, _, rfl⟩
        · intro he
          have hl := congrArg List.length he
          rw [storeInto_length] at hl
          exact hm (List.eq_nil_of_length_eq_zero hl)
        · cases ha
      | false =>
        have hn : k.isNvme = true := by unfold WinDrv.isNvme; rw [ha]; rfl
        rw [if_neg (by decide), if_pos hn, interp_ask_then]
        exact placed_then (by exact hn) (fun _ => sane_ret trivial)

theorem ata_never {o : WinOpened} (h : WinSound o) (rw dma : Bool) (tf : Tf) (data : Bytes) (secs : Nat)
    (hb : ∀ k, WinBound o k → k.isAta = true → data ≠ []) (C : Prog.Trace WAReq WARep → Prop) :
    Sane (fun _ => True) C (o.method (fun h => h.ataDoTaskFileCmd rw dma tf data secs)) := by
  rcases h with hd | ⟨⟨k, hk⟩, -⟩
  · have : (fun h : Handle => h.ataDoTaskFileCmd rw dma tf data secs) o.handle =
        OutT.lift (.ret (some .notSupportThisDriver, tf, data)) := by
      dsimp only
      unfold Handle.ataDoTaskFileCmd
      rw [hd]
      rfl
    rw [method_bare this]
    exact sane_ret trivial
  · rw [method_bound hk]
    have hb' := hb k hk
    obtain ⟨hs, id, hd⟩ := hk
    unfold Handle.ataDoTaskFileCmd
    rw [hd]
    dsimp only
    cases ha : k.isAta with
    | true =>
      rw [if_pos rfl, interp_ask_then]
      exact placed_then (by exact ⟨ha, hb' ha⟩) (fun _ => sane_ret trivial)
    | false =>
      rw [if_neg (by decide)]
      exact sane_ret trivial

theorem ataNil_never {o : WinOpened} (h : WinSound o) (rw dma : Bool) (tf : Tf) (secs : Nat)
    (hb : ∀ k, WinBound o k → k.isAta = false) (C : Prog.Trace WAReq WARep → Prop) :
    Sane (fun _ => True) C (o.method (fun h => h.ataDoTaskFileNil rw dma tf secs)) := by
  rcases h with hd | ⟨⟨k, hk⟩, -⟩
  · have : (fun h : Handle => h.ataDoTaskFileNil rw dma tf secs) o.handle =
        OutT.lift (.ret (some .notSupportThisDriver, tf)) := by
      dsimp only
      unfold Handle.ataDoTaskFileNil
      rw [hd]
      rfl
    rw [method_bare this]
    exact sane_ret trivial
  · rw [method_bound hk]
    have hb' := hb k hk
    obtain ⟨hs, id, hd⟩ := hk
    unfold Handle.ataDoTaskFileNil
    rw [hd]
    dsimp only
    rw [hb', if_neg (by decide)]
    exact sane_ret trivial

theorem logPage_never {o : WinOpened} (h : WinSound o) (nsid logId : BitVec 32) (rae : Bool) (size : Nat)
    (C : Prog.Trace WAReq WARep → Prop) :
    Sane (fun _ => True) C (o.method (fun h => h.nvmeGetLogPage nsid logId rae size)) := by
  rcases h with hd | ⟨⟨k, hk⟩, -⟩
  · have : (fun h : Handle => h.nvmeGetLogPage nsid logId rae size) o.handle =
        OutT.lift (.ret (none, some .notSupportThisDriver)) := by
      dsimp only
      unfold Handle.nvmeGetLogPage
      rw [hd]
      rfl
    rw [method_bare this]
    exact sane_ret trivial
  · rw [method_bound hk]
    obtain ⟨hs, id, hd⟩ := hk
    unfold Handle.nvmeGetLogPage
    rw [hd]
    dsimp only
    cases hn : k.isNvme with
    | true =>
      rw [if_pos rfl, interp_ask_then]
      exact placed_then (by exact hn) (fun _ => sane_ret trivial)
    | false =>
      rw [if_neg (by decide)]
      exact sane_ret trivial

/-! ## Panics of the methods -/

/-- A driver call that panics after placing its buffer. -/
theorem placed_panics (k : WinDrv) (q : DrvReq) (hq : ∀ addr base behind, winDrv k addr base behind q = OutT.panic)
    (env : Prog.Env WAReq WARep) (hist : Prog.Trace WAReq WARep) :
    OutT.run env hist (winDrvPlaced k q) = (.panic, [(.place, env hist .place)]) := by
  unfold winDrvPlaced
  rw [OutT.run_ask_bind, hq]
  rfl

theorem pass_panics (w : WinPass) (h : Nat) (rw : Bool) (addr base : Nat) : w.run h rw [] addr base = OutT.panic := by
  cases rw <;> rfl

theorem ata_panics {o : WinOpened} {k : WinDrv} (h : WinBound o k) (ha : k.isAta = true) (rw dma : Bool) (tf : Tf) (secs : Nat)
    (env : Prog.Env WAReq WARep) (hist : Prog.Trace WAReq WARep) :
    OutT.run env hist (o.method (fun h => h.ataDoTaskFileCmd rw dma tf [] secs)) = (.panic, [(.place, env hist .place)]) ∧
    OutT.run env hist (o.method (fun h => h.ataDoTaskFileNil rw dma tf secs)) = (.panic, [(.place, env hist .place)]) := by
  rw [method_bound h, method_bound h]
  obtain ⟨hs, id, hd⟩ := h
  unfold Handle.ataDoTaskFileCmd Handle.ataDoTaskFileNil
  rw [hd]
  dsimp only
  rw [if_pos ha, if_pos ha, interp_ask_then, interp_ask_then]
  have hq : ∀ addr base behind, winDrv k addr base behind (.taskFile rw dma tf [] secs) = OutT.panic ∧
      winDrv k addr base behind (.taskNil rw dma tf secs) = OutT.panic := by
    intro addr base behind
    cases k with
    | nvmeWin h sh => cases ha
    | windowsNvme h => cases ha
    | scsi h => cases rw <;> exact ⟨rfl, rfl⟩
    | ata h => cases rw <;> exact ⟨rfl, rfl⟩
  exact ⟨run_panic_bind _ _ (placed_panics k _ (fun a b c => (hq a b c).1) env hist),
    run_panic_bind _ _ (placed_panics k _ (fun a b c => (hq a b c).2) env hist)⟩

theorem security_panics {o : WinOpened} {k : WinDrv} (h : WinBound o k) (hk : NeedsBytes k) (rw dma : Bool) (p : Byte) (c : BitVec 16)
    (secs : Nat) (env : Prog.Env WAReq WARep) (hist : Prog.Trace WAReq WARep) :
    ∃ t, OutT.run env hist (o.method (fun h => h.securityCommand rw dma p c [] secs)) = (.panic, t) ∧ ∀ x ∈ t, x.1 = .place := by
  rw [method_bound h]
  obtain ⟨hs, id, hd⟩ := h
  unfold Handle.securityCommand
  rw [hd]
  dsimp only
  rw [interp_ask_then]
  have pass : (∀ addr base behind, winDrv k addr base behind (.sec rw dma p c [] secs) = OutT.panic) →
      ∀ f : DrvRep → WAM SecRep, ∃ t, OutT.run env hist (winDrvPlaced k (.sec rw dma p c [] secs) >>= f) = (.panic, t) ∧
        ∀ x ∈ t, x.1 = .place := by
    intro hq f
    exact ⟨_, run_panic_bind _ _ (placed_panics k _ hq env hist), fun x hx => by rw [List.mem_singleton.1 hx]⟩
  cases k with
  | nvmeWin h sh => exact absurd ⟨h, sh, rfl⟩ hk
  | windowsNvme h => exact pass (fun _ _ _ => by cases rw <;> rfl) _
  | scsi h => exact pass (fun _ _ _ => by cases rw <;> rfl) _
  | ata h =>
    obtain ⟨pl, hpl⟩ : ∃ pl, pl = env hist .place := ⟨_, rfl⟩
    have h1 : OutT.run env hist (winDrvPlaced (.ata h) (.sec rw dma p c [] secs)) =
        (.ret { err := some (.msg "not supported"), data := [], behind := pl.behind }, [(.place, pl)]) := by
      unfold winDrvPlaced
      rw [OutT.run_ask_bind, ← hpl]
      rfl
    rw [OutT.run_bind_ret env hist h1]
    dsimp only
    rw [if_pos (show (WinDrv.ata h).isAta = true from rfl), interp_ask_then]
    have h2 := placed_panics (.ata h) (.taskFile rw dma (securityTf rw dma p c (storeInto ([] : Bytes) []).length) (storeInto [] []) secs)
      (fun _ _ _ => by cases rw <;> rfl) env (hist ++ [(.place, pl)])
    refine ⟨_, by rw [run_panic_bind env _ h2], fun x hx => ?_⟩
    simp only [List.mem_append, List.mem_singleton] at hx
    rcases hx with rfl | rfl <;> rfl

theorem win_bare_panics {o : WinOpened} (hd : o.handle.dh = none) :
    o.method Handle.getDrivingType = OutT.panic ∧ o.method Handle.getDriverName = OutT.panic := by
  refine ⟨method_bare (x := .panic) ?_, method_bare (x := .panic) ?_⟩
  · unfold Handle.getDrivingType
    rw [hd]
    rfl
  · unfold Handle.getDriverName
    rw [hd]
    rfl

theorem questions_never {o : WinOpened} {k : WinDrv} (h : WinBound o k) (C : Prog.Trace WAReq WARep → Prop) :
    Sane (fun _ => True) C (o.method Handle.getDrivingType) ∧ Sane (fun _ => True) C (o.method Handle.getDriverName) := by
  rw [method_bound h, method_bound h]
  obtain ⟨hs, id, hd⟩ := h
  unfold Handle.getDrivingType Handle.getDriverName
  rw [hd]
  dsimp only
  rw [interp_ask_then, interp_ask_then]
  exact ⟨placed_then trivial (fun _ => sane_ret trivial),
    placed_then trivial (fun _ => sane_ret trivial)⟩

/-! ## Handles -/

/-- All handles the client holds are sound. -/
def AllWinSound (st : WinHeld) : Prop := ∀ o ∈ st, WinSound o

theorem AllWinSound.add {st : WinHeld} (h : AllWinSound st) {r : Res WinOpened} (hr : ∀ o, r = .ok o → WinSound o) :
    AllWinSound (st.add r).held := by
  cases r with
  | ok o =>
    intro x hx
    rcases List.mem_append.1 hx with hx | hx
    · exact h x hx
    · rw [List.mem_singleton.1 hx]; exact hr o rfl
  | err e => exact h
  | panic => exact h

theorem AllWinSound.set {st : WinHeld} (h : AllWinSound st) {o : WinOpened} (i : Nat) (ho : WinSound o) : AllWinSound (st.set i o) := by
  intro x hx
  rcases List.mem_or_eq_of_mem_set hx with hx | rfl
  · exact h x hx
  · exact ho

theorem win_query_sane {st : WinHeld} (h : AllWinSound st) (i : Nat) {α : Type} (p : Handle → DrvM α)
    {C : Prog.Trace WAReq WARep → Prop} (hp : ∀ o, st[i]? = some o → WinSound o → Sane (fun _ => True) C (o.method p)) :
    Sane (fun a : WinReported => AllWinSound a.held) C (st.query i p) := by
  unfold WinHeld.query WinHeld.on
  split
  · rename_i o ho
    exact sane_then (hp o ho (h o (List.mem_of_getElem? ho))) (fun _ _ => ⟨_, rfl, h⟩)
  · exact sane_ret h

theorem win_close_never {o : WinOpened} (h : WinSound o) (w : WinRun) (C : Prog.Trace WAReq WARep → Prop) :
    Sane WinSound C (OutT.interp winCall (o.close w)) := by
  refine win_never ?_
  unfold WinOpened.close
  cases hk : o.drv with
  | none => exact sane_ret h
  | some k =>
    dsimp only
    cases hd : o.handle.dh with
    | none =>
      have : OutT.interp (winDrv k w.addr w.base w.behind) o.handle.close = OutT.ret o.handle := by
        unfold Handle.close
        rw [hd]
        rfl
      rw [this]
      exact sane_ret (.inl hd)
    | some d =>
      have : OutT.interp (winDrv k w.addr w.base w.behind) o.handle.close =
          (winDrv k w.addr w.base w.behind .close >>= fun _ => OutT.ret { o.handle with dh := none }) := by
        unfold Handle.close
        rw [hd]
        rfl
      rw [this]
      refine sane_bind (A := fun h => h.dh = none) (fun _ _ h => h) ?_ (fun h hh => sane_ret (.inl hh))
      exact sane_bind (fun _ _ h => h) (winDrv_never k w.addr w.base w.behind .close trivial) (fun _ _ => sane_ret rfl)

theorem endsReceived_mem {k : WinDrv} {t : Prog.Trace WAReq WARep} {q : WReq} {d : Bytes} {b : Nat → Byte}
    (h : EndsReceived k t q d b) : ∃ a, (WAReq.sys q, a) ∈ t := by
  cases h with
  | mk tries got => exact ⟨_, List.mem_append_right _ (List.mem_singleton.2 rfl)⟩

theorem win_discover_sane {st : WinHeld} (h : AllWinSound st) (i : Nat) (o : WinOpened) (ho : st[i]? = some o) :
    Sane (fun x => WinSound { o with handle := x.1 }) (fun t => WinCrashCause st t (.discover i)) (o.method Handle.tcgDiscovery0) := by
  rcases h o (List.mem_of_getElem? ho) with hd | ⟨⟨k, hk⟩, hm⟩
  · have : Handle.tcgDiscovery0 o.handle = OutT.lift (.ret
        ({ o.handle with info := Handle.afterFailure o.handle.info (.msg "not supported") }, some (.msg "not supported"))) := by
      have hsec : o.handle.securityCommand false false 0x01 0x0001 (zeros Handle.discoverySize) 3 =
          OutT.ret { err := some (.msg "not supported"), data := zeros Handle.discoverySize } := by
        unfold Handle.securityCommand
        rw [hd]
      unfold Handle.tcgDiscovery0
      rw [hsec]
      rfl
    rw [method_bare this]
    exact sane_ret (.inl hd)
  · have hb := hk
    rw [method_bound hk]
    obtain ⟨hs, id, hd⟩ := hk
    have hw : OutT.Asks (WinLooksOnly false) (OutT.interp (winDrvPlaced k) o.handle.tcgDiscovery0) :=
      OutT.asks_interp _ _ (tcgDiscovery0_drvOk (i := k.index) o.handle (by
        rw [hd]
        exact index_driverOf ⟨rfl, rfl⟩)) (fun q hq =>
        OutT.asks_bind (OutT.asks_ask trivial) (fun p => win_looks _ (winDrv_reads k _ _ _ q hq)))
    intro env hist
    have hw := OutT.asks_run hw env hist
    rcases discovery_serves (later_gotA k) (winDrvPlaced_serves k) hd rfl rfl hm env hist with ⟨x, h1, h2, h3⟩ | ⟨h1, d, b, ⟨q, h2⟩, h3⟩
    · refine .inl ⟨x, h1, .inr ⟨⟨k, hs, id, ?_⟩, h3⟩⟩
      show x.1.dh = _
      rw [h2, hd]
    · refine .inr ⟨h1, .discover ho hb h2 ?_ h3⟩
      obtain ⟨a, ha⟩ := endsReceived_mem h2
      rcases hw _ ha with h | ⟨h, -⟩
      · exact h
      · cases h

/-! ## Enumerations -/

theorem devices_fatal {w : WinRun} {conv : List (BitVec 16) → Bytes} {env : Prog.Env WReq WRep} {set i size : Nat}
    {hist t : Prog.Trace WReq WRep} {os : List WinOpened}
    (h : DevicesPanic (winOpenByPath w (winOpeners w.base w.base')) conv env set i size hist t os) :
    OpenFatal w.beyond t ∨ ∃ u i' size' r, t = u ++ [(.setupDetail set i' size', r)] ∧ r.err = some (.errno 122) ∧
      (r.n + 1023) / 1024 * 1024 % 2 ^ 32 = 0 := by
  induction h with
  | size i size hist d f r hd hf hr hn => exact .inr ⟨[_, _], i, size, r, rfl, hr, hn⟩
  | opening i size hist d f t u size' buf text hd hf hdet htext hrun =>
    left
    rcases openPath_sane w (conv text) env (hist ++ (.setupDevice set i, d) :: (.setupInterface set i, f) :: t) with ⟨a, h1, -⟩ | ⟨-, h1⟩
    · unfold winOpenPath at h1
      rw [hrun] at h1
      cases h1
    · unfold winOpenPath at h1
      rw [hrun] at h1
      exact openFatal_later h1
  | more i size size' hist t u o os hd hp ih =>
    rcases ih with h | ⟨v, i', s', r, rfl, h⟩
    · exact .inl (openFatal_later h)
    · exact .inr ⟨t ++ v, i', s', r, by rw [List.append_assoc], h⟩

theorem closes_of_map {tc : Prog.Trace WReq WRep} {hs : List Nat} (h : tc.map (·.1) = hs.map WReq.closeHandle) :
    ∀ x ∈ tc, JustClosesWin x.1 := by
  intro x hx
  have : x.1 ∈ tc.map (·.1) := List.mem_map.2 ⟨x, hx, rfl⟩
  rw [h] at this
  obtain ⟨n, -, hn⟩ := List.mem_map.1 this
  rw [← hn]
  trivial

theorem enumDrives_crash (conv : Wide → Bytes) (w : WinRun) (fuel : Nat) (st : WinHeld) (env : Prog.Env WAReq WARep)
    (hist : Prog.Trace WAReq WARep)
    (hr : (OutT.run env hist (OutT.interp winCall (winEnumDrives w (winOpeners w.base w.base') conv fuel))).1 = .panic) :
    WinCrashCause st (OutT.run env hist (OutT.interp winCall (winEnumDrives w (winOpeners w.base w.base') conv fuel))).2
      (.enumDrives w fuel) := by
  obtain ⟨env', h1, h2⟩ := winCall_run (winEnumDrives w (winOpeners w.base w.base') conv fuel) env hist
  rw [hr] at h1
  rcases hx : OutT.run env' [] (winEnumDrives w (winOpeners w.base w.base') conv fuel) with ⟨x, t⟩
  rw [hx] at h1 h2
  dsimp only at h1 h2
  subst h1
  obtain ⟨c, ⟨e, -, h, -⟩ | ⟨-, os, td, tc, y, r, ht, hy, -, hl, hc⟩⟩ := winEnumDrives_run w _ conv fuel env' [] t _ hx (by simp)
  · cases h
  · rcases hl with ⟨hy', -⟩ | ⟨-, hp⟩
    · have := hy hy'
      cases this
    · have hcl : ∀ x ∈ tc ++ [(WReq.setupDestroy c.handle, r)], JustClosesWin x.1 := by
        intro x hx
        rcases List.mem_append.1 hx with hx | hx
        · refine closes_of_map (hs := (os.reverse.filterMap (·.drv)).map (·.handle)) ?_ x hx
          rw [hc, List.map_map]
          rfl
        · rw [List.mem_singleton.1 hx]
          trivial
      rcases devices_fatal hp with hf | ⟨v, i', s', r', rfl, h4, h5⟩
      · refine .enumDrives (u := (WReq.setupClass, c) :: td) (v := tc ++ [(WReq.setupDestroy c.handle, r)]) ?_
          (openFatal_later (s := [_]) hf) hcl
        rw [ht] at h2
        rw [List.append_assoc] at h2
        exact h2
      · refine .enumDetails (u := (WReq.setupClass, c) :: v) (set := c.handle) (i := i') (size := s') (v := tc ++ [(WReq.setupDestroy c.handle, r)]) ?_ h4 h5 hcl
        rw [ht] at h2
        simpa using h2

theorem volumes_fatal {conv : Wide → Bytes} {beyond : Nat → Byte} {find : Nat} {name : Wide} {t : Prog.Trace WReq WRep} {hs : List Nat}
    (h : VolumesPanic conv beyond find name t hs) : ∃ u x, t = u ++ [x] ∧ BadAnswer x := by
  induction h with
  | mounts name p hb => exact ⟨[], _, rfl, hb⟩
  | extents name bare p i d o r hn ho hb => exact ⟨[_, _, _, _], _, rfl, hb⟩
  | more name name' t u v h n hs hv hn ht hp ih =>
    obtain ⟨w, x, rfl, hx⟩ := ih
    exact ⟨t ++ (.nextVolume find, n) :: w, x, by simp, hx⟩

theorem enumVolumes_crash (conv : Wide → Bytes) (beyond : Nat → Byte) (fuel : Nat) (st : WinHeld) (env : Prog.Env WAReq WARep)
    (hist : Prog.Trace WAReq WARep)
    (hr : (OutT.run env hist (OutT.interp winCall (winEnumVolumes conv beyond fuel))).1 = .panic) :
    WinCrashCause st (OutT.run env hist (OutT.interp winCall (winEnumVolumes conv beyond fuel))).2 (.enumVolumes beyond fuel) := by
  obtain ⟨env', h1, h2⟩ := winCall_run (winEnumVolumes conv beyond fuel) env hist
  rw [hr] at h1
  rcases hx : OutT.run env' [] (winEnumVolumes conv beyond fuel) with ⟨x, t⟩
  rw [hx] at h1 h2
  dsimp only at h1 h2
  subst h1
  obtain ⟨m, f, x, y, name, hs, tv, tc, -, -, hp, hc, ht⟩ := win_volumes_unwind conv beyond fuel env' [] t hx
  obtain ⟨u, b, rfl, hb⟩ := volumes_fatal hp
  refine .enumVolumes (u := [(.setErrorMode 1, m), (.firstVolume, f)] ++ u)
    (v := tc ++ [(.closeFind f.handle, y), (.setErrorMode m.n, x)]) ?_ hb ?_
  · rw [ht] at h2
    simpa using h2
  · intro z hz
    rcases List.mem_append.1 hz with hz | hz
    · exact closes_of_map hc z hz
    · simp only [List.mem_cons, List.not_mem_nil, or_false] at hz
      rcases hz with rfl | rfl <;> trivial

/-! ## TCG operations -/

theorem chunks_last {Q R Q' R' : Type} {f : Q → OutT Q' R' R} {env : Prog.Env Q' R'} {q : Q} {r : R} :
    ∀ {T : Prog.Trace Q R} {t : Prog.Trace Q' R'}, OutT.Chunks f env (T ++ [(q, r)]) t →
    ∃ t1 h c, t = t1 ++ c ∧ OutT.run env h (f q) = (.ret r, c)
  | [], t, h => by
    cases h with
    | @cons _ _ h c _ t hc ht =>
      cases ht
      exact ⟨[], h, c, by simp, hc⟩
  | x :: T, t, h => by
    cases h with
    | @cons _ _ h c _ t hc ht =>
      obtain ⟨t1, h', c', rfl, h2⟩ := chunks_last ht
      exact ⟨c ++ t1, h', c', by rw [List.append_assoc], h2⟩

theorem secOnWindows_returns {o : WinOpened} (h : WinSound o) {comId : BitVec 16} {q : SecReq} (hq : TcgAsk comId q)
    (env : Prog.Env WAReq WARep) (hist : Prog.Trace WAReq WARep) :
    ∃ r, (OutT.run env hist (secOnWindows o q)).1 = .ret r := by
  cases q with
  | now => exact ⟨_, rfl⟩
  | sleep ns => exact ⟨_, rfl⟩
  | sec rw dma p c buf secs =>
    have hb : buf ≠ [] := by
      rintro rfl
      cases rw with
      | true => exact absurd hq.2.2.2.2.1 (by decide)
      | false =>
        have := congrArg List.length hq.2.2.2.2
        rw [zeros_length] at this
        cases this
    rcases security_never h rw dma p c buf secs (.inl hb) (fun _ => False) env hist with ⟨a, h1, -⟩ | ⟨-, h1⟩
    · exact ⟨a, h1⟩
    · exact h1.elim

/-- The answer of a drive that made the TCG layer panic. -/
theorem win_tcg_panics {o : WinOpened} (h : WinSound o) {α : Type} {p : TcgM α} {comId : BitVec 16} (hp : OutT.Asks (TcgAsk comId) p)
    {K : Prop} (hc : ∀ env hist, (OutT.run env hist p).1 = .panic → K ∧ ∃ r, Answered (OutT.run env hist p).2 r ∧ TooShort r)
    (env : Prog.Env WAReq WARep) (hist : Prog.Trace WAReq WARep) (hr : (OutT.run env hist (tcgOnWindows o p)).1 = .panic) :
    K ∧ ∃ k q data b r, WinBound o k ∧ EndsReceived k (OutT.run env hist (tcgOnWindows o p)).2 q data b ∧
      TcgOnWindowsOnly k comId (.sys q) ∧ Resp.commit ⟨data, []⟩ b = (r, none) ∧ TooShort r := by
  obtain ⟨h1, h2⟩ := OutT.interp_chunks (B := fun _ _ => True) (secOnWindows o) env {} hist
    (fun q hq h' => (secOnWindows_returns h hq env h').imp (fun r hr => ⟨hr, trivial⟩)) (p := p) (OutT.within_of_asks hp)
  obtain ⟨hk, r, ⟨before, p', c, last, he, hn, hpar⟩, hs⟩ := hc _ [] (h1.symm.trans hr)
  refine ⟨hk, ?_⟩
  rw [he] at h2
  have hT : before ++ last.exchanges p' c = (before ++ [(.now, last.clock), (.sleep 25000000, last.slept)]) ++
      [(SecReq.sec false false p' c (zeros 2048) 5, last.got)] := by
    unfold Round.exchanges
    simp
  rw [hT] at h2
  obtain ⟨t1, h', ch, ht, hrun⟩ := chunks_last h2
  rcases h with hd | ⟨⟨k, hb⟩, -⟩
  · exfalso
    have hx : (fun h : Handle => h.securityCommand false false p' c (zeros 2048) 5) o.handle =
        OutT.lift (.ret { err := some (.msg "not supported"), data := zeros 2048 }) := by
      dsimp only
      unfold Handle.securityCommand
      rw [hd]
      rfl
    unfold secOnWindows at hrun
    dsimp only at hrun
    rw [method_bare hx] at hrun
    have hg : last.got = { err := some (.msg "not supported"), data := zeros 2048 } := by
      have := congrArg Prod.fst hrun
      exact (Out.ret.inj this).symm
    rw [hg] at hn
    cases hn
  · obtain ⟨hs', id, hd⟩ := id hb
    unfold secOnWindows at hrun
    dsimp only at hrun
    rw [method_bound hb] at hrun
    obtain ⟨rep, u, hu, hl, hg⟩ := security_serves (later_gotA k) (winDrvPlaced_serves k) hd rfl rfl false p' c (zeros 2048) 5
      (zeros_length _) env h'
    rw [hu] at hrun
    have hrep : rep = last.got := Out.ret.inj (congrArg Prod.fst hrun)
    have hch : u = ch := congrArg Prod.snd hrun
    subst hch
    rw [hrep] at hl hg
    obtain ⟨q, hq⟩ := later_gotA k t1 u last.got.data last.got.behind (hg hn)
    have ht' : (OutT.run env hist (tcgOnWindows o p)).2 = t1 ++ u := ht
    refine ⟨k, q, last.got.data, last.got.behind, r, hb, by rw [ht']; exact hq, ?_, ?_, hs⟩
    · have hall := tcg_on_windows_only o k hs' comId p hp env hist
      rw [ht'] at hall
      obtain ⟨a, ha⟩ := endsReceived_mem hq
      exact hall _ ha
    · unfold Round.parsed Round.response at hpar
      rw [List.take_of_length_le (by rw [hl]; exact Nat.le_refl _), hl, Nat.sub_self, show zeros 0 = [] from rfl,
        List.append_nil] at hpar
      exact hpar

/-! ## Every call -/

/-- The calls with a loop that Windows or the drive must end. -/
def winWaits : WinClientCall → Bool
  | .enumDrives .. => true
  | .enumVolumes .. => true
  | .revert .. => true
  | .defaultPassword .. => true
  | .tcg _ _ (.close _) => false
  | .tcg .. => true
  | _ => false

theorem win_call_sane (conv : Wide → Bytes) (ctx : Ctx) (c : WinClientCall) (st : WinHeld) (h : AllWinSound st)
    (hc : winWaits c = false) :
    Sane (fun a : WinReported => AllWinSound a.held) (fun t => WinCrashCause st t c) (c.prog conv ctx st) := by
  have hopen : ∀ w path (C : Prog.Trace WAReq WARep → Prop), (∀ u t, SysCalls u t → OpenFatal w.beyond u → C t) →
      Sane (fun r => ∀ o, r = Res.ok o → WinSound o) C (OutT.interp winCall (winOpenPath w path)) :=
    fun w path C hC => sane_mono (fun r hr => hr.2) (fun t ⟨u, h1, h2⟩ => hC u t h1 h2) (win_sane (openPath_sane w path))
  cases c with
  | openPath w path =>
    simp only [WinClientCall.prog]
    exact sane_then (hopen w path _ (fun u t h1 h2 => .openPath h1 h2)) (fun r hr => ⟨_, rfl, h.add hr⟩)
  | openVolume w vols path =>
    simp only [WinClientCall.prog]
    refine sane_then (A := fun r => ∀ o, r = some (Res.ok o) → WinSound o) ?_ (fun r hr => ?_)
    · unfold winOpenByVolumePath
      split
      · exact sane_ret (fun o h => by cases h)
      · split
        · exact sane_ret (fun o h => by cases h)
        · rw [OutT.interp_bind]
          refine sane_then (hopen w _ _ (fun u t h1 h2 => .openVolume h1 h2)) (fun r hr => ⟨_, rfl, ?_⟩)
          intro o ho
          cases ho
          exact hr o rfl
    · cases r with
      | none => exact ⟨_, rfl, h⟩
      | some r => exact ⟨_, rfl, h.add (fun o ho => hr o (by rw [ho]))⟩
  | openPartition w p =>
    simp only [WinClientCall.prog]
    exact sane_then (hopen w _ _ (fun u t h1 h2 => .openPartition h1 h2)) (fun r hr => ⟨_, rfl, h.add hr⟩)
  | close w i =>
    simp only [WinClientCall.prog]
    unfold WinHeld.on
    split
    · rename_i o ho
      exact sane_then (win_close_never (h o (List.mem_of_getElem? ho)) w _) (fun o' ho' => ⟨_, rfl, h.set i ho'⟩)
    · exact sane_ret h
  | drivingType i =>
    simp only [WinClientCall.prog]
    refine win_query_sane h i _ (fun o ho hs => ?_)
    rcases hs with hd | ⟨⟨k, hk⟩, -⟩
    · rw [(win_bare_panics hd).1]
      exact fun env hist => .inr ⟨rfl, .drivingType ho hd rfl⟩
    · exact (questions_never hk _).1
  | driverName i =>
    simp only [WinClientCall.prog]
    refine win_query_sane h i _ (fun o ho hs => ?_)
    rcases hs with hd | ⟨⟨k, hk⟩, -⟩
    · rw [(win_bare_panics hd).2]
      exact fun env hist => .inr ⟨rfl, .driverName ho hd rfl⟩
    · exact (questions_never hk _).2
  | ata i rw dma tf data secs =>
    cases data with
    | none =>
      simp only [WinClientCall.prog]
      refine win_query_sane h i _ (fun o ho hs => ?_)
      by_cases hx : ∃ k, WinBound o k ∧ k.isAta = true
      · obtain ⟨k, hk, ha⟩ := hx
        intro env hist
        rw [(ata_panics hk ha rw dma tf secs env hist).2]
        exact .inr ⟨rfl, .ata ho hk ha (.inl rfl) (fun x hx => by rw [List.mem_singleton.1 hx])⟩
      · refine ataNil_never hs rw dma tf secs (fun k hk => ?_) _
        cases ha : k.isAta with
        | true => exact absurd ⟨k, hk, ha⟩ hx
        | false => rfl
    | some b =>
      simp only [WinClientCall.prog]
      refine win_query_sane h i _ (fun o ho hs => ?_)
      by_cases hx : b = [] ∧ ∃ k, WinBound o k ∧ k.isAta = true
      · obtain ⟨rfl, k, hk, ha⟩ := hx
        intro env hist
        rw [(ata_panics hk ha rw dma tf secs env hist).1]
        exact .inr ⟨rfl, .ata ho hk ha (.inr rfl) (fun x hx => by rw [List.mem_singleton.1 hx])⟩
      · exact ata_never hs rw dma tf b secs (fun k hk ha hb => hx ⟨hb, k, hk, ha⟩) _
  | logPage i nsid logId rae size =>
    simp only [WinClientCall.prog]
    exact win_query_sane h i _ (fun o ho hs => logPage_never hs nsid logId rae size _)
  | security i rw dma p c buf secs =>
    simp only [WinClientCall.prog]
    refine win_query_sane h i _ (fun o ho hs => ?_)
    by_cases hb : buf = []
    · subst hb
      by_cases hx : ∃ k, WinBound o k ∧ NeedsBytes k
      · obtain ⟨k, hk, hn⟩ := hx
        intro env hist
        obtain ⟨t, h1, h2⟩ := security_panics hk hn rw dma p c secs env hist
        rw [h1]
        exact .inr ⟨rfl, .security ho hk hn h2⟩
      · rcases id hs with hd | ⟨⟨k, hk⟩, -⟩
        · have hm : (fun h : Handle => h.securityCommand rw dma p c [] secs) o.handle =
              OutT.lift (.ret { err := some (.msg "not supported"), data := [] }) := by
            dsimp only
            unfold Handle.securityCommand
            rw [hd]
            rfl
          rw [method_bare hm]
          exact sane_ret trivial
        · refine security_never hs rw dma p c [] secs (.inr ⟨k, hk, ?_⟩) _
          exact Classical.not_not.1 (fun hm => hx ⟨k, hk, hm⟩)
    · exact security_never hs rw dma p c buf secs (.inl hb) _
  | discover i =>
    simp only [WinClientCall.prog]
    unfold WinHeld.on
    split
    · rename_i o ho
      exact sane_then (win_discover_sane h i o ho) (fun x hx => ⟨_, rfl, h.set i hx⟩)
    · exact sane_ret h
  | enumDrives w fuel => cases hc
  | enumVolumes b fuel => cases hc
  | revert i d pw psid adm => cases hc
  | defaultPassword i d => cases hc
  | tcg i d c =>
    cases c with
    | close s =>
      simp only [WinClientCall.prog, closeCall_done]
      unfold WinHeld.on
      split
      · exact sane_ret h
      · exact sane_ret h
    | _ => cases hc

theorem waiting_held (conv : Wide → Bytes) (ctx : Ctx) (c : WinClientCall) (st : WinHeld)
    (hc : winWaits c = true) : OutT.Returns (fun a : WinReported => a.held = st) (c.prog conv ctx st) := by
  have hb : ∀ i {α : Type} (p : WinOpened → WAM α), OutT.Returns (fun a : WinReported => a.held = st)
      (st.on i (fun o => p o >>= fun _ => OutT.ret { held := st })) := by
    intro i α p
    unfold WinHeld.on
    split
    · exact OutT.returns_bind (OutT.returns_any _) (fun _ _ => OutT.returns_ret rfl)
    · exact OutT.returns_ret rfl
  cases c with
  | enumDrives w fuel =>
    simp only [WinClientCall.prog]
    refine OutT.returns_bind (OutT.returns_any _) (fun r _ => OutT.returns_ret ?_)
    cases r <;> rfl
  | enumVolumes b fuel =>
    simp only [WinClientCall.prog]
    exact OutT.returns_bind (OutT.returns_any _) (fun r _ => OutT.returns_ret rfl)
  | revert i d pw psid adm =>
    simp only [WinClientCall.prog]
    exact hb i _
  | defaultPassword i d =>
    simp only [WinClientCall.prog]
    exact hb i _
  | tcg i d c =>
    simp only [WinClientCall.prog]
    exact hb i _
  | _ => cases hc

theorem win_client_sound (conv : Wide → Bytes) (ctx : Ctx) (env : Prog.Env WAReq WARep)
    (calls : List WinClientCall) : ∀ (st : WinHeld) (hist : Prog.Trace WAReq WARep), AllWinSound st →
    AllWinSound (winClientRun conv ctx env calls st hist).held := by
  induction calls with
  | nil => exact fun st hist h => h
  | cons c cs ih =>
    intro st hist h
    unfold winClientRun
    refine ih _ _ ?_
    cases hp : winWaits c with
    | false =>
      have hm := win_call_sane conv ctx c st h hp env hist
      generalize (OutT.run env hist (c.prog conv ctx st)).1 = o at hm
      rcases hm with ⟨a, rfl, ha⟩ | ⟨rfl, -⟩
      · exact ha
      · exact h
    | true =>
      have hm := OutT.returns_run (waiting_held conv ctx c st hp) env hist
      generalize (OutT.run env hist (c.prog conv ctx st)).1 = o at hm
      cases o with
      | ret a => show AllWinSound a.held; rw [hm a rfl]; exact h
      | panic => exact h
      | running => exact h

theorem run_then_panic {Q R α β : Type} {env : Prog.Env Q R} {hist : Prog.Trace Q R} {p : OutT Q R α} {f : α → β}
    (hx : (OutT.run env hist (p >>= fun a => OutT.ret (f a))).1 = .panic) :
    (OutT.run env hist p).1 = .panic ∧ (OutT.run env hist (p >>= fun a => OutT.ret (f a))).2 = (OutT.run env hist p).2 := by
  rw [OutT.run_bind] at hx ⊢
  generalize OutT.run env hist p = r at hx ⊢
  obtain ⟨o, t⟩ := r
  cases o with
  | ret a => cases hx
  | panic => exact ⟨rfl, rfl⟩
  | running => cases hx

/-- A call that never panics and transfers no empty buffer does not panic on a drive. -/
theorem win_tcg_calm {o : WinOpened} (h : WinSound o) {α : Type} {p : TcgM α} (hp : OutT.Asks Bytewise p)
    (hc : ∀ env hist, (OutT.run env hist p).1 ≠ .panic) (env : Prog.Env WAReq WARep) (hist : Prog.Trace WAReq WARep) :
    (OutT.run env hist (tcgOnWindows o p)).1 ≠ .panic := by
  obtain ⟨h1, -⟩ := OutT.interp_chunks (A := Bytewise) (B := fun _ _ => True) (secOnWindows o) env {} hist (fun q hq h' => by
    cases q with
    | now => exact ⟨_, rfl, trivial⟩
    | sleep ns => exact ⟨_, rfl, trivial⟩
    | sec rw dma p c buf secs =>
      rcases security_never h rw dma p c buf secs (.inl hq) (fun _ => False) env h' with ⟨a, ha, -⟩ | ⟨-, hf⟩
      · exact ⟨a, ha, trivial⟩
      · exact hf.elim) (p := p) (OutT.within_of_asks hp)
  unfold tcgOnWindows
  rw [h1]
  exact hc _ _

/-- Why a call panics, for what the client holds. -/
theorem win_call_crash (conv : Wide → Bytes) (ctx : Ctx) (hf : 0 < ctx.fuel) (c : WinClientCall) (st : WinHeld)
    (h : AllWinSound st) (env : Prog.Env WAReq WARep) (hist : Prog.Trace WAReq WARep)
    (hr : (OutT.run env hist (c.prog conv ctx st)).1 = .panic) : WinCrashCause st (OutT.run env hist (c.prog conv ctx st)).2 c := by
  cases hp : winWaits c with
  | false =>
    rcases win_call_sane conv ctx c st h hp env hist with ⟨a, ha, -⟩ | ⟨-, hc⟩
    · rw [hr] at ha; cases ha
    · exact hc
  | true =>
    cases c <;> try cases hp
    · rename_i w fuel
      simp only [WinClientCall.prog] at hr ⊢
      obtain ⟨h1, h2⟩ := run_then_panic hr
      rw [h2]
      exact enumDrives_crash conv w fuel st env hist h1
    · rename_i b fuel
      simp only [WinClientCall.prog] at hr ⊢
      obtain ⟨h1, h2⟩ := run_then_panic hr
      rw [h2]
      exact enumVolumes_crash conv b fuel st env hist h1
    · rename_i i d pw psid adm
      simp only [WinClientCall.prog] at hr ⊢
      unfold WinHeld.on at hr ⊢
      split at hr
      · rename_i o ho
        obtain ⟨h1, h2⟩ := run_then_panic hr
        dsimp only at h2 ⊢
        rw [h2]
        obtain ⟨hk, k, q, data, b, r, g1, g2, g3, g4, g5⟩ := win_tcg_panics (h o (List.mem_of_getElem? ho))
          (revertTPer_asks ctx d pw psid adm) (fun env hist hx => revert_panics ctx d pw psid adm hf env hist hx) env hist h1
        exact .revert ho hk g1 g2 g3 g4 g5
      · cases hr
    · rename_i i d
      simp only [WinClientCall.prog] at hr ⊢
      unfold WinHeld.on at hr ⊢
      split at hr
      · rename_i o ho
        obtain ⟨h1, h2⟩ := run_then_panic hr
        dsimp only at h2 ⊢
        rw [h2]
        obtain ⟨hk, k, q, data, b, r, g1, g2, g3, g4, g5⟩ := win_tcg_panics (h o (List.mem_of_getElem? ho))
          (getDefaultPassword_asks ctx d) (fun env hist hx => defaultPassword_panics ctx d hf env hist hx) env hist h1
        exact .defaultPassword ho hk g1 g2 g3 g4 g5
      · cases hr
    · rename_i i d c
      simp only [WinClientCall.prog] at hr ⊢
      unfold WinHeld.on at hr ⊢
      split at hr
      · rename_i o ho
        obtain ⟨h1, h2⟩ := run_then_panic hr
        dsimp only at h2 ⊢
        rw [h2]
        have hs := h o (List.mem_of_getElem? ho)
        by_cases hj : judges c = true
        · obtain ⟨hk, k, q, data, b, r, g1, g2, g3, g4, g5⟩ := win_tcg_panics hs
            (tcgCall_asks ctx d c (fun p inv m ops he => by rw [he] at hj; cases hj))
            (fun env hist hx => ⟨(tcgCall_panics ctx d c hf env hist hx).1, (tcgCall_panics ctx d c hf env hist hx).2.2⟩)
            env hist h1
          exact .tcg ho hk hj g1 g2 g3 g4 g5
        · exfalso
          cases c with
          | close s => rw [closeCall_done] at h1; cases h1
          | exec p inv m ops =>
            refine win_tcg_calm hs (execCall_bytewise ctx d p inv m ops) (fun env hist hx => ?_) env hist h1
            have := (tcgCall_panics ctx d _ hf env hist hx).2.1
            cases this
          | _ => exact hj rfl
      · cases hr

/-! ## The property -/

/-- **C163.** After whatever calls, and whatever Windows and the drives answer: a call of the library panics only for a reason of
the list `WinCrashCause`; and every call but those with a loop that Windows or the drive must end (`EnumDrives`,
`EnumVolumes`, `RevertTPer`, `GetDefaultPassword` and the calls on sessions) comes to an end. -/
theorem win_client_crash (conv : Wide → Bytes) (ctx : Ctx) (hf : 0 < ctx.fuel)
    (env : Prog.Env WAReq WARep) (calls : List WinClientCall) (c : WinClientCall) :
    let before := winClientRun conv ctx env calls [] []
    let r := OutT.run env before.trace (c.prog conv ctx before.held)
    (r.1 = .panic → WinCrashCause before.held r.2 c) ∧ (winWaits c = false → r.1 ≠ .running) := by
  dsimp only
  have hs := win_client_sound conv ctx env calls [] [] (fun o ho => by cases ho)
  refine ⟨win_call_crash conv ctx hf c _ hs env _, fun hp hr => ?_⟩
  rcases win_call_sane conv ctx c _ hs hp env (winClientRun conv ctx env calls [] []).trace with ⟨a, ha, -⟩ | ⟨ha, -⟩
  · rw [hr] at ha; cases ha
  · rw [hr] at ha; cases ha

/-- **C163.** `Close`, `NvmeGetLogPage`, `Close` of a session and `Exec` never panic. -/
theorem win_client_never_crashes (conv : Wide → Bytes) (ctx : Ctx) (hf : 0 < ctx.fuel)
    (env : Prog.Env WAReq WARep) (calls : List WinClientCall) :
    let before := winClientRun conv ctx env calls [] []
    (∀ w i, ∃ a, (OutT.run env before.trace ((WinClientCall.close w i).prog conv ctx before.held)).1 = .ret a) ∧
    (∀ i nsid logId rae size,
      ∃ a, (OutT.run env before.trace ((WinClientCall.logPage i nsid logId rae size).prog conv ctx before.held)).1 = .ret a) ∧
    (∀ i d s, ∃ a, (OutT.run env before.trace ((WinClientCall.tcg i d (.close s)).prog conv ctx before.held)).1 = .ret a) ∧
    (∀ i d protocol inv m ops,
      (OutT.run env before.trace ((WinClientCall.tcg i d (.exec protocol inv m ops)).prog conv ctx before.held)).1 ≠ .panic) := by
  dsimp only
  have hs := win_client_sound conv ctx env calls [] [] (fun o ho => by cases ho)
  have key : ∀ c : WinClientCall, winWaits c = false → (∀ held t, ¬ WinCrashCause held t c) →
      ∃ a, (OutT.run env (winClientRun conv ctx env calls [] []).trace (c.prog conv ctx (winClientRun conv ctx env calls [] []).held)).1 = .ret a := by
    intro c hp hn
    rcases win_call_sane conv ctx c _ hs hp env (winClientRun conv ctx env calls [] []).trace with ⟨a, ha, -⟩ | ⟨-, hc⟩
    · exact ⟨a, ha⟩
    · exact absurd hc (hn _ _)
  refine ⟨fun w i => key _ rfl (fun _ _ h => by cases h), fun i nsid logId rae size => key _ rfl (fun _ _ h => by cases h),
    fun i d s => key _ rfl (fun _ _ h => ?_), fun i d p inv m ops hx => ?_⟩
  · cases h with
    | tcg _ _ hj => cases hj
  · cases (win_client_crash conv ctx hf env calls (.tcg i d (.exec p inv m ops))).1 hx with
    | tcg _ _ hj => cases hj

theorem discovery_malformed {o : WinOpened} (h : WinSound o) (env : Prog.Env WAReq WARep) (hist : Prog.Trace WAReq WARep) :
    (OutT.run env hist (o.method Handle.tcgDiscovery0)).1 = .panic ↔
      ∃ rep, (OutT.run env hist (o.method (fun h => h.securityCommand false false 1 1 (zeros 2048) 3))).1 = .ret rep ∧
        rep.err = none ∧ Malformed rep.data := by
  have hm : o.method Handle.tcgDiscovery0 = (o.method (fun h => h.securityCommand false false 1 1 (zeros 2048) 3) >>= fun r =>
      match r.err with
      | some e => OutT.ret ({ o.handle with info := Handle.afterFailure o.handle.info e }, some e)
      | none => (OutT.lift (discoveryParse o.handle.info.level0 r.data r.behind) : WAM (Level0 × Option GoErr)) >>= fun x =>
        OutT.ret ({ o.handle with info := Handle.afterParse o.handle.info x.1 }, x.2)) := by
    have hd : ∀ f : DrvReq → WAM DrvRep, OutT.interp f o.handle.tcgDiscovery0 =
        (OutT.interp f (o.handle.securityCommand false false 1 1 (zeros 2048) 3) >>= fun r =>
      match r.err with
      | some e => OutT.ret ({ o.handle with info := Handle.afterFailure o.handle.info e }, some e)
      | none => (OutT.lift (discoveryParse o.handle.info.level0 r.data r.behind) : WAM (Level0 × Option GoErr)) >>= fun x =>
        OutT.ret ({ o.handle with info := Handle.afterParse o.handle.info x.1 }, x.2)) := by
      intro f
      unfold Handle.tcgDiscovery0
      rw [OutT.interp_bind]
      congr 1
      funext r
      cases r.err with
      | some e => rfl
      | none =>
        dsimp only
        generalize discoveryParse o.handle.info.level0 r.data r.behind = x
        cases x <;> rfl
    unfold WinOpened.method
    cases o.drv with
    | none => exact hd _
    | some k => exact hd _
  rw [hm, OutT.run_bind]
  rcases h with hd | ⟨⟨k, hb⟩, hmade⟩
  · have hx : (fun h : Handle => h.securityCommand false false 1 1 (zeros 2048) 3) o.handle =
        OutT.lift (.ret { err := some (.msg "not supported"), data := zeros 2048 }) := by
      dsimp only
      unfold Handle.securityCommand
      rw [hd]
      rfl
    rw [method_bare hx]
    constructor
    · intro h
      cases h
    · rintro ⟨rep, h1, h2, -⟩
      have h3 := Out.ret.inj h1
      rw [← h3] at h2
      cases h2
  · rw [method_bound hb]
    obtain ⟨hs, id, hd⟩ := hb
    obtain ⟨rep, u, hr, hl, -⟩ := security_serves (later_gotA k) (winDrvPlaced_serves k) hd rfl rfl false 1 1 (zeros 2048) 3
      (zeros_length _) env hist
    rw [hr]
    dsimp only
    have hex : ∀ P : SecRep → Prop, (∃ r, Out.ret rep = Out.ret r ∧ P r) ↔ P rep := by
      intro P
      exact ⟨fun ⟨r, h1, h2⟩ => by rw [Out.ret.inj h1]; exact h2, fun h => ⟨rep, rfl, h⟩⟩
    rw [hex]
    cases he : rep.err with
    | some e =>
      constructor
      · intro h
        cases h
      · rintro ⟨h, -⟩
        cases h
    | none =>
      dsimp only
      unfold Malformed
      rcases parse_spec o.handle.info.level0 rep.data rep.behind hmade with ⟨g, hp⟩ | ⟨g, ho, hp⟩ | ⟨g, ds, hc, hp⟩
      · rw [hp]
        constructor
        · intro h
          cases h
        · rintro ⟨-, h, -⟩
          omega
      · rw [hp]
        exact ⟨fun _ => ⟨rfl, by omega, ho⟩, fun _ => rfl⟩
      · rw [hp]
        constructor
        · intro h
          cases h
        · rintro ⟨-, -, h⟩
          exact absurd h (cut_not_overruns hc)

theorem win_query_outcome {st : WinHeld} {i : Nat} {o : WinOpened} (ho : st[i]? = some o) {α : Type} (p : Handle → DrvM α)
    (env : Prog.Env WAReq WARep) (hist : Prog.Trace WAReq WARep) :
    (OutT.run env hist (st.query i p)).1 = .panic ↔ (OutT.run env hist (o.method p)).1 = .panic := by
  unfold WinHeld.query WinHeld.on
  rw [ho]
  dsimp only
  rw [OutT.run_bind]
  generalize OutT.run env hist (o.method p) = r
  obtain ⟨x, t⟩ := r
  cases x <;> simp

/-- **C163, the other direction.** For a handle the client holds, these reasons are exact: the two questions about the driver
panic exactly if the handle has none; an ATA command exactly if it gets no bytes (nil or empty) and the driver is an ATA one; a
security command exactly if it gets no bytes and the driver is not the miniport one; and reading the discovery data again
exactly if the security command that reads it, called in this place, would succeed and deliver malformed data. -/
theorem win_handle_crash_iff (conv : Wide → Bytes) (ctx : Ctx)
    (env : Prog.Env WAReq WARep) (calls : List WinClientCall) (i : Nat) (o : WinOpened) :
    let before := winClientRun conv ctx env calls [] []
    let panics := fun c : WinClientCall => (OutT.run env before.trace (c.prog conv ctx before.held)).1 = .panic
    before.held[i]? = some o →
    (panics (.drivingType i) ↔ o.handle.dh = none) ∧
    (panics (.driverName i) ↔ o.handle.dh = none) ∧
    (∀ rw dma tf data secs, panics (.ata i rw dma tf data secs) ↔
      (data = none ∨ data = some []) ∧ ∃ k, WinBound o k ∧ k.isAta = true) ∧
    (∀ rw dma p c buf secs, panics (.security i rw dma p c buf secs) ↔ buf = [] ∧ ∃ k, WinBound o k ∧ NeedsBytes k) ∧
    (panics (.discover i) ↔ ∃ rep, (OutT.run env before.trace (o.method (fun h => h.securityCommand false false 1 1 (zeros 2048) 3))).1 =
      .ret rep ∧ rep.err = none ∧ Malformed rep.data) := by
  intro before panics ho
  have hs : AllWinSound before.held := win_client_sound conv ctx env calls [] [] (fun o ho => by cases ho)
  have cause : ∀ c, winWaits c = false → panics c →
      WinCrashCause before.held (OutT.run env before.trace (c.prog conv ctx before.held)).2 c := by
    intro c hp hc
    rcases win_call_sane conv ctx c _ hs hp env before.trace with ⟨a, ha, -⟩ | ⟨-, h⟩
    · rw [show _ = _ from hc] at ha; cases ha
    · exact h
  refine ⟨⟨fun h => ?_, fun h => ?_⟩, ⟨fun h => ?_, fun h => ?_⟩, fun rw dma tf data secs => ⟨fun h => ?_, fun h => ?_⟩,
    fun rw dma p c buf secs => ⟨fun h => ?_, fun h => ?_⟩, ?_⟩
  · have := cause _ rfl h
    cases this with
    | drivingType here bare quiet => rw [ho] at here; cases here; exact bare
  · exact (win_query_outcome ho _ env before.trace).2 (by rw [(win_bare_panics h).1]; rfl)
  · have := cause _ rfl h
    cases this with
    | driverName here bare quiet => rw [ho] at here; cases here; exact bare
  · exact (win_query_outcome ho _ env before.trace).2 (by rw [(win_bare_panics h).2]; rfl)
  · have := cause _ rfl h
    cases this with
    | ata here bound disk empty quiet => rw [ho] at here; cases here; exact ⟨empty, _, bound, disk⟩
  · obtain ⟨hd, k, hk, ha⟩ := h
    rcases hd with rfl | rfl
    · exact (win_query_outcome ho _ env before.trace).2 (by rw [(ata_panics hk ha rw dma tf secs env before.trace).2])
    · exact (win_query_outcome ho _ env before.trace).2 (by rw [(ata_panics hk ha rw dma tf secs env before.trace).1])
  · have := cause _ rfl h
    cases this with
    | security here bound kind quiet => rw [ho] at here; cases here; exact ⟨rfl, _, bound, kind⟩
  · obtain ⟨rfl, k, hk, ha⟩ := h
    obtain ⟨t, h1, -⟩ := security_panics hk ha rw dma p c secs env before.trace
    exact (win_query_outcome ho _ env before.trace).2 (by rw [h1])
  · rw [← discovery_malformed (hs o (List.mem_of_getElem? ho)) env before.trace]
    show (OutT.run env before.trace ((WinClientCall.discover i).prog conv ctx before.held)).1 = .panic ↔ _
    simp only [WinClientCall.prog]
    unfold WinHeld.on
    rw [ho]
    dsimp only
    rw [OutT.run_bind]
    generalize OutT.run env before.trace (o.method Handle.tcgDiscovery0) = r
    obtain ⟨x, t⟩ := r
    cases x <;> simp

/-! ## Concrete cases -/

def winOutcome : Out (List WinOpened) → Option Bool
  | .ret _ => some true
  | .panic => some false
  | .running => none

/-- An open handle is given no bytes, a closed one is asked for its driver: five panics. A closed handle refuses commands. -/
def winCrashingCalls : List WinClientCall :=
  [.openPath sampleRun [0x41#8], .ata 0 false false {} (some []) 3, .ata 0 false false {} none 3,
    .security 0 true false 1 1 [] 3, .ata 0 false false {} (some [0#8]) 3, .close sampleRun 0, .drivingType 0, .driverName 0,
    .security 0 true false 1 1 [] 3, .ata 0 false false {} none 3, .discover 0, .close sampleRun 0]

set_option maxRecDepth 20000 in
example : (winClientRun sampleConv sampleCtx sampleWinClient winCrashingCalls [] []).reports.map winOutcome =
    [some true, some false, some false, some false, some true, some true, some false, some false, some true, some true, some true,
      some true] := by
  decide +kernel

/-- The same Windows, but security data announces 2048 bytes and its last descriptor runs over them. -/
def sampleWinMalformed : Prog.Env WAReq WARep := fun h q => match q with
  | .sys (.ioctl f code inb n m) =>
    if code = 0x4d014 ∧ inb[36]? = some 0xa2 then { sys := { mem := [0, 0, 8, 0] ++ zeros 28 ++ (List.replicate 8 ([0, 0, 0, 255] ++ zeros 255)).flatten } }
    else sampleWinClient h (.sys (.ioctl f code inb n m))
  | q => sampleWinClient h q

set_option maxRecDepth 20000 in
example : (winClientRun sampleConv sampleCtx sampleWinMalformed [.openPath sampleRun [0x41#8]] [] []).reports.map winOutcome =
    [some false] := by
  decide +kernel

end Dparm
