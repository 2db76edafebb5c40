import Verif.Spec.WinLooking
import Verif.Props.Looking
import Verif.Props.WinClient
import Verif.Props.WinSystem
import Verif.Props.WinNvme
/-!
# Clients that only look do not write, on Windows (C157)
-/
namespace Dparm
open Spec

/-! ## handles -/

/-- A handle as the Windows factory makes it, possibly closed since. -/
def WinMade (o : WinOpened) : Prop := o.handle.dh = none ∨ ∃ k, o.drv = some k ∧ DriverOf k.index o.handle.dh

theorem WinMade.set {o : WinOpened} (h : WinMade o) {h' : Handle} (hd : h'.dh = none ∨ h'.dh = o.handle.dh) :
    WinMade { o with handle := h' } := by
  rcases hd with hd | hd
  · exact .inl hd
  · rcases h with h1 | ⟨k, h1, h2⟩
    · exact .inl (hd.trans h1)
    · exact .inr ⟨k, h1, by rw [hd]; exact h2⟩

/-- All handles the client holds are of this kind. -/
def WinAllMade (st : WinHeld) : Prop := ∀ o ∈ st, WinMade o

theorem WinAllMade.add {st : WinHeld} (h : WinAllMade st) {r : Res WinOpened} (hr : ∀ o, r = .ok o → WinMade o) :
    WinAllMade (st.add r).held := by
  cases r with
  | ok o =>
    intro x hx
    rcases List.mem_append.1 hx with hx | hx
    · exact h x hx
    · rw [List.mem_singleton.1 hx]; exact hr o rfl
  | err e => exact h
  | panic => exact h

theorem WinAllMade.set {st : WinHeld} (h : WinAllMade st) {o : WinOpened} (i : Nat) (ho : WinMade o) :
    WinAllMade (st.set i o) := by
  intro x hx
  rcases List.mem_or_eq_of_mem_set hx with hx | rfl
  · exact h x hx
  · exact ho

theorem winOpenByHandle_made (w : WinRun) (b b' h : Nat) (path : Bytes) :
    OutT.Returns WinMade (winOpenByHandle w (winOpeners b b') h path) := by
  unfold winOpenByHandle
  refine OutT.returns_bind (OutT.returns_any _) (fun bi _ => ?_)
  dsimp only
  refine OutT.returns_bind (winFirst_kind h _ (winOpeners_kind b b' h)) (fun x hx => ?_)
  split
  · rename_i k d
    refine OutT.returns_bind (OutT.returns_any _) (fun _ _ => OutT.returns_bind (OutT.returns_any _) (fun _ _ => ?_))
    refine OutT.returns_bind (OutT.returns_interp _ _ (init_returns_dh _)) (fun y hy => OutT.returns_ret ?_)
    refine .inr ⟨k, rfl, ?_⟩
    show DriverOf k.index y.1.dh
    rw [hy]
    exact index_driverOf (hx k d rfl)
  · refine OutT.returns_bind (OutT.returns_any _) (fun x _ => ?_)
    split
    · exact OutT.returns_panic
    · exact OutT.returns_ret (.inl rfl)
    · exact OutT.returns_ret (.inl (by unfold winDescribe; rfl))

theorem winOpenPath_made (w : WinRun) (path : Bytes) :
    OutT.Returns (fun r => ∀ o, r = .ok o → WinMade o) (winOpenPath w path) := by
  unfold winOpenPath winOpenByPath
  refine OutT.returns_bind (OutT.returns_any _) (fun x _ => ?_)
  split
  · exact OutT.returns_panic
  · exact OutT.returns_ret (fun o h => by cases h)
  · exact OutT.returns_bind (winOpenByHandle_made w _ _ _ path) (fun o ho => OutT.returns_ret (fun o' h => by cases h; exact ho))

/-! ## the exchanges -/

theorem win_looks {α : Type} (m : Bool) {p : WinM α} (hp : OutT.Asks WinReadsOnly p) :
    OutT.Asks (WinLooksOnly m) (OutT.interp winCall p) :=
  OutT.asks_interp _ _ hp (fun q hq => OutT.asks_bind (OutT.asks_ask (.inl hq)) (fun _ => OutT.asks_ret _))

theorem leVal_take_zero : ∀ (b : Bytes) (n : Nat), leVal b = 0 → leVal (b.take n) = 0
  | [], n, _ => by simp [leVal]
  | b :: bs, 0, _ => rfl
  | b :: bs, n + 1, h => by
    have h' : b.toNat + 256 * leVal bs = 0 := h
    have := leVal_take_zero bs n (by omega)
    show b.toNat + 256 * leVal (bs.take n) = 0
    omega

theorem query_zero (m v n : Nat) (h : v < 2 ^ 32) : leVal (slice ((storageQuery m 50 2 v).take n) 4 4) = 0 := by
  have h1 := (storageQuery_view m 50 2 v (by decide) (by decide) h).2
  generalize storageQuery m 50 2 v = p at h1 ⊢
  have h2 : leVal (slice p 4 4) = 0 := congrArg QueryView.queryType h1
  unfold slice at h2 ⊢
  rw [List.drop_take, List.take_take, Nat.min_comm, ← List.take_take]
  exact leVal_take_zero _ _ h2

theorem windowsLogPage_reads (h : Nat) (nsid logId : BitVec 32) (rae : Bool) (size : Int) :
    OutT.Asks WinReadsOnly (windowsLogPage h nsid logId rae size) := by
  unfold windowsLogPage
  refine asks_ite OutT.asks_panic ?_
  have hq := fun n => query_zero size.toNat logId.toNat n logId.isLt
  generalize storageQuery size.toNat 50 2 logId.toNat = p at hq ⊢
  dsimp only
  refine OutT.asks_bind (OutT.asks_ask (.inr (.inl ⟨rfl, hq _⟩))) (fun r => ?_)
  split
  · exact OutT.asks_ret _
  · exact asks_ite (OutT.asks_ret _) (OutT.asks_ret _)

theorem logPage_reads (k : WinDrv) (hk : k.isNvme = true) (addr base : Nat) (behind : Nat → Byte) (nsid logId : BitVec 32)
    (rae : Bool) (size : Nat) : OutT.Asks WinReadsOnly (winDrv k addr base behind (.logPage nsid logId rae size)) := by
  cases k with
  | scsi h => cases hk
  | ata h => cases hk
  | nvmeWin h sh => exact OutT.asks_ret _
  | windowsNvme h =>
    unfold winDrv
    refine OutT.asks_bind (windowsLogPage_reads ..) (fun x => ?_)
    split
    · exact OutT.asks_panic
    · exact OutT.asks_ret _
    · exact OutT.asks_ret _

/-- A method of a handle of such a kind. -/
theorem winMethod_looks {α : Type} {o : WinOpened} (h : WinMade o) {p : Handle → DrvM α} {A : WinDrv → DrvReq → Prop}
    (hA : ∀ k addr base behind q, A k q → OutT.Asks WinReadsOnly (winDrv k addr base behind q))
    (h0 : o.handle.dh = none → OutT.Asks (fun _ => False) (p o.handle))
    (h1 : ∀ k, DriverOf k.index o.handle.dh → OutT.Asks (A k) (p o.handle)) :
    OutT.Asks (WinLooksOnly false) (o.method p) := by
  unfold WinOpened.method
  rcases h with hd | ⟨k, hk, hd⟩
  · split <;> exact OutT.asks_interp _ _ (h0 hd) (fun q hq => hq.elim)
  · rw [hk]
    refine OutT.asks_interp _ _ (h1 k hd) (fun q hq => ?_)
    exact OutT.asks_bind (OutT.asks_ask trivial) (fun p => win_looks _ (hA k _ _ _ q hq))

/-- What the client holds is as made after the call. -/
theorem win_call_made (conv : Wide → Bytes) (ctx : Ctx) (c : WinClientCall) (st : WinHeld) (h : WinAllMade st) :
    OutT.Returns (fun a : WinReported => WinAllMade a.held) (c.prog conv ctx st) := by
  have hopen : ∀ w path, OutT.Returns (fun r : Res WinOpened => ∀ o, r = .ok o → WinMade o)
      (OutT.interp winCall (winOpenPath w path)) := fun w path => OutT.returns_interp _ _ (winOpenPath_made w path)
  have hon : ∀ i (f : WinOpened → WAM WinReported), (∀ o, o ∈ st → OutT.Returns (fun a : WinReported => WinAllMade a.held) (f o)) →
      OutT.Returns (fun a : WinReported => WinAllMade a.held) (st.on i f) := by
    intro i f hf
    unfold WinHeld.on
    split
    · rename_i o ho
      exact hf o (List.mem_of_getElem? ho)
    · exact OutT.returns_ret h
  have hq : ∀ i {α : Type} (p : Handle → DrvM α), OutT.Returns (fun a : WinReported => WinAllMade a.held) (st.query i p) :=
    fun i α p => hon i _ (fun o _ => OutT.returns_bind (OutT.returns_any _) (fun _ _ => OutT.returns_ret h))
  cases c with
  | openPath w path => exact OutT.returns_bind (hopen w path) (fun r hr => OutT.returns_ret (h.add hr))
  | enumDrives w fuel =>
    refine OutT.returns_bind (OutT.returns_any _) (fun r _ => OutT.returns_ret ?_)
    cases r <;> exact h
  | enumVolumes beyond fuel => exact OutT.returns_bind (OutT.returns_any _) (fun r _ => OutT.returns_ret h)
  | openVolume w vols path =>
    refine OutT.returns_bind (B := fun r => ∀ o, r = some (Res.ok o) → WinMade o) ?_ (fun r hr => ?_)
    · refine OutT.returns_interp _ _ ?_
      unfold winOpenByVolumePath
      split
      · exact OutT.returns_ret (fun o h => by cases h)
      · split
        · exact OutT.returns_ret (fun o h => by cases h)
        · exact OutT.returns_bind (winOpenPath_made w _) (fun r hr => OutT.returns_ret (fun o h => by cases h; exact hr o rfl))
    · cases r with
      | none => exact OutT.returns_ret h
      | some r => exact OutT.returns_ret (h.add (fun o ho => hr o (by rw [ho])))
  | openPartition w p => exact OutT.returns_bind (hopen w _) (fun r hr => OutT.returns_ret (h.add hr))
  | close w i =>
    refine hon i _ (fun o ho => OutT.returns_bind (B := WinMade) (OutT.returns_interp _ _ ?_) (fun o' ho' => OutT.returns_ret (h.set i ho')))
    have hc : OutT.Returns (fun h' : Handle => h'.dh = none) o.handle.close := by
      unfold Handle.close
      split
      · rename_i hd
        exact OutT.returns_ret hd
      · exact OutT.returns_bind (OutT.returns_any _) (fun _ _ => OutT.returns_ret rfl)
    unfold WinOpened.close
    split
    · exact OutT.returns_bind (OutT.returns_interp _ _ hc) (fun h' hh => OutT.returns_ret ((h o ho).set (.inl hh)))
    · exact OutT.returns_ret (h o ho)
  | discover i =>
    refine hon i _ (fun o ho => OutT.returns_bind (B := fun x => x.1.dh = o.handle.dh) ?_
      (fun x hx => OutT.returns_ret (h.set i ((h o ho).set (.inr hx)))))
    unfold WinOpened.method
    split <;> exact OutT.returns_interp _ _ (discovery_returns _)
  | drivingType i => exact hq i _
  | driverName i => exact hq i _
  | ata i rw dma tf data secs => cases data <;> exact hq i _
  | logPage i nsid logId rae size => exact hq i _
  | security i rw dma p c b s => exact hq i _
  | revert i d pw psid adm =>
    exact hon i _ (fun o _ => OutT.returns_bind (OutT.returns_any _) (fun _ _ => OutT.returns_ret h))
  | tcg i d c =>
    exact hon i _ (fun o _ => OutT.returns_bind (OutT.returns_any _) (fun _ _ => OutT.returns_ret h))
  | defaultPassword i d =>
    exact hon i _ (fun o _ => OutT.returns_bind (OutT.returns_any _) (fun _ _ => OutT.returns_ret h))

theorem winLooks_mono {m : Bool} {q : WAReq} (h : WinLooksOnly false q) : WinLooksOnly m q := by
  cases q with
  | sys q =>
    rcases h with h | ⟨h, -⟩
    · exact .inl h
    · cases h
  | place => trivial
  | now => exact h
  | sleep n => exact h

/-- A call that looks only looks. -/
theorem win_call_looks (conv : Wide → Bytes) (ctx : Ctx) (c : WinClientCall) (st : WinHeld) (h : WinAllMade st)
    (hl : winLooks c = true) : OutT.Asks (WinLooksOnly c.enumsVolumes) (c.prog conv ctx st) := by
  have hopen : ∀ w path, OutT.Asks WinReadsOnly (winOpenPath w path) := fun w path => winOpenByPath_reads w _ _ path
  have hon : ∀ i (f : WinOpened → WAM WinReported), (∀ o, o ∈ st → OutT.Asks (WinLooksOnly false) (f o)) →
      OutT.Asks (WinLooksOnly false) (st.on i f) := by
    intro i f hf
    unfold WinHeld.on
    split
    · rename_i o ho
      exact hf o (List.mem_of_getElem? ho)
    · exact OutT.asks_ret _
  have hdrv : ∀ i {α : Type} (p : Handle → DrvM α) (A : WinDrv → DrvReq → Prop),
      (∀ k addr base behind q, A k q → OutT.Asks WinReadsOnly (winDrv k addr base behind q)) →
      (∀ h : Handle, h.dh = none → OutT.Asks (fun _ => False) (p h)) →
      (∀ (h : Handle) (k : WinDrv), DriverOf k.index h.dh → OutT.Asks (A k) (p h)) → OutT.Asks (WinLooksOnly false) (st.query i p) :=
    fun i α p A hA h0 h1 => hon i _ (fun o ho =>
      OutT.asks_bind (winMethod_looks (h o ho) hA (h0 _) (fun k => h1 _ k)) (fun _ => OutT.asks_ret _))
  cases c with
  | openPath w path => exact OutT.asks_bind (win_looks _ (hopen w path)) (fun _ => OutT.asks_ret _)
  | enumDrives w fuel => exact OutT.asks_bind (win_looks _ (winEnumDrives_reads ..)) (fun _ => OutT.asks_ret _)
  | enumVolumes beyond fuel =>
    refine OutT.asks_bind ?_ (fun _ => OutT.asks_ret _)
    refine OutT.asks_interp (A := fun q => WinReadsOnly q ∨ ∃ m, q = .setErrorMode m) _ _ ?_ (fun q hq => ?_)
    · unfold winEnumVolumes
      refine OutT.asks_bind (OutT.asks_ask (.inr ⟨1, rfl⟩)) (fun m => ?_)
      exact OutT.asks_defer (OutT.asks_mono (fun _ h => .inl h) (winSearchVolumes_reads ..))
        (OutT.asks_bind (OutT.asks_ask (.inr ⟨m.n, rfl⟩)) (fun _ => OutT.asks_ret _))
    · refine OutT.asks_bind (OutT.asks_ask ?_) (fun _ => OutT.asks_ret _)
      rcases hq with hq | hq
      · exact .inl hq
      · exact .inr ⟨rfl, hq⟩
  | openVolume w vols path =>
    refine OutT.asks_bind (win_looks _ ?_) (fun r => ?_)
    · unfold winOpenByVolumePath
      split
      · exact OutT.asks_ret _
      · split
        · exact OutT.asks_ret _
        · exact OutT.asks_bind (hopen w _) (fun _ => OutT.asks_ret _)
    · split <;> exact OutT.asks_ret _
  | openPartition w p => exact OutT.asks_bind (win_looks _ (hopen w _)) (fun _ => OutT.asks_ret _)
  | close w i =>
    exact hon i _ (fun o _ => OutT.asks_bind (win_looks _ (winOpenedClose_reads w o)) (fun _ => OutT.asks_ret _))
  | discover i =>
    refine hon i _ (fun o ho => OutT.asks_bind (winMethod_looks (h o ho) (A := fun k q => DrvOk k.index q) winDrv_reads
      (gentle_discovery _).2 (fun k hd => tcgDiscovery0_drvOk _ hd)) (fun _ => OutT.asks_ret _))
  | drivingType i =>
    refine hdrv i _ (fun k q => DrvOk k.index q) winDrv_reads (fun h => (gentle_drivingType h).2) (fun h k hd => ?_)
    obtain ⟨d, hd, -⟩ := hd
    unfold Handle.getDrivingType
    rw [hd]
    exact OutT.asks_bind (OutT.asks_ask (index_plain k).1) (fun _ => OutT.asks_ret _)
  | driverName i =>
    refine hdrv i _ (fun k q => DrvOk k.index q) winDrv_reads (fun h => (gentle_driverName h).2) (fun h k hd => ?_)
    obtain ⟨d, hd, -⟩ := hd
    unfold Handle.getDriverName
    rw [hd]
    exact OutT.asks_bind (OutT.asks_ask (index_plain k).2.1) (fun _ => OutT.asks_ret _)
  | logPage i nsid logId rae size =>
    refine hdrv i _ (fun k q => k.isNvme = true ∧ q = .logPage nsid logId rae size) ?_
      (fun h => (gentle_logPage h nsid logId rae size).2) (fun h k hd => ?_)
    · rintro k addr base behind q ⟨hk, rfl⟩
      exact logPage_reads k hk ..
    · obtain ⟨d, hd, -, -, hn⟩ := hd
      unfold Handle.nvmeGetLogPage
      rw [hd]
      dsimp only
      split
      · rename_i hnv
        refine OutT.asks_bind (OutT.asks_ask ⟨?_, rfl⟩) (fun _ => OutT.asks_ret _)
        rw [hn] at hnv
        cases k <;> first | rfl | (exact absurd hnv (by simp [WinDrv.index, WinDrv.isAta]))
      · exact OutT.asks_ret _
  | ata => cases hl
  | security => cases hl
  | revert => cases hl
  | defaultPassword => cases hl
  | tcg => cases hl

/-- The calls of a history, one by one. -/
theorem win_steps_look (conv : Wide → Bytes) (ctx : Ctx) (env : Prog.Env WAReq WARep)
    (calls : List WinClientCall) : ∀ (st : WinHeld) (hist : Prog.Trace WAReq WARep), WinAllMade st →
    ∀ x ∈ calls.zip (winClientSteps conv ctx env calls st hist), winLooks x.1 = true → ∀ y ∈ x.2, WinLooksOnly x.1.enumsVolumes y.1 := by
  induction calls with
  | nil => intro st hist _ x hx; cases hx
  | cons c cs ih =>
    intro st hist h x hx hl
    unfold winClientSteps at hx
    rw [List.zip_cons_cons] at hx
    rcases List.mem_cons.1 hx with rfl | hx
    · exact OutT.asks_run (win_call_looks conv ctx c st h hl) env hist
    · refine ih _ _ ?_ x hx hl
      have hm := OutT.returns_run (win_call_made conv ctx c st h) env hist
      generalize (OutT.run env hist (c.prog conv ctx st)).1 = o at hm
      cases o with
      | ret a => exact hm a rfl
      | panic => exact h
      | running => exact h

theorem winClientSteps_flatten (conv : Wide → Bytes) (ctx : Ctx) (env : Prog.Env WAReq WARep) :
    ∀ (calls : List WinClientCall) (st : WinHeld) (h : Prog.Trace WAReq WARep),
    (winClientSteps conv ctx env calls st h).flatten = (winClientRun conv ctx env calls st h).trace ∧
    (winClientSteps conv ctx env calls st h).length = calls.length
  | [], _, _ => ⟨rfl, rfl⟩
  | c :: cs, st, h => by
    unfold winClientSteps winClientRun
    have := winClientSteps_flatten conv ctx env cs
    constructor
    · rw [List.flatten_cons, (this _ _).1]
    · rw [List.length_cons, (this _ _).2, List.length_cons]

/-! ## The property -/

/-- **C157.** On Windows, in whatever history: a call that passes no command of the caller to a drive makes Windows calls
only, and each of them reads or does not reach a drive; `EnumVolumes` also changes the process's error mode. -/
theorem win_looking_reads_only (conv : Wide → Bytes) (ctx : Ctx) (env : Prog.Env WAReq WARep) (calls : List WinClientCall) :
    ∀ x ∈ calls.zip (winClientSteps conv ctx env calls [] []), winLooks x.1 = true →
      ∀ y ∈ x.2, WinLooksOnly x.1.enumsVolumes y.1 :=
  win_steps_look conv ctx env calls [] [] (fun o ho => by cases ho)

/-- **C157.** So a client that makes no other calls writes to no drive. -/
theorem win_looking_client_reads_only (conv : Wide → Bytes) (ctx : Ctx) (env : Prog.Env WAReq WARep)
    (calls : List WinClientCall) (hl : ∀ c ∈ calls, winLooks c = true) :
    ∀ y ∈ (winClientRun conv ctx env calls [] []).trace, WinLooksOnly (calls.any WinClientCall.enumsVolumes) y.1 := by
  intro y hy
  rw [← (winClientSteps_flatten ..).1, List.mem_flatten] at hy
  obtain ⟨t, ht, hy⟩ := hy
  obtain ⟨n, hn⟩ := List.getElem?_of_mem ht
  have hn' : n < calls.length := by
    have := (List.getElem?_eq_some_iff.1 hn).1
    rw [(winClientSteps_flatten ..).2] at this
    exact this
  have h1 := win_looking_reads_only conv ctx env calls (calls[n], t) (by
    refine List.mem_of_getElem? (i := n) ?_
    rw [List.getElem?_zip_eq_some]
    exact ⟨List.getElem?_eq_getElem hn', hn⟩) (hl _ (List.getElem_mem _)) y hy
  by_cases hv : calls[n].enumsVolumes = true
  · rw [List.any_eq_true.2 ⟨_, List.getElem_mem hn', hv⟩]
    rw [hv] at h1
    exact h1
  · rw [Bool.not_eq_true] at hv
    dsimp only at h1
    rw [hv] at h1
    exact winLooks_mono h1

/-- Enumerating, opening, a log page (an error on this drive), discovering again, asking for the driver's name, closing. -/
def winLookingCalls : List WinClientCall :=
  [.enumDrives sampleRun 5, .enumVolumes (fun _ => 0) 5, .openPath sampleRun [0x41#8], .logPage 0 1 2 false 512, .discover 0,
    .driverName 0, .close sampleRun 0]

set_option maxRecDepth 20000 in
/-- The sample system of C143: SCSI pass-through requests, and two changes of the error mode. -/
example : (∀ c ∈ winLookingCalls, winLooks c = true) ∧
    ((winClientRun sampleConv sampleCtx sampleWinClient winLookingCalls [] []).trace.filter
      (fun x => match x.1 with | .sys (.ioctl _ 0x4d014 _ _ _) => true | _ => false)).length = 6 := by
  refine ⟨by decide, ?_⟩
  decide +kernel

/-- What a call that looks must not do: an ATA or SCSI pass-through that sends data, a miniport request with another command
than Identify and Security Receive, a control request of another kind, sleeping. -/
example (h : Nat) (inb : Bytes) (n : Nat) (d : Option (Nat × Bytes)) (m : Bool) (ns : Nat) :
    ((ataView (inb.take 48)).flags = 4 → ¬ WinLooksOnly m (.sys (.ioctl h 0x4d030 inb n d))) ∧
    ((scsiView (inb.take 96)).dataIn = 0 → ¬ WinLooksOnly m (.sys (.ioctl h 0x4d014 inb n d))) ∧
    ((miniportView inb).opcode = 0x81 → ¬ WinLooksOnly m (.sys (.ioctl h 0x4d008 inb n d))) ∧
    ¬ WinLooksOnly m (.sys (.ioctl h 0x7c100 inb n d)) ∧ ¬ WinLooksOnly m (.sleep ns) := by
  have hc : ∀ c d', c ≠ 0x2d1400 → c ∉ inquiryCodes → WinLooksOnly m (.sys (.ioctl h c inb n d')) →
      ((c = 0x4d030 ∨ c = 0x4d02c) ∧ AtaReads (ataView (inb.take 48))) ∨
      ((c = 0x4d014 ∨ c = 0x4d004) ∧ ScsiReads (scsiView (inb.take 96))) ∨
      (c = 0x4d008 ∧ MiniportReads (miniportView inb)) := by
    rintro c d' h1 h2 ((h | ⟨h, -⟩ | h) | ⟨-, m, h⟩)
    · exact absurd h h2
    · exact absurd h h1
    · exact h
    · cases h
  refine ⟨fun hf hw => ?_, fun hf hw => ?_, fun hf hw => ?_, fun hw => ?_, id⟩
  · rcases hc _ _ (by decide) (by decide) hw with ⟨-, h, -⟩ | ⟨h, -⟩ | ⟨h, -⟩
    · omega
    · exact absurd h (by decide)
    · exact absurd h (by decide)
  · rcases hc _ _ (by decide) (by decide) hw with ⟨h, -⟩ | ⟨-, h, -⟩ | ⟨h, -⟩
    · exact absurd h (by decide)
    · omega
    · exact absurd h (by decide)
  · rcases hc _ _ (by decide) (by decide) hw with ⟨h, -⟩ | ⟨h, -⟩ | ⟨-, h | ⟨h, -⟩⟩
    · exact absurd h (by decide)
    · exact absurd h (by decide)
    · rw [hf] at h; exact absurd h (by decide)
    · rw [hf] at h; exact absurd h (by decide)
  · rcases hc _ _ (by decide) (by decide) hw with ⟨h, -⟩ | ⟨h, -⟩ | ⟨h, -⟩ <;> exact absurd h (by decide)

end Dparm
