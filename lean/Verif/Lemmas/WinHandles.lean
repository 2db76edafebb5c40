import Verif.Props.WinFactory
import Verif.Spec.WinEnum
/-!
# Lemmas: which calls of the Windows code open and close handles
-/
namespace Dparm
open Spec

/-- Requests to an open handle. -/
def isIoctl : WReq → Prop
  | .ioctl .. => True
  | _ => False

theorem handlesOpened_append (a b : Prog.Trace WReq WRep) : handlesOpened (a ++ b) = handlesOpened a ++ handlesOpened b := by
  simp [handlesOpened, List.filterMap_append]
theorem handlesClosed_append (a b : Prog.Trace WReq WRep) : handlesClosed (a ++ b) = handlesClosed a ++ handlesClosed b := by
  simp [handlesClosed, List.filterMap_append]

theorem ioctl_handles {t : Prog.Trace WReq WRep} (h : ∀ x ∈ t, isIoctl x.1) : handlesOpened t = [] ∧ handlesClosed t = [] := by
  induction t with
  | nil => exact ⟨rfl, rfl⟩
  | cons x t ih =>
    have := ih (fun y hy => h y (by simp [hy]))
    have hx := h x (by simp)
    obtain ⟨q, r⟩ := x
    cases q <;> simp only [isIoctl] at hx
    exact this

theorem ioctl_run {α : Type} {p : WinM α} (hp : OutT.Asks isIoctl p) (env : Prog.Env WReq WRep)
    (hist t : Prog.Trace WReq WRep) (o : Out α) (h : OutT.run env hist p = (o, t)) :
    handlesOpened t = [] ∧ handlesClosed t = [] := by
  have := ioctl_handles (OutT.asks_run hp env hist)
  rw [h] at this
  exact this

theorem winPass_ioctl (w : WinPass) (h : Nat) (rw : Bool) (data : Bytes) (addr base : Nat) :
    OutT.Asks isIoctl (w.run h rw data addr base) := by
  unfold WinPass.run
  dsimp only
  refine OutT.asks_bind (OutT.asks_lift _) (fun x => ?_)
  obtain ⟨a, c, ab⟩ := x
  dsimp only
  refine OutT.asks_bind (OutT.asks_ask trivial) (fun r => ?_)
  refine OutT.asks_bind (OutT.asks_lift _) (fun d => ?_)
  split
  · exact OutT.asks_ret _
  · refine OutT.asks_bind (OutT.asks_ask trivial) (fun r2 => ?_)
    split <;> exact OutT.asks_ret _

theorem winIdentify_ioctl (base : Nat) (task : Bytes → Nat → WinM (Option GoErr × Bytes))
    (ht : ∀ d a, OutT.Asks isIoctl (task d a)) : OutT.Asks isIoctl (winIdentify base task) := by
  unfold winIdentify
  dsimp only
  refine OutT.asks_bind (ht _ _) (fun x => ?_)
  obtain ⟨e, d⟩ := x
  dsimp only
  split
  · exact OutT.asks_ret _
  · exact OutT.asks_bind (OutT.asks_lift _) (fun _ => OutT.asks_ret _)

theorem winAtaOpen_ioctl (h base base' : Nat) : OutT.Asks isIoctl (winAtaOpen h base base') :=
  winIdentify_ioctl _ _ (fun _ _ => winPass_ioctl ..)
theorem winScsiOpen_ioctl (h base base' : Nat) : OutT.Asks isIoctl (winScsiOpen h base base') :=
  winIdentify_ioctl _ _ (fun _ _ => winPass_ioctl ..)

theorem asks_ite {α : Type} {A : WReq → Prop} {c : Prop} [Decidable c] {p q : WinM α} (hp : OutT.Asks A p)
    (hq : OutT.Asks A q) : OutT.Asks A (if c then p else q) := by
  split
  · exact hp
  · exact hq

theorem windowsNvmeOpen_ioctl (h : Nat) : OutT.Asks isIoctl (windowsNvmeOpen h) := by
  unfold windowsNvmeOpen
  generalize storageQuery 4096 49 1 1 = p
  refine OutT.asks_bind (OutT.asks_ask trivial) (fun r => ?_)
  generalize (4096 : Nat) = n
  split
  · exact OutT.asks_ret _
  · exact asks_ite (OutT.asks_ret _) (OutT.asks_ret _)

theorem winReadIoctl_ioctl (h code : Nat) (inb : Bytes) : OutT.Asks isIoctl (winReadIoctl h code inb) := by
  unfold winReadIoctl
  refine OutT.asks_bind (OutT.asks_ask trivial) (fun r => ?_)
  split
  · split
    · exact OutT.asks_panic
    · exact OutT.asks_ret _
  · split
    · split
      · exact OutT.asks_panic
      · refine OutT.asks_bind (OutT.asks_ask trivial) (fun r2 => ?_)
        split
        · exact OutT.asks_ret _
        · split
          · exact OutT.asks_panic
          · exact OutT.asks_ret _
    · exact OutT.asks_ret _

theorem winBasicInfo_ioctl (h : Nat) : OutT.Asks isIoctl (winBasicInfo h) := by
  unfold winBasicInfo
  refine OutT.asks_bind (OutT.asks_ask trivial) (fun n => ?_)
  refine OutT.asks_bind (OutT.asks_ask trivial) (fun g => ?_)
  refine OutT.asks_bind (winReadIoctl_ioctl ..) (fun x => ?_)
  split
  · exact OutT.asks_panic
  · exact OutT.asks_ret _
  · exact OutT.asks_lift _

theorem winStorageQuery_ioctl (h : Nat) (beyond : Nat → Byte) : OutT.Asks isIoctl (winStorageQuery h beyond) := by
  unfold winStorageQuery
  refine OutT.asks_bind (winReadIoctl_ioctl ..) (fun x => ?_)
  split
  · exact OutT.asks_panic
  · exact OutT.asks_ret _
  · exact OutT.asks_bind (OutT.asks_lift _) (fun _ => OutT.asks_ret _)

theorem miniportAdmin_ioctl (h : Nat) (c : NvmeCmd) (mem : Nat → Byte) : OutT.Asks isIoctl (miniportAdmin h c mem) := by
  unfold miniportAdmin
  dsimp only
  split
  · exact OutT.asks_ret _
  · refine OutT.asks_bind (OutT.asks_ask trivial) (fun r => ?_)
    split <;> exact OutT.asks_ret _

theorem winDrv_security_ioctl (k : WinDrv) (addr base : Nat) (behind : Nat → Byte) (q : DrvReq) (hq : isSecurityCall q) :
    OutT.Asks isIoctl (winDrv k addr base behind q) := by
  cases q <;> simp only [isSecurityCall] at hq
  · cases k
    · exact OutT.asks_ret _
    · exact OutT.asks_bind (winPass_ioctl ..) (fun _ => OutT.asks_ret _)
    · exact OutT.asks_bind (winPass_ioctl ..) (fun _ => OutT.asks_ret _)
    · exact OutT.asks_ret _
  · cases k
    · exact OutT.asks_panic
    · exact OutT.asks_panic
    · exact OutT.asks_bind (winPass_ioctl ..) (fun _ => OutT.asks_ret _)
    · exact OutT.asks_bind (winPass_ioctl ..) (fun _ => OutT.asks_ret _)
  · cases k
    · exact OutT.asks_bind (miniportAdmin_ioctl ..) (fun _ => OutT.asks_ret _)
    · exact OutT.asks_ret _
    · exact OutT.asks_panic
    · exact OutT.asks_panic

theorem init_ioctl (w : WinRun) (k : WinDrv) (hd : Handle) :
    OutT.Asks isIoctl (OutT.interp (winDrv k w.addr w.base w.behind) hd.init) :=
  OutT.asks_interp _ _ (init_asks hd) (fun q hq => winDrv_security_ioctl k _ _ _ q hq)

theorem asOpener_ioctl {α : Type} (open' : Nat → WinM (Res α)) (wrap : Nat → α → WinDrv × Driver) (h : Nat)
    (ho : OutT.Asks isIoctl (open' h)) : OutT.Asks isIoctl (asOpener open' wrap h) := by
  unfold asOpener
  refine OutT.asks_bind ho (fun x => ?_)
  split
  · exact OutT.asks_panic
  · exact OutT.asks_ret _
  · exact OutT.asks_ret _

/-- An opener gives what the driver gives. -/
theorem asOpener_run {α : Type} (open' : Nat → WinM (Res α)) (wrap : Nat → α → WinDrv × Driver) (h : Nat)
    (env : Prog.Env WReq WRep) (hist t : Prog.Trace WReq WRep) :
    (∀ e, OutT.run env hist (asOpener open' wrap h) = (.ret (.err e), t) → OutT.run env hist (open' h) = (.ret (.err e), t)) ∧
    (∀ x, OutT.run env hist (asOpener open' wrap h) = (.ret (.ok x), t) →
      ∃ a, OutT.run env hist (open' h) = (.ret (.ok a), t) ∧ x = wrap h a) := by
  unfold asOpener
  rw [OutT.run_bind]
  rcases OutT.run env hist (open' h) with ⟨o, u⟩
  cases o with
  | panic => simp
  | running => simp
  | ret r =>
    cases r with
    | panic => simp [OutT.run_panic]
    | err e =>
      simp only [OutT.run_ret, List.append_nil]
      refine ⟨fun e' h => ?_, fun x h => ?_⟩
      · simpa using h
      · simp at h
    | ok a =>
      simp only [OutT.run_ret, List.append_nil]
      refine ⟨fun e' h => ?_, fun x h => ?_⟩
      · simp at h
      · simp only [Prod.mk.injEq, Out.ret.injEq, Res.ok.injEq] at h
        exact ⟨a, by rw [h.2], h.1.symm⟩

/-- Each of the drivers: a failed open closes what it opened; a successful one is about the given handle, and keeps what it
opened. -/
theorem opener_handles (b b' h : Nat) (d : WinOpener) (hd : d ∈ winOpeners b b') (env : Prog.Env WReq WRep)
    (hist t : Prog.Trace WReq WRep) :
    (∀ e, OutT.run env hist (d h) = (.ret (.err e), t) → handlesOpened t = handlesClosed t) ∧
    (∀ x, OutT.run env hist (d h) = (.ret (.ok x), t) →
      x.1.handle = h ∧ handlesClosed t = [] ∧ handlesOpened t = keptBy x.1) := by
  have quiet : ∀ {α : Type} (open' : Nat → WinM (Res α)) (wrap : Nat → α → WinDrv × Driver),
      OutT.Asks isIoctl (open' h) → (∀ a, (wrap h a).1.handle = h ∧ keptBy (wrap h a).1 = []) →
      (∀ e, OutT.run env hist (asOpener open' wrap h) = (.ret (.err e), t) → handlesOpened t = handlesClosed t) ∧
      (∀ x, OutT.run env hist (asOpener open' wrap h) = (.ret (.ok x), t) →
        x.1.handle = h ∧ handlesClosed t = [] ∧ handlesOpened t = keptBy x.1) := by
    intro α open' wrap ha hw
    refine ⟨fun e he => ?_, fun x hx => ?_⟩
    · obtain ⟨h1, h2⟩ := ioctl_run (asOpener_ioctl open' wrap h ha) env hist t _ he
      rw [h1, h2]
    · obtain ⟨h1, h2⟩ := ioctl_run (asOpener_ioctl open' wrap h ha) env hist t _ hx
      obtain ⟨a, -, rfl⟩ := (asOpener_run open' wrap h env hist t).2 x hx
      exact ⟨(hw a).1, h2, by rw [h1, (hw a).2]⟩
  simp only [winOpeners, List.mem_cons, List.not_mem_nil, or_false] at hd
  rcases hd with rfl | rfl | rfl | rfl
  · refine ⟨fun e he => ?_, fun x hx => ?_⟩
    · exact (nvmeWin_handle_leak h env hist).1 e t ((asOpener_run _ _ h env hist t).1 e he)
    · obtain ⟨⟨sh, id⟩, ha, rfl⟩ := (asOpener_run _ _ h env hist t).2 x hx
      obtain ⟨h1, h2, -⟩ := (nvmeWin_handle_leak h env hist).2 sh id t ha
      exact ⟨rfl, h2, h1⟩
  · exact quiet _ _ (windowsNvmeOpen_ioctl h) (fun a => ⟨rfl, rfl⟩)
  · exact quiet _ _ (winScsiOpen_ioctl h b b') (fun a => ⟨rfl, rfl⟩)
  · exact quiet _ _ (winAtaOpen_ioctl h b b') (fun a => ⟨rfl, rfl⟩)

theorem winFirst_handles (h : Nat) (env : Prog.Env WReq WRep) (ds : List WinOpener)
    (hds : ∀ d ∈ ds, ∃ b b', d ∈ winOpeners b b') :
    ∀ hist t,
    (OutT.run env hist (winFirst ds h) = (.ret none, t) → handlesOpened t = handlesClosed t) ∧
    (∀ x, OutT.run env hist (winFirst ds h) = (.ret (some x), t) →
      x.1.handle = h ∧ handlesOpened t = handlesClosed t ++ keptBy x.1) := by
  induction ds with
  | nil =>
    intro hist t
    simp only [winFirst, OutT.run_ret, Prod.mk.injEq]
    refine ⟨fun h => by rw [← h.2]; rfl, fun x h => by simp at h⟩
  | cons d ds ih =>
    intro hist t
    obtain ⟨b, b', hd⟩ := hds d (by simp)
    unfold winFirst
    rw [OutT.run_bind]
    rcases hr : OutT.run env hist (d h) with ⟨o, u⟩
    obtain ⟨k1, k2⟩ := opener_handles b b' h d hd env hist u
    cases o with
    | panic => simp
    | running => simp
    | ret r =>
      cases r with
      | panic => simp [OutT.run_panic]
      | ok y =>
        simp only [OutT.run_ret, List.append_nil]
        refine ⟨fun h => by simp at h, fun x hx => ?_⟩
        simp only [Prod.mk.injEq, Out.ret.injEq, Option.some.injEq] at hx
        obtain ⟨rfl, rfl⟩ := hx
        obtain ⟨h1, h2, h3⟩ := k2 y hr
        exact ⟨h1, by rw [h2, h3]; rfl⟩
      | err e =>
        have hb := k1 e hr
        rcases hr2 : OutT.run env (hist ++ u) (winFirst ds h) with ⟨o2, u2⟩
        obtain ⟨j1, j2⟩ := ih (fun d hd => hds d (by simp [hd])) (hist ++ u) u2
        dsimp only
        rw [hr2]
        refine ⟨fun hx => ?_, fun x hx => ?_⟩
        · simp only [Prod.mk.injEq] at hx
          obtain ⟨rfl, rfl⟩ := hx
          rw [handlesOpened_append, handlesClosed_append, hb, j1 hr2]
        · simp only [Prod.mk.injEq] at hx
          obtain ⟨rfl, rfl⟩ := hx
          obtain ⟨h1, h2⟩ := j2 x hr2
          refine ⟨h1, ?_⟩
          rw [handlesOpened_append, handlesClosed_append, hb, h2, List.append_assoc]

/-- `OpenByHandle` itself leaves open only what the driver keeps. -/
theorem winOpenByHandle_handles (w : WinRun) (b b' h : Nat) (path : Bytes) (env : Prog.Env WReq WRep)
    (hist t : Prog.Trace WReq WRep) (o : WinOpened)
    (hrun : OutT.run env hist (winOpenByHandle w (winOpeners b b') h path) = (.ret o, t)) :
    (∀ k, o.drv = some k → k.handle = h ∧ handlesOpened t = handlesClosed t ++ keptBy k) ∧
    (o.drv = none → handlesOpened t = handlesClosed t) := by
  obtain ⟨bi, tb, segs, rest, hb, rfl, -, hcase⟩ := win_open_by_handle w _ h path env hist t o hrun
  obtain ⟨b1, b2⟩ := ioctl_run (winBasicInfo_ioctl h) env hist tb _ hb
  have hds : ∀ d ∈ winOpeners b b', ∃ b b', d ∈ winOpeners b b' := fun d hd => ⟨b, b', hd⟩
  rcases hcase with ⟨i, x, e, hfa, hdrv, -, -, -, -, -, -, -, hinit⟩ | ⟨hna, hdrv, -, -, -, q, hq, -⟩
  · have hf := ((win_first_driver (winOpeners b b') h env (hist ++ tb) segs.flatten).1 x).mpr ⟨i, segs, hfa, rfl⟩
    obtain ⟨h1, h2⟩ := (winFirst_handles h env _ hds (hist ++ tb) segs.flatten).2 x hf
    obtain ⟨r1, r2⟩ := ioctl_run (init_ioctl w x.1 _) env _ rest _ hinit
    refine ⟨fun k hk => ?_, fun hn => ?_⟩
    · rw [hdrv] at hk
      cases hk
      refine ⟨h1, ?_⟩
      simp only [handlesOpened_append, handlesClosed_append, b1, b2, r1, r2, h2, List.nil_append, List.append_nil]
    · rw [hdrv] at hn; cases hn
  · have hf := (win_first_driver (winOpeners b b') h env (hist ++ tb) segs.flatten).2.mpr ⟨segs, hna, rfl⟩
    have h2 := (winFirst_handles h env _ hds (hist ++ tb) segs.flatten).1 hf
    obtain ⟨r1, r2⟩ := ioctl_run (winStorageQuery_ioctl h w.beyond) env _ rest _ hq
    refine ⟨fun k hk => ?_, fun hn => ?_⟩
    · rw [hdrv] at hk; cases hk
    · simp only [handlesOpened_append, handlesClosed_append, b1, b2, r1, r2, h2, List.nil_append, List.append_nil]

end Dparm
