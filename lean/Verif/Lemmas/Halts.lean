import Verif.Lemmas.Asks
import Verif.Lemmas.Factory
import Verif.Model.WinFactory
/-!
# Programs that come to an end whatever the answers
-/
namespace Dparm

/-- No run of the program is unfinished. -/
def Prog.Halts {Q R α : Type} : Prog Q R (Out α) → Prop
  | .done .running => False
  | .done _ => True
  | .ask _ k => ∀ r, Prog.Halts (k r)

namespace OutT
variable {Q R Q' R' α β : Type}

def Halts (p : OutT Q R α) : Prop := Prog.Halts p

theorem halts_run {p : OutT Q R α} (hp : Halts p) (env : Prog.Env Q R) (hist : Prog.Trace Q R) :
    (run env hist p).1 ≠ .running := by
  have : ∀ (p : Prog Q R (Out α)) (hist : Prog.Trace Q R), Prog.Halts p → (Prog.run env hist p).1 ≠ .running := by
    intro p
    induction p with
    | done o =>
      intro hist hp
      rw [Prog.run_done]
      cases o with
      | running => exact absurd hp id
      | ret a => simp
      | panic => simp
    | ask q k ih =>
      intro hist hp
      exact ih _ _ (hp _)
  exact this p hist hp

theorem halts_ret (a : α) : Halts (ret a : OutT Q R α) := trivial
theorem halts_panic : Halts (panic : OutT Q R α) := trivial
theorem halts_lift (x : P α) : Halts (lift x : OutT Q R α) := by cases x <;> trivial
theorem halts_ask (q : Q) : Halts (ask q : OutT Q R R) := fun _ => trivial

theorem halts_bind {p : OutT Q R α} {f : α → OutT Q R β} (hp : Halts p) (hf : ∀ a, Halts (f a)) : Halts (p >>= f) := by
  have : ∀ p : Prog Q R (Out α), Prog.Halts p → Prog.Halts (Prog.bind p (cont f)) := by
    intro p
    induction p with
    | done o => cases o with
      | ret a => intro _; exact hf a
      | panic => intro _; trivial
      | running => intro h; exact h
    | ask q k ih => intro h r; exact ih r (h r)
  exact this p hp

theorem halts_interp (f : Q → OutT Q' R' R) (p : Prog Q R (Out α)) (hp : Prog.Halts p) (hf : ∀ q, Halts (f q)) :
    Halts (interp f p) := by
  induction p with
  | done o => cases o with
    | ret a => trivial
    | panic => trivial
    | running => exact hp
  | ask q k ih => exact halts_bind (hf q) (fun r => ih r (hp r))

theorem halts_ite {c : Prop} [Decidable c] {p q : OutT Q R α} (hp : Halts p) (hq : Halts q) :
    Halts (if c then p else q) := by
  split
  · exact hp
  · exact hq
end OutT

open OutT

macro "halts" : tactic => `(tactic| repeat (first
  | exact OutT.halts_ret _ | exact OutT.halts_panic | exact OutT.halts_lift _ | exact OutT.halts_ask _
  | refine OutT.halts_bind ?_ (fun _ => ?_) | dsimp only | split))

theorem winPass_halts (w : WinPass) (h : Nat) (rw : Bool) (data : Bytes) (addr base : Nat) :
    Halts (w.run h rw data addr base) := by
  unfold WinPass.run
  halts

theorem winIdentify_halts (base : Nat) (task : Bytes → Nat → WinM (Option GoErr × Bytes))
    (ht : ∀ d a, Halts (task d a)) : Halts (winIdentify base task) := by
  unfold winIdentify
  dsimp only
  refine OutT.halts_bind (ht _ _) (fun _ => ?_)
  halts

theorem windowsNvmeOpen_halts (h : Nat) : Halts (windowsNvmeOpen h) := by
  unfold windowsNvmeOpen
  generalize storageQuery 4096 49 1 1 = p
  refine OutT.halts_bind (OutT.halts_ask _) (fun r => ?_)
  generalize (4096 : Nat) = n
  split
  · exact OutT.halts_ret _
  · exact OutT.halts_ite (OutT.halts_ret _) (OutT.halts_ret _)

theorem winOpenDevice_halts (path : Bytes) : Halts (winOpenDevice path) := by
  unfold winOpenDevice
  halts

theorem winScsiPath_halts (h : Nat) : Halts (winScsiPath h) := by
  unfold winScsiPath
  halts

theorem winMiniportIdentity_halts (h : Nat) : Halts (winMiniportIdentity h) := by
  unfold winMiniportIdentity
  generalize copyAt (copyAt miniportHeader 52 [6#8]) 92 (Spec.leBytes 4 1) = p
  refine OutT.halts_bind (OutT.halts_ask _) (fun r => ?_)
  split <;> exact OutT.halts_ret _

theorem nvmeWinOpen_halts (h : Nat) : Halts (nvmeWinOpen h) := by
  unfold nvmeWinOpen
  generalize (4096 : Nat) = n
  refine OutT.halts_bind (winScsiPath_halts h) (fun x => ?_)
  split
  · halts
  · halts
  · refine OutT.halts_bind (winOpenDevice_halts _) (fun x => ?_)
    split
    · halts
    · halts
    · refine OutT.halts_bind (winMiniportIdentity_halts _) (fun x => ?_)
      split
      · halts
      · halts
      · halts

theorem asOpener_halts {α : Type} (open' : Nat → WinM (Res α)) (wrap : Nat → α → WinDrv × Driver) (h : Nat)
    (ho : Halts (open' h)) : Halts (asOpener open' wrap h) := by
  unfold asOpener
  refine OutT.halts_bind ho (fun x => ?_)
  halts

theorem winOpeners_halts (b b' : Nat) : ∀ d ∈ winOpeners b b', ∀ h, Halts (d h) := by
  intro d hd h
  simp only [winOpeners, List.mem_cons, List.not_mem_nil, or_false] at hd
  rcases hd with rfl | rfl | rfl | rfl
  · exact asOpener_halts _ _ _ (nvmeWinOpen_halts h)
  · exact asOpener_halts _ _ _ (windowsNvmeOpen_halts h)
  · exact asOpener_halts _ _ _ (winIdentify_halts _ _ (fun _ _ => winPass_halts ..))
  · exact asOpener_halts _ _ _ (winIdentify_halts _ _ (fun _ _ => winPass_halts ..))

theorem winReadIoctl_halts (h code : Nat) (inb : Bytes) : Halts (winReadIoctl h code inb) := by
  unfold winReadIoctl
  generalize (4096 : Nat) = n
  halts

theorem winBasicInfo_halts (h : Nat) : Halts (winBasicInfo h) := by
  unfold winBasicInfo
  refine OutT.halts_bind (OutT.halts_ask _) (fun n => ?_)
  refine OutT.halts_bind (OutT.halts_ask _) (fun n => ?_)
  refine OutT.halts_bind (winReadIoctl_halts _ _ _) (fun n => ?_)
  halts

theorem winStorageQuery_halts (h : Nat) (beyond : Nat → Byte) : Halts (winStorageQuery h beyond) := by
  unfold winStorageQuery
  refine OutT.halts_bind (winReadIoctl_halts _ _ _) (fun n => ?_)
  halts

theorem miniportAdmin_halts (h : Nat) (c : NvmeCmd) (mem : Nat → Byte) : Halts (miniportAdmin h c mem) := by
  unfold miniportAdmin
  halts

theorem windowsLogPage_halts (h : Nat) (nsid id : BitVec 32) (rae : Bool) (n : Int) : Halts (windowsLogPage h nsid id rae n) := by
  unfold windowsLogPage
  generalize hp : storageQuery n.toNat 50 2 id.toNat = p
  generalize h48 : (48 : Nat) = m
  refine OutT.halts_ite OutT.halts_panic ?_
  refine OutT.halts_bind (OutT.halts_ask _) (fun r => ?_)
  split
  · exact OutT.halts_ret _
  · exact OutT.halts_ite (OutT.halts_ret _) (OutT.halts_ret _)

theorem winDrv_halts (k : WinDrv) (addr base : Nat) (behind : Nat → Byte) (q : DrvReq) :
    Halts (winDrv k addr base behind q) := by
  cases q with
  | close => exact OutT.halts_bind (OutT.halts_bind (OutT.halts_ask _) (fun _ => OutT.halts_ret _)) (fun _ => OutT.halts_ret _)
  | drivingType => exact OutT.halts_ret _
  | driverName => exact OutT.halts_ret _
  | sec => cases k <;> first
    | exact OutT.halts_ret _
    | exact OutT.halts_bind (winPass_halts ..) (fun _ => OutT.halts_ret _)
  | taskFile => cases k <;> first
    | exact OutT.halts_panic
    | exact OutT.halts_bind (winPass_halts ..) (fun _ => OutT.halts_ret _)
  | taskNil => cases k <;> first
    | exact OutT.halts_panic
    | exact OutT.halts_bind (winPass_halts ..) (fun _ => OutT.halts_ret _)
  | nvmeAdmin => cases k <;> first
    | exact OutT.halts_panic
    | exact OutT.halts_ret _
    | exact OutT.halts_bind (miniportAdmin_halts ..) (fun _ => OutT.halts_ret _)
  | logPage => cases k <;> first
    | exact OutT.halts_panic
    | exact OutT.halts_ret _
    | (refine OutT.halts_bind (windowsLogPage_halts ..) (fun x => ?_); halts)

theorem securityCommand_halts (h : Handle) (rw dma : Bool) (protocol : Byte) (comId : BitVec 16) (buf : Bytes) (t : Nat) :
    Halts (h.securityCommand rw dma protocol comId buf t) := by
  unfold Handle.securityCommand
  halts

theorem init_halts (h : Handle) : Halts h.init := by
  unfold Handle.init
  refine OutT.halts_bind (OutT.halts_lift _) (fun a => ?_)
  dsimp only
  split
  · exact OutT.halts_ret _
  · refine OutT.halts_bind (OutT.halts_lift _) (fun a => ?_)
    obtain ⟨i2, e2⟩ := a
    dsimp only
    split
    · exact OutT.halts_ret _
    · refine OutT.halts_bind ?_ (fun _ => OutT.halts_ret _)
      unfold Handle.tcgDiscovery0
      refine OutT.halts_bind (securityCommand_halts ..) (fun r => ?_)
      halts

theorem winFirst_halts (h : Nat) (ds : List WinOpener) (hds : ∀ d ∈ ds, Halts (d h)) : Halts (winFirst ds h) := by
  induction ds with
  | nil => exact OutT.halts_ret _
  | cons d ds ih =>
    unfold winFirst
    refine OutT.halts_bind (hds d (by simp)) (fun x => ?_)
    split
    · exact OutT.halts_panic
    · exact OutT.halts_ret _
    · exact ih (fun d hd => hds d (by simp [hd]))

theorem winOpenByHandle_halts (w : WinRun) (b b' h : Nat) (path : Bytes) :
    Halts (winOpenByHandle w (winOpeners b b') h path) := by
  unfold winOpenByHandle
  refine OutT.halts_bind (winBasicInfo_halts h) (fun bi => ?_)
  refine OutT.halts_bind (winFirst_halts h _ (fun d hd => winOpeners_halts b b' d hd h)) (fun x => ?_)
  split
  · rename_i k d
    dsimp only
    have hi : ∀ {α : Type} (p : DrvM α), Halts p → Halts (OutT.interp (winDrv k w.addr w.base w.behind) p) :=
      fun p hp => OutT.halts_interp _ p hp (winDrv_halts k _ _ _)
    refine OutT.halts_bind (hi _ ?_) (fun _ => OutT.halts_bind (hi _ ?_) (fun _ => OutT.halts_bind (hi _ (init_halts _))
      (fun x => OutT.halts_ret _)))
    · unfold Handle.getDrivingType; halts
    · unfold Handle.getDriverName; halts
  · refine OutT.halts_bind (winStorageQuery_halts _ _) (fun x => ?_)
    halts

theorem winOpenByPath_halts (w : WinRun) (b b' : Nat) (path : Bytes) : Halts (winOpenByPath w (winOpeners b b') path) := by
  unfold winOpenByPath
  refine OutT.halts_bind (winOpenDevice_halts _) (fun x => ?_)
  split
  · exact OutT.halts_panic
  · exact OutT.halts_ret _
  · exact OutT.halts_bind (winOpenByHandle_halts _ _ _ _ _) (fun _ => OutT.halts_ret _)

theorem winDetail_halts (conv : List (BitVec 16) → Bytes) (set i : Nat) (buf : Bytes) : Halts (winDetail conv set i buf) := by
  unfold winDetail
  halts

theorem winClose_halts (w : WinRun) (o : WinOpened) : Halts (o.close w) := by
  unfold WinOpened.close
  split
  · refine OutT.halts_bind (OutT.halts_interp _ _ ?_ (winDrv_halts _ _ _ _)) (fun _ => OutT.halts_ret _)
    show Halts o.handle.close
    unfold Handle.close
    halts
  · exact OutT.halts_ret _

theorem deferredClose_halts (w : WinRun) (o : WinOpened) : Halts (o.deferredClose w) :=
  OutT.halts_bind (winClose_halts w o) (fun _ => OutT.halts_ret _)

end Dparm
