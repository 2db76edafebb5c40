import Verif.Spec.WinBudget
import Verif.Lemmas.Budget
import Verif.Lemmas.Clockwork
import Verif.Lemmas.Crash
/-!
# What the calls of a Windows client cost
-/
namespace Dparm
open Spec OutT

theorem winPass_pays (w : WinPass) (h : Nat) (rw : Bool) (data : Bytes) (addr base : Nat) :
    Pays eachOne noGain 2 (fun _ => 0) (w.run h rw data addr base) := by
  unfold WinPass.run
  dsimp only
  generalize (if rw = true then zeros data.length else data) = data
  refine pays_lift_bind (fun x => ?_)
  obtain ⟨a, c, ab⟩ := x
  dsimp only
  refine pays_ask_bind (by show 1 ≤ 2; omega) (fun r => ?_)
  refine pays_lift_bind (fun d => ?_)
  show Pays eachOne noGain (2 - 1 + 0) _ _
  cases r.err with
  | none => exact pays_ret (Nat.zero_le _)
  | some e =>
    refine pays_ask_bind (by show 1 ≤ 2 - 1 + 0; omega) (fun r2 => ?_)
    cases r2.err with
    | none => exact pays_ret (Nat.zero_le _)
    | some e => exact pays_ret (Nat.zero_le _)

theorem winIdentify_pays (base : Nat) (task : Bytes → Nat → WinM (Option GoErr × Bytes))
    (ht : ∀ d a, Pays eachOne noGain 2 (fun _ => 0) (task d a)) :
    Pays eachOne noGain 2 (fun _ => 0) (winIdentify base task) := by
  unfold winIdentify
  generalize newAlignedBuffer base 512 512 = ab
  refine pays_bind (ht _ _) (fun x => ?_)
  obtain ⟨e, d⟩ := x
  cases e with
  | some e => exact pays_ret (Nat.zero_le _)
  | none => exact pays_lift_bind (fun _ => pays_ret (Nat.zero_le _))

theorem winReadIoctl_pays (h code : Nat) (inb : Bytes) (n : Nat) :
    Pays eachOne noGain (2 + n) (fun _ => n) (winReadIoctl h code inb) := by
  unfold winReadIoctl
  refine pays_ask_bind (by show 1 ≤ 2 + n; omega) (fun r => ?_)
  show Pays eachOne noGain (2 + n - 1 + 0) _ _
  split
  · exact pays_ite pays_panic (pays_ret (by omega))
  · refine pays_ite (pays_ite pays_panic ?_) (pays_ret (by omega))
    refine pays_ask_bind (by show 1 ≤ 2 + n - 1 + 0; omega) (fun r2 => ?_)
    show Pays eachOne noGain (2 + n - 1 + 0 - 1 + 0) _ _
    split
    · exact pays_ret (by omega)
    · exact pays_ite pays_panic (pays_ret (by omega))

theorem winBasicInfo_pays (h n : Nat) : Pays eachOne noGain (4 + n) (fun _ => n) (winBasicInfo h) := by
  unfold winBasicInfo
  refine pays_ask_bind (by show 1 ≤ _; omega) (fun x => ?_)
  dsimp only
  refine pays_ask_bind (by show 1 ≤ 4 + n - 1 + 0; omega) (fun y => ?_)
  show Pays eachOne noGain (4 + n - 1 + 0 - 1 + 0) _ _
  refine pays_bind (c := fun _ => n) (pays_mono (winReadIoctl_pays h 0x70050 [] n) (by omega) (fun _ => by omega)) (fun r => ?_)
  cases r with
  | panic => exact pays_panic
  | err e => exact pays_ret (Nat.le_refl _)
  | ok x =>
    obtain ⟨buf, k⟩ := x
    exact pays_lift (fun _ _ => Nat.le_refl _)

theorem winStorageQuery_pays (h : Nat) (beyond : Nat → Byte) :
    Pays eachOne noGain 2 (fun _ => 0) (winStorageQuery h beyond) := by
  unfold winStorageQuery
  refine pays_bind (winReadIoctl_pays h _ _ 0) (fun r => ?_)
  cases r with
  | panic => exact pays_panic
  | err e => exact pays_ret (Nat.le_refl _)
  | ok x =>
    obtain ⟨buf, k⟩ := x
    exact pays_lift_bind (fun _ => pays_ret (Nat.le_refl _))

theorem winOpenDevice_pays (path : Bytes) (n : Nat) : Pays eachOne noGain (1 + n) (fun _ => n) (winOpenDevice path) := by
  unfold winOpenDevice
  refine pays_ite (pays_ret (by omega)) ?_
  refine pays_ask_bind (by show 1 ≤ 1 + n; omega) (fun r => ?_)
  show Pays eachOne noGain (1 + n - 1 + 0) _ _
  split <;> exact pays_ret (by omega)

theorem nvmeWinOpen_pays (h : Nat) : Pays eachOne noGain 4 (fun x => match x with | .ok _ => 1 | _ => 0) (nvmeWinOpen h) := by
  unfold nvmeWinOpen
  refine pays_bind (c := fun _ => 3) ?_ (fun p => ?_)
  · unfold winScsiPath
    generalize zeros 8 = z
    refine pays_ask_bind (by show 1 ≤ 4; omega) (fun r => ?_)
    show Pays eachOne noGain (4 - 1 + 0) _ _
    split <;> exact pays_ret (by omega)
  · cases p with
    | panic => exact pays_panic
    | err e => exact pays_ret (Nat.zero_le _)
    | ok path =>
      refine pays_bind (winOpenDevice_pays path 2) (fun s => ?_)
      cases s with
      | panic => exact pays_panic
      | err e => exact pays_ret (Nat.zero_le _)
      | ok sh =>
        refine pays_bind (c := fun _ => 1) ?_ (fun x => ?_)
        · unfold winMiniportIdentity
          generalize miniportHeader = z
          dsimp only
          refine pays_ask_bind (by show 1 ≤ 2; omega) (fun r => ?_)
          show Pays eachOne noGain (2 - 1 + 0) _ _
          split <;> exact pays_ret (by omega)
        · cases x with
          | panic => exact pays_panic
          | err e => exact pays_ask_bind (by show 1 ≤ 1; omega) (fun _ => pays_ret (Nat.zero_le _))
          | ok id =>
            refine pays_ite ?_ (pays_ret (by show 1 ≤ 1; omega))
            exact pays_ask_bind (by show 1 ≤ 1; omega) (fun _ => pays_ret (Nat.zero_le _))

theorem windowsNvmeOpen_pays (h : Nat) : Pays eachOne noGain 1 (fun _ => 0) (windowsNvmeOpen h) := by
  unfold windowsNvmeOpen
  generalize storageQuery 4096 49 1 1 = z
  generalize (4096 : Nat) = n
  refine pays_ask_bind (by show 1 ≤ 1; omega) (fun r => ?_)
  show Pays eachOne noGain (1 - 1 + 0) _ _
  split
  · exact pays_ret (Nat.zero_le _)
  · exact pays_ite (pays_ret (Nat.zero_le _)) (pays_ret (Nat.zero_le _))

/-- What a method of a driver costs. -/
def winPrice (k : WinDrv) : DrvReq → Nat
  | .close => 1
  | .sec .. => match k with
    | .scsi _ => 2
    | .windowsNvme _ => 2
    | _ => 0
  | .taskFile .. => if k.isAta then 2 else 0
  | .taskNil .. => if k.isAta then 2 else 0
  | .nvmeAdmin _ => match k with
    | .nvmeWin .. => 1
    | _ => 0
  | .logPage .. => 1
  | _ => 0

theorem winDrv_pays (k : WinDrv) (addr base : Nat) (behind : Nat → Byte) (q : DrvReq) :
    Pays eachOne noGain (winPrice k q) (noGain q) (winDrv k addr base behind q) := by
  cases q with
  | close => exact pays_ask_bind (by show 1 ≤ 1; omega) (fun _ => pays_ret (Nat.zero_le _))
  | drivingType => exact pays_ret (Nat.zero_le _)
  | driverName => exact pays_ret (Nat.zero_le _)
  | sec rw dma p c data secs =>
    cases k with
    | nvmeWin h sh => exact pays_ret (Nat.zero_le _)
    | ata h => exact pays_ret (Nat.zero_le _)
    | scsi h => exact pays_bind (winPass_pays ..) (fun _ => pays_ret (Nat.zero_le _))
    | windowsNvme h => exact pays_bind (winPass_pays ..) (fun _ => pays_ret (Nat.zero_le _))
  | taskFile rw dma tf data secs =>
    cases k with
    | nvmeWin h sh => exact pays_panic
    | windowsNvme h => exact pays_panic
    | ata h => exact pays_bind (winPass_pays ..) (fun _ => pays_ret (Nat.zero_le _))
    | scsi h => exact pays_bind (winPass_pays ..) (fun _ => pays_ret (Nat.zero_le _))
  | taskNil rw dma tf secs =>
    cases k with
    | nvmeWin h sh => exact pays_panic
    | windowsNvme h => exact pays_panic
    | ata h => exact pays_bind (winPass_pays ..) (fun _ => pays_ret (Nat.zero_le _))
    | scsi h => exact pays_bind (winPass_pays ..) (fun _ => pays_ret (Nat.zero_le _))
  | nvmeAdmin c =>
    cases k with
    | ata h => exact pays_panic
    | scsi h => exact pays_panic
    | windowsNvme h => exact pays_ret (Nat.zero_le _)
    | nvmeWin h sh =>
      refine pays_bind (c := fun _ => 0) ?_ (fun _ => pays_ret (Nat.zero_le _))
      unfold miniportAdmin
      dsimp only
      generalize miniportRecord c (miniportData c fun _ => 0#8) = z
      refine pays_ite (pays_ret (Nat.zero_le _)) ?_
      refine pays_ask_bind (by show 1 ≤ 1; omega) (fun r => ?_)
      split <;> exact pays_ret (Nat.zero_le _)
  | logPage nsid id rae size =>
    cases k with
    | ata h => exact pays_panic
    | scsi h => exact pays_panic
    | nvmeWin h sh => exact pays_ret (Nat.zero_le _)
    | windowsNvme h =>
      refine pays_bind (c := fun _ => 0) ?_ (fun x => ?_)
      · unfold windowsLogPage
        refine pays_ite pays_panic ?_
        dsimp only
        generalize storageQuery (Int.toNat size) 50 2 id.toNat = z
        refine pays_ask_bind (by show 1 ≤ 1; omega) (fun r => ?_)
        show Pays eachOne noGain _ _ _
        split
        · exact pays_ret (Nat.zero_le _)
        · exact pays_ite (pays_ret (Nat.zero_le _)) (pays_ret (Nat.zero_le _))
      · cases x with
        | panic => exact pays_panic
        | err e => exact pays_ret (Nat.zero_le _)
        | ok d => exact pays_ret (Nat.zero_le _)

/-- What a security command costs. -/
def winSecPrice : WinDrv → Nat
  | .nvmeWin .. => 1
  | .windowsNvme _ => 2
  | .scsi _ => 4
  | .ata _ => 2

theorem winSecurity_pays (k : WinDrv) (h : Handle) (rw dma : Bool) (p : Byte) (c : BitVec 16) (buf : Bytes) (secs : Nat) :
    Pays (winPrice k) noGain (winSecPrice k) (fun _ => 0) (h.securityCommand rw dma p c buf secs) := by
  unfold Handle.securityCommand
  split
  · exact pays_ret (Nat.zero_le _)
  · refine pays_ask_bind ?_ (fun r => ?_)
    · cases k
      · exact Nat.zero_le _
      · exact Nat.le_refl 2
      · show 2 ≤ 4; omega
      · exact Nat.zero_le _
    · dsimp only
      split
      · exact pays_ret (Nat.zero_le _)
      · refine pays_ite (pays_ask_bind ?_ (fun r => pays_ret (Nat.zero_le _)))
          (pays_ite (pays_ask_bind ?_ (fun r => pays_ret (Nat.zero_le _))) (pays_ret (Nat.zero_le _)))
        · cases k
          · exact Nat.zero_le _
          · exact Nat.zero_le _
          · show 2 ≤ 4 - 2 + 0; omega
          · show 2 ≤ 2 - 0 + 0; omega
        · cases k
          · show 1 ≤ 1 - 0 + 0; omega
          · exact Nat.zero_le _
          · exact Nat.zero_le _
          · exact Nat.zero_le _

theorem winDiscovery_pays (k : WinDrv) (h : Handle) :
    Pays (winPrice k) noGain (winSecPrice k) (fun _ => 0) h.tcgDiscovery0 := by
  unfold Handle.tcgDiscovery0
  generalize zeros Handle.discoverySize = z
  refine pays_bind (c := fun _ => 0) (winSecurity_pays ..) (fun r => ?_)
  split
  · exact pays_ret (Nat.zero_le _)
  · exact pays_lift_bind (fun _ => pays_ret (Nat.zero_le _))

theorem winInit_pays (k : WinDrv) (h : Handle) : Pays (winPrice k) noGain (winSecPrice k) (fun _ => 0) h.init := by
  unfold Handle.init
  refine pays_lift_bind (fun x => ?_)
  dsimp only
  split
  · exact pays_ret (Nat.zero_le _)
  · refine pays_lift_bind (fun x => ?_)
    split
    · exact pays_ret (Nat.zero_le _)
    · exact pays_bind (c := fun _ => 0) (winDiscovery_pays k _) (fun _ => pays_ret (Nat.zero_le _))

theorem winDrivingType_pays (k : WinDrv) (n : Nat) (h : Handle) :
    Pays (winPrice k) noGain n (fun _ => n) h.getDrivingType := by
  unfold Handle.getDrivingType
  split
  · exact pays_panic
  · exact pays_ask_bind (by show 0 ≤ n; omega) (fun r => pays_ret (by show n ≤ n - 0 + 0; omega))

theorem winDriverName_pays (k : WinDrv) (n : Nat) (h : Handle) :
    Pays (winPrice k) noGain n (fun _ => n) h.getDriverName := by
  unfold Handle.getDriverName
  split
  · exact pays_panic
  · exact pays_ask_bind (by show 0 ≤ n; omega) (fun r => pays_ret (by show n ≤ n - 0 + 0; omega))

theorem winHandleClose_pays (k : WinDrv) (h : Handle) : Pays (winPrice k) noGain 1 (fun _ => 0) h.close := by
  unfold Handle.close
  split
  · exact pays_ret (Nat.zero_le _)
  · exact pays_ask_bind (Nat.le_refl 1) (fun _ => pays_ret (Nat.zero_le _))

theorem winAta_pays (k : WinDrv) (h : Handle) (rw dma : Bool) (tf : Tf) (d : Bytes) (secs : Nat) :
    Pays (winPrice k) noGain 2 (fun _ => 0) (h.ataDoTaskFileCmd rw dma tf d secs) := by
  unfold Handle.ataDoTaskFileCmd
  split
  · exact pays_ret (Nat.zero_le _)
  · refine pays_ite (pays_ask_bind ?_ (fun _ => pays_ret (Nat.zero_le _))) (pays_ret (Nat.zero_le _))
    show (if k.isAta then 2 else 0) ≤ 2
    split <;> omega

theorem winAtaNil_pays (k : WinDrv) (h : Handle) (rw dma : Bool) (tf : Tf) (secs : Nat) :
    Pays (winPrice k) noGain 2 (fun _ => 0) (h.ataDoTaskFileNil rw dma tf secs) := by
  unfold Handle.ataDoTaskFileNil
  split
  · exact pays_ret (Nat.zero_le _)
  · refine pays_ite (pays_ask_bind ?_ (fun _ => pays_ret (Nat.zero_le _))) (pays_ret (Nat.zero_le _))
    show (if k.isAta then 2 else 0) ≤ 2
    split <;> omega

theorem winLogPage_pays (k : WinDrv) (h : Handle) (nsid logId : BitVec 32) (rae : Bool) (size : Nat) :
    Pays (winPrice k) noGain 1 (fun _ => 0) (h.nvmeGetLogPage nsid logId rae size) := by
  unfold Handle.nvmeGetLogPage
  split
  · exact pays_ret (Nat.zero_le _)
  · exact pays_ite (pays_ask_bind (Nat.le_refl 1) (fun _ => pays_ret (Nat.zero_le _))) (pays_ret (Nat.zero_le _))

theorem asOpener_pays {α : Type} {n : Nat} {c : Res α → Nat} (open' : Nat → WinM (Res α)) (wrap : Nat → α → WinDrv × Driver)
    (h : Nat) (d : Res (WinDrv × Driver) → Nat) (hp : Pays eachOne noGain n c (open' h))
    (he : ∀ e, d (.err e) ≤ c (.err e)) (ho : ∀ a, d (.ok (wrap h a)) ≤ c (.ok a)) :
    Pays eachOne noGain n d (asOpener open' wrap h) := by
  unfold asOpener
  refine pays_bind hp (fun x => ?_)
  cases x with
  | panic => exact pays_panic
  | err e => exact pays_ret (he e)
  | ok a => exact pays_ret (ho a)

/-- What is still to be paid after the drivers were tried. -/
def toCome : Option (WinDrv × Driver) → Nat
  | none => 2
  | some (k, _) => winSecPrice k

theorem winFirst_pays (base base' h : Nat) : Pays eachOne noGain 11 toCome (winFirst (winOpeners base base') h) := by
  unfold winOpeners
  have step : ∀ (d : WinOpener) (ds : List WinOpener) (n k : Nat),
      Pays eachOne noGain n (fun x => match x with | .ok y => toCome (some y) | _ => k) (d h) →
      Pays eachOne noGain k toCome (winFirst ds h) → Pays eachOne noGain n toCome (winFirst (d :: ds) h) := by
    intro d ds n k hd hr
    unfold winFirst
    refine pays_bind hd (fun x => ?_)
    cases x with
    | panic => exact pays_panic
    | ok x => exact pays_ret (Nat.le_refl _)
    | err e => exact hr
  refine step _ _ 11 7 ?_ (step _ _ 7 6 ?_ (step _ _ 6 4 ?_ (step _ _ 4 2 ?_ (pays_ret (Nat.le_refl _)))))
  · exact asOpener_pays (c := fun x => match x with | .ok _ => 8 | _ => 7) _ _ h _
      (pays_mono (nvmeWinOpen_pays h) (by omega) (fun x => by cases x <;> (dsimp only; omega)))
      (fun e => Nat.le_refl _) (fun a => by show 1 ≤ 8; omega)
  · exact asOpener_pays (c := fun _ => 6) _ _ h _
      (pays_mono (windowsNvmeOpen_pays h) (by omega) (fun x => by omega))
      (fun e => Nat.le_refl _) (fun a => by show 2 ≤ 6; omega)
  · exact asOpener_pays (c := fun _ => 4) _ _ h _
      (pays_mono (winIdentify_pays base _ (fun d a => winPass_pays ..)) (by omega) (fun x => by omega))
      (fun e => Nat.le_refl _) (fun a => by show 4 ≤ 4; omega)
  · exact asOpener_pays (c := fun _ => 2) _ _ h _
      (pays_mono (winIdentify_pays base _ (fun d a => winPass_pays ..)) (by omega) (fun x => by omega))
      (fun e => Nat.le_refl _) (fun a => by show 2 ≤ 2; omega)

theorem winOpenByPath_pays (w : WinRun) (path : Bytes) (n : Nat) :
    Pays eachOne noGain (16 + n) (fun _ => n) (winOpenByPath w (winOpeners w.base w.base') path) := by
  have main : Pays eachOne noGain 16 (fun _ => 0) (winOpenByPath w (winOpeners w.base w.base') path) := by
    unfold winOpenByPath
    refine pays_bind (winOpenDevice_pays path 15) (fun x => ?_)
    cases x with
    | panic => exact pays_panic
    | err e => exact pays_ret (Nat.zero_le _)
    | ok h =>
      refine pays_bind (c := fun _ => 0) ?_ (fun _ => pays_ret (Nat.zero_le _))
      unfold winOpenByHandle
      refine pays_bind (winBasicInfo_pays h 11) (fun b => ?_)
      refine pays_bind (winFirst_pays w.base w.base' h) (fun x => ?_)
      cases x with
      | none =>
        refine pays_bind (winStorageQuery_pays h w.beyond) (fun r => ?_)
        cases r with
        | panic => exact pays_panic
        | err e => exact pays_ret (Nat.zero_le _)
        | ok d => exact pays_ret (Nat.zero_le _)
      | some x =>
        obtain ⟨k, d⟩ := x
        dsimp only
        refine pays_bind (pays_interp _ _ _ _ (winDrivingType_pays k _ _) (winDrv_pays k _ _ _)) (fun t => ?_)
        refine pays_bind (pays_interp _ _ _ _ (winDriverName_pays k _ _) (winDrv_pays k _ _ _)) (fun t => ?_)
        refine pays_bind (pays_interp _ _ _ _ (winInit_pays k _) (winDrv_pays k _ _ _)) (fun t => ?_)
        exact pays_ret (Nat.zero_le _)
  exact pays_mono main (by omega) (fun _ => by omega)

theorem winOpenedClose_pays (w : WinRun) (o : WinOpened) : Pays eachOne noGain 1 (fun _ => 0) (o.close w) := by
  unfold WinOpened.close
  split
  · refine pays_bind (pays_interp _ _ _ _ (winHandleClose_pays _ _) (winDrv_pays _ _ _ _)) (fun t => ?_)
    exact pays_ret (Nat.zero_le _)
  · exact pays_ret (Nat.zero_le _)

theorem winDetail_pays (conv : Wide → Bytes) (set i : Nat) (buf : Bytes) :
    Pays eachOne noGain 2 (fun _ => 0) (winDetail conv set i buf) := by
  unfold winDetail
  dsimp only
  refine pays_ask_bind (by show 1 ≤ 2; omega) (fun r => ?_)
  refine pays_ite (pays_ite pays_panic ?_) (pays_ret (Nat.zero_le _))
  exact pays_ask_bind (by show 1 ≤ 2 - 1 + 0; omega) (fun _ => pays_ret (Nat.zero_le _))

theorem winVolumeHead_pays (conv : Wide → Bytes) (name fsBuf : Wide) :
    Pays eachOne noGain 4 (fun _ => 0) (winVolumeHead conv name fsBuf) := by
  unfold winVolumeHead
  refine pays_bind (c := fun _ => 3) ?_ (fun _ => pays_bind (c := fun _ => 2) ?_ (fun _ => ?_))
  · unfold winMounts
    generalize List.replicate 4096 0#16 = z
    refine pays_ask_bind (by show 1 ≤ 4; omega) (fun r => ?_)
    exact pays_ite (pays_lift_bind (fun _ => pays_ret (by show 3 ≤ 4 - 1 + 0; omega))) (pays_ret (by show 3 ≤ 4 - 1 + 0; omega))
  · unfold winFilesystem
    exact pays_ask_bind (by show 1 ≤ 3; omega) (fun r => pays_ret (by show 2 ≤ 3 - 1 + 0; omega))
  · exact pays_ask_bind (by show 1 ≤ 2; omega) (fun _ => pays_ask_bind (by show 1 ≤ 2 - 1 + 0; omega)
      (fun _ => pays_ret (Nat.zero_le _)))

theorem winExtents_pays (h : Nat) (data : Bytes) (beyond : Nat → Byte) :
    Pays eachOne noGain 2 (fun _ => 0) (winExtents h data beyond) := by
  unfold winExtents
  refine pays_ask_bind (by show 1 ≤ 2; omega) (fun r => ?_)
  show Pays eachOne noGain (2 - 1 + 0) _ _
  split
  · exact pays_ret (Nat.zero_le _)
  · refine pays_lift_bind (fun es => ?_)
    split
    · exact pays_ret (Nat.zero_le _)
    · refine pays_bind (c := fun _ => 0) ?_ (fun _ => pays_ret (Nat.zero_le _))
      unfold winPartitionInfo
      refine pays_ask_bind (by show 1 ≤ 2 - 1 + 0; omega) (fun r => ?_)
      show Pays eachOne noGain (2 - 1 + 0 - 1 + 0) _ _
      generalize zeros 144 = z
      split
      · exact pays_ret (Nat.zero_le _)
      · exact pays_ite (pays_ret (Nat.zero_le _)) (pays_ite (pays_ret (Nat.zero_le _)) (pays_ret (Nat.zero_le _)))

end Dparm
