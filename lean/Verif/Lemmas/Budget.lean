import Verif.Lemmas.Cost
import Verif.Spec.Budget
/-!
# What the calls of a Linux client cost
-/
namespace Dparm
open Spec OutT

namespace OutT
variable {Q R α β : Type} {w : Q → Nat} {g : Q → R → Nat}

theorem pays_lift_bind {n : Nat} {d : β → Nat} {x : P α} {f : α → OutT Q R β} (h : ∀ a, Pays w g n d (f a)) :
    Pays w g n d (lift x >>= f) := by
  cases x with
  | panic => exact pays_panic
  | ret a => exact h a
end OutT

/-- No answer brings anything in. -/
abbrev noGain {Q R : Type} : Q → R → Nat := fun _ _ => 0
/-- Every request costs one. -/
abbrev eachOne {Q : Type} : Q → Nat := fun _ => 1

macro "pays" : tactic => `(tactic| repeat (first
  | exact OutT.pays_ret (Nat.zero_le _) | exact OutT.pays_panic
  | refine OutT.pays_lift_bind (fun _ => ?_)
  | refine OutT.pays_ask_bind (by simp only [eachOne, noGain]; omega) (fun _ => ?_)
  | exact OutT.pays_lift (fun _ _ => Nat.zero_le _)
  | dsimp only | split))

theorem sgTaskFile_pays (rw dma : Bool) (tf : Tf) (data : Option Bytes) (addr base secs : Nat) :
    Pays eachOne noGain 2 (fun _ => 0) (sgTaskFile rw dma tf data addr base secs) := by
  unfold sgTaskFile
  pays

theorem sgSecurity_pays (rw : Bool) (p : Byte) (c : BitVec 16) (data : Bytes) (addr base secs : Nat) :
    Pays eachOne noGain 2 (fun _ => 0) (sgSecurity rw p c data addr base secs) := by
  unfold sgSecurity
  pays

theorem sgOpen_pays (base base' : Nat) : Pays eachOne noGain 2 (fun _ => 0) (sgOpen base base') := by
  unfold sgOpen
  dsimp only
  refine pays_bind (c := fun _ => 0) (sgTaskFile_pays ..) (fun x => ?_)
  pays

theorem nvAdmin_pays (a : BitVec 64) (c : NvmeCmd) : Pays eachOne noGain 1 (fun _ => 0) (nvAdmin a c) := by
  unfold nvAdmin
  pays

theorem nvOpen_pays (a : BitVec 64) : Pays eachOne noGain 1 (fun _ => 0) (nvOpen a) := by
  unfold nvOpen
  refine pays_bind (c := fun _ => 0) (nvAdmin_pays ..) (fun x => ?_)
  generalize (4096 : Nat) = n
  pays

/-- What a method of the NVMe driver costs. -/
def nvPrice : DrvReq → Nat
  | .nvmeAdmin _ => 1
  | .close => 1
  | .logPage _ _ _ size => (size + 4095) / 4096
  | _ => 0

/-- What a method of the SCSI generic driver costs. -/
def sgPrice : DrvReq → Nat
  | .sec .. => 2
  | .taskFile .. => 2
  | .taskNil .. => 2
  | .close => 1
  | _ => 0

theorem nvDriver0_pays (a : BitVec 64) (b : Nat → Byte) (q : DrvReq) :
    Pays eachOne noGain (nvPrice q) (fun _ => 0) (nvDriver0 a b q) := by
  cases q with
  | nvmeAdmin c =>
    refine pays_bind (c := fun _ => 0) (nvAdmin_pays a c) (fun x => ?_)
    pays
  | logPage => exact pays_panic
  | close => exact pays_ask_bind (Nat.le_refl 1) (fun _ => pays_ret (Nat.zero_le _))
  | sec => exact pays_ret (Nat.zero_le _)
  | drivingType => exact pays_ret (Nat.zero_le _)
  | driverName => exact pays_ret (Nat.zero_le _)
  | taskFile => exact pays_panic
  | taskNil => exact pays_panic

theorem logPageLoop_pays (nsid logId : BitVec 32) (rae : Bool) (size offset : Nat) (buf : Bytes) (last : Option GoErr) :
    Pays nvPrice noGain ((size - offset + 4095) / 4096) (fun _ => 0) (logPageLoop nsid logId rae size offset buf last) := by
  unfold logPageLoop
  split
  · exact pays_ret (Nat.zero_le _)
  · refine pays_ask_bind (by show 1 ≤ _; omega) (fun r => ?_)
    dsimp only
    split
    · exact pays_ret (Nat.zero_le _)
    · refine pays_mono (logPageLoop_pays nsid logId rae size _ _ _) ?_ (fun _ => Nat.zero_le _)
      show _ ≤ _ - 1 + 0
      omega
termination_by size - offset
decreasing_by omega

theorem nvDriver_pays (a : BitVec 64) (b : Nat → Byte) (q : DrvReq) :
    Pays eachOne noGain (nvPrice q) (fun _ => 0) (nvDriver a b q) := by
  cases q with
  | logPage nsid logId rae size =>
    show Pays eachOne noGain ((size + 4095) / 4096) (fun _ => 0) (OutT.interp (nvDriver0 a b) (nvmeLogPage nsid logId rae size) >>= _)
    refine pays_bind (c := fun _ => 0) ?_ (fun x => pays_ret (Nat.zero_le _))
    unfold nvmeLogPage
    split
    · exact pays_panic
    · have e : (size + 4095) / 4096 = (Int.toNat (size : Int) - 0 + 4095) / 4096 := by simp
      rw [e]
      exact pays_interp _ _ _ _ (logPageLoop_pays ..) (nvDriver0_pays a b)
  | nvmeAdmin c => exact nvDriver0_pays a b _
  | close => exact nvDriver0_pays a b _
  | sec => exact nvDriver0_pays a b _
  | drivingType => exact nvDriver0_pays a b _
  | driverName => exact nvDriver0_pays a b _
  | taskFile => exact nvDriver0_pays a b _
  | taskNil => exact nvDriver0_pays a b _

theorem sgDriver_pays (addr base : Nat) (b : Nat → Byte) (q : DrvReq) :
    Pays eachOne noGain (sgPrice q) (fun _ => 0) (sgDriver addr base b q) := by
  cases q with
  | sec rw dma p c data secs =>
    exact pays_bind (c := fun _ => 0) (sgSecurity_pays ..) (fun x => pays_ret (Nat.zero_le _))
  | taskFile rw dma tf data secs =>
    exact pays_bind (c := fun _ => 0) (sgTaskFile_pays ..) (fun x => pays_ret (Nat.zero_le _))
  | taskNil rw dma tf secs =>
    exact pays_bind (c := fun _ => 0) (sgTaskFile_pays ..) (fun x => pays_ret (Nat.zero_le _))
  | close => exact pays_ask_bind (Nat.le_refl 1) (fun _ => pays_ret (Nat.zero_le _))
  | drivingType => exact pays_ret (Nat.zero_le _)
  | driverName => exact pays_ret (Nat.zero_le _)
  | nvmeAdmin => exact pays_panic
  | logPage => exact pays_panic

/-- What the names of a directory listing are worth: `sb` for a name in /sys/block, `sl` for one in /dev/disk/by-id. -/
def worth (sb sl : Nat) (p : Bytes) (names : List Bytes) : Nat :=
  sb * (if p = ascii "/sys/block" then names.length else 0) +
  sl * (if p = ascii "/dev/disk/by-id" then names.length else 0)

/-- Prices and gains of the requests of the factory. -/
def fPrice : FReq → Nat
  | .tryDriver 0 _ => 1
  | .tryDriver 1 _ => 2
  | .tryDriver _ _ => 0
  | .drv 0 _ q => nvPrice q
  | .drv 1 _ q => sgPrice q
  | .drv _ _ _ => 0
  | _ => 1
def fGain (sb sl : Nat) : FReq → FRep → Nat
  | .readDir p, r => worth sb sl p r.names
  | _, _ => 0

/-- … of system calls. -/
def lPrice : LReq → Nat
  | .place => 0
  | _ => 1
def lGain (sb sl : Nat) : LReq → LRep → Nat
  | .os (.readDir p), r => worth sb sl p r.os.names
  | _, _ => 0

/-- … and of the whole program. -/
def aPrice : AReq → Nat
  | .sys q => lPrice q
  | _ => 0
def aGain (sb sl : Nat) : AReq → ARep → Nat
  | .sys q, r => lGain sb sl q r.sys
  | _, _ => 0

variable {sb sl : Nat}

theorem nvSys_pays (fd : Nat) (q : NvReq) : Pays lPrice (lGain sb sl) (eachOne q) (noGain q) (nvSys fd q) := by
  cases q <;> exact pays_ask_bind (Nat.le_refl 1) (fun _ => pays_ret (Nat.zero_le _))

theorem sgSys_pays (fd : Nat) (q : KReq) : Pays lPrice (lGain sb sl) (eachOne q) (noGain q) (sgSys fd q) := by
  cases q <;> exact pays_ask_bind (Nat.le_refl 1) (fun _ => pays_ret (Nat.zero_le _))

theorem place_bind {β : Type} {n : Nat} {d : β → Nat} {f : LRep → LM β} (h : ∀ r, Pays lPrice (lGain sb sl) n d (f r)) :
    Pays lPrice (lGain sb sl) n d ((OutT.ask .place : LM LRep) >>= f) :=
  pays_ask_bind (Nat.zero_le _) h

theorem tryNv_pays (fd : Nat) : Pays lPrice (lGain sb sl) 1 (fun _ => 0) (tryNv fd) := by
  refine place_bind (fun r => ?_)
  refine pays_bind (c := fun _ => 0) (pays_interp _ _ _ _ (nvOpen_pays _) (nvSys_pays fd)) (fun x => ?_)
  split
  · exact pays_ret (Nat.zero_le _)
  · exact pays_ret (Nat.zero_le _)
  · exact pays_panic

theorem trySg_pays (fd : Nat) : Pays lPrice (lGain sb sl) 2 (fun _ => 0) (trySg fd) := by
  refine place_bind (fun r => ?_)
  refine pays_bind (c := fun _ => 0) (pays_interp _ _ _ _ (sgOpen_pays _ _) (sgSys_pays fd)) (fun x => ?_)
  split
  · exact pays_ret (Nat.zero_le _)
  · exact pays_ret (Nat.zero_le _)
  · exact pays_panic

theorem drvNv_pays (fd : Nat) (q : DrvReq) : Pays lPrice (lGain sb sl) (nvPrice q) (fun _ => 0) (drvNv fd q) := by
  refine place_bind (fun r => ?_)
  exact pays_bind (c := fun _ => 0) (pays_interp _ _ _ _ (nvDriver_pays _ _ q) (nvSys_pays fd))
    (fun x => pays_ret (Nat.zero_le _))

theorem drvSg_pays (fd : Nat) (q : DrvReq) : Pays lPrice (lGain sb sl) (sgPrice q) (fun _ => 0) (drvSg fd q) := by
  refine place_bind (fun r => ?_)
  exact pays_bind (c := fun _ => 0) (pays_interp _ _ _ _ (sgDriver_pays _ _ _ q) (sgSys_pays fd))
    (fun x => pays_ret (Nat.zero_le _))

theorem linuxStep_pays (q : FReq) : Pays lPrice (lGain sb sl) (fPrice q) (fGain sb sl q) (linuxStep q) := by
  have os : ∀ q : FReq, fPrice q = 1 → (∀ r, fGain sb sl q r.os ≤ lGain sb sl (.os q) r) →
      Pays lPrice (lGain sb sl) (fPrice q) (fGain sb sl q) (do
        let r ← OutT.ask (.os q)
        OutT.ret r.os : LM FRep) := by
    intro q h hg
    rw [h]
    exact pays_ask_bind (Nat.le_refl 1) (fun r => pays_ret (Nat.le_trans (hg r) (Nat.le_add_left _ _)))
  cases q with
  | tryDriver i fd =>
    match i with
    | 0 => exact tryNv_pays fd
    | 1 => exact trySg_pays fd
    | i + 2 => exact pays_panic
  | drv i fd q =>
    match i with
    | 0 => exact drvNv_pays fd q
    | 1 => exact drvSg_pays fd q
    | i + 2 => exact pays_panic
  | readDir p => exact os _ rfl (fun r => Nat.le_refl _)
  | openDev => exact os _ rfl (fun r => Nat.zero_le _)
  | diskfs => exact os _ rfl (fun r => Nat.zero_le _)
  | sectorSize => exact os _ rfl (fun r => Nat.zero_le _)
  | totalSize => exact os _ rfl (fun r => Nat.zero_le _)
  | geometry => exact os _ rfl (fun r => Nat.zero_le _)
  | readAt => exact os _ rfl (fun r => Nat.zero_le _)
  | evalSymlinks => exact os _ rfl (fun r => Nat.zero_le _)
  | readFile => exact os _ rfl (fun r => Nat.zero_le _)
  | stat => exact os _ rfl (fun r => Nat.zero_le _)
  | closeFd => exact os _ rfl (fun r => Nat.zero_le _)

theorem onLinux_pays {α : Type} {n : Nat} {c : α → Nat} {p : FM α} (h : Pays fPrice (fGain sb sl) n c p) :
    Pays lPrice (lGain sb sl) n c (onLinux p) := pays_interp _ _ _ _ h linuxStep_pays

theorem sysCall_pays {α : Type} {n : Nat} {c : α → Nat} {p : LM α} (h : Pays lPrice (lGain sb sl) n c p) :
    Pays aPrice (aGain sb sl) n c (OutT.interp sysCall p) :=
  pays_interp _ _ _ _ h (fun q => by
    unfold sysCall
    refine pays_ask_bind (Nat.le_refl _) (fun r => pays_ret ?_)
    exact Nat.le_add_left _ _)

/-- The price of a request to the driver with index `i`. -/
def drvPrice : Nat → DrvReq → Nat
  | 0, q => nvPrice q
  | 1, q => sgPrice q
  | _, _ => 0

theorem onDriver_pays {α : Type} {i fd n : Nat} {c : α → Nat} {p : DrvM α} (h : Pays (drvPrice i) noGain n c p) :
    Pays fPrice (fGain sb sl) n c (onDriver i fd p) :=
  pays_interp _ _ _ _ h (fun q => by
    refine pays_ask_bind ?_ (fun r => pays_ret (Nat.zero_le _))
    match i with
    | 0 => exact Nat.le_refl _
    | 1 => exact Nat.le_refl _
    | i + 2 => exact Nat.zero_le _)

theorem onHandle_pays {α : Type} {n : Nat} {c : α → Nat} {p : DrvM α} (o : Opened) (h : ∀ i, Pays (drvPrice i) noGain n c p) :
    Pays fPrice (fGain sb sl) n c (o.onHandle p) := by
  unfold Opened.onHandle
  split
  · exact onDriver_pays (h _)
  · exact onDriver_pays (h _)

/-- What a security command costs with the driver `i`. -/
def secPrice : Nat → Nat
  | 0 => 1
  | 1 => 4
  | _ => 0

theorem security_pays (i : Nat) (h : Handle) (rw dma : Bool) (p : Byte) (c : BitVec 16) (buf : Bytes) (secs : Nat) :
    Pays (drvPrice i) noGain (secPrice i) (fun _ => 0) (h.securityCommand rw dma p c buf secs) := by
  unfold Handle.securityCommand
  split
  · exact pays_ret (Nat.zero_le _)
  · refine pays_ask_bind ?_ (fun r => ?_)
    · match i with
      | 0 => exact Nat.zero_le _
      | 1 => show 2 ≤ 4; omega
      | i + 2 => exact Nat.zero_le _
    · dsimp only
      split
      · exact pays_ret (Nat.zero_le _)
      · refine pays_ite (pays_ask_bind ?_ (fun r => pays_ret (Nat.zero_le _)))
          (pays_ite (pays_ask_bind ?_ (fun r => pays_ret (Nat.zero_le _))) (pays_ret (Nat.zero_le _)))
        · match i with
          | 0 => exact Nat.zero_le _
          | 1 => show 2 ≤ 4 - 2 + 0; omega
          | i + 2 => exact Nat.zero_le _
        · match i with
          | 0 => show 1 ≤ 1 - 0 + 0; omega
          | 1 => exact Nat.zero_le _
          | i + 2 => exact Nat.zero_le _

theorem discovery_pays (i : Nat) (h : Handle) :
    Pays (drvPrice i) noGain (secPrice i) (fun _ => 0) h.tcgDiscovery0 := by
  unfold Handle.tcgDiscovery0
  generalize zeros Handle.discoverySize = z
  refine pays_bind (c := fun _ => 0) (security_pays ..) (fun r => ?_)
  split
  · exact pays_ret (Nat.zero_le _)
  · exact pays_lift_bind (fun _ => pays_ret (Nat.zero_le _))

theorem init_pays (i : Nat) (h : Handle) : Pays (drvPrice i) noGain (secPrice i) (fun _ => 0) h.init := by
  unfold Handle.init
  refine pays_lift_bind (fun x => ?_)
  dsimp only
  split
  · exact pays_ret (Nat.zero_le _)
  · refine pays_lift_bind (fun x => ?_)
    split
    · exact pays_ret (Nat.zero_le _)
    · exact pays_bind (c := fun _ => 0) (discovery_pays i _) (fun _ => pays_ret (Nat.zero_le _))

theorem drivingType_pays (i n : Nat) (h : Handle) : Pays (drvPrice i) noGain n (fun _ => n) h.getDrivingType := by
  unfold Handle.getDrivingType
  split
  · exact pays_panic
  · have e : drvPrice i .drivingType = 0 := by
      match i with
      | 0 => rfl
      | 1 => rfl
      | i + 2 => rfl
    refine pays_ask_bind (by omega) (fun r => pays_ret ?_)
    rw [e]
    exact Nat.le_add_right _ _

theorem driverName_pays (i n : Nat) (h : Handle) : Pays (drvPrice i) noGain n (fun _ => n) h.getDriverName := by
  unfold Handle.getDriverName
  split
  · exact pays_panic
  · have e : drvPrice i .driverName = 0 := by
      match i with
      | 0 => rfl
      | 1 => rfl
      | i + 2 => rfl
    refine pays_ask_bind (by omega) (fun r => pays_ret ?_)
    rw [e]
    exact Nat.le_add_right _ _

theorem close_pays (i : Nat) (h : Handle) : Pays (drvPrice i) noGain 1 (fun _ => 0) h.close := by
  unfold Handle.close
  split
  · exact pays_ret (Nat.zero_le _)
  · refine pays_ask_bind ?_ (fun _ => pays_ret (Nat.zero_le _))
    match i with
    | 0 => exact Nat.le_refl _
    | 1 => exact Nat.le_refl _
    | i + 2 => exact Nat.zero_le _

theorem ata_pays (i : Nat) (h : Handle) (rw dma : Bool) (tf : Tf) (d : Bytes) (secs : Nat) :
    Pays (drvPrice i) noGain 2 (fun _ => 0) (h.ataDoTaskFileCmd rw dma tf d secs) := by
  unfold Handle.ataDoTaskFileCmd
  split
  · exact pays_ret (Nat.zero_le _)
  · refine pays_ite (pays_ask_bind ?_ (fun _ => pays_ret (Nat.zero_le _))) (pays_ret (Nat.zero_le _))
    match i with
    | 0 => exact Nat.zero_le _
    | 1 => exact Nat.le_refl _
    | i + 2 => exact Nat.zero_le _

theorem ataNil_pays (i : Nat) (h : Handle) (rw dma : Bool) (tf : Tf) (secs : Nat) :
    Pays (drvPrice i) noGain 2 (fun _ => 0) (h.ataDoTaskFileNil rw dma tf secs) := by
  unfold Handle.ataDoTaskFileNil
  split
  · exact pays_ret (Nat.zero_le _)
  · refine pays_ite (pays_ask_bind ?_ (fun _ => pays_ret (Nat.zero_le _))) (pays_ret (Nat.zero_le _))
    match i with
    | 0 => exact Nat.zero_le _
    | 1 => exact Nat.le_refl _
    | i + 2 => exact Nat.zero_le _

theorem logPage_pays (i : Nat) (h : Handle) (nsid logId : BitVec 32) (rae : Bool) (size : Nat) :
    Pays (drvPrice i) noGain ((size + 4095) / 4096) (fun _ => 0) (h.nvmeGetLogPage nsid logId rae size) := by
  unfold Handle.nvmeGetLogPage
  split
  · exact pays_ret (Nat.zero_le _)
  · refine pays_ite (pays_ask_bind ?_ (fun _ => pays_ret (Nat.zero_le _))) (pays_ret (Nat.zero_le _))
    match i with
    | 0 => exact Nat.le_refl _
    | 1 => exact Nat.zero_le _
    | i + 2 => exact Nat.zero_le _

theorem basicTable_pays (path : Bytes) (t : PartTable) (b : BasicInfo) :
    Pays fPrice (fGain sb sl) 1 (fun _ => 0) (basicTable path t b) := by
  unfold basicTable
  split
  · exact pays_ret (Nat.zero_le _)
  · exact pays_ret (Nat.zero_le _)
  · refine pays_bind (c := fun _ => 0) (pays_interp (w := eachOne) (g := noGain) _ _ _ _ ?_ ?_) (fun x => ?_)
    · show Pays eachOne noGain 1 (fun _ => 0) mbrRead
      unfold mbrRead
      refine pays_ask_bind (Nat.le_refl _) (fun r => ?_)
      split
      · exact pays_ret (Nat.zero_le _)
      · exact pays_ite (pays_ret (Nat.zero_le _)) (pays_ret (Nat.zero_le _))
    · intro n
      exact pays_ask_bind (Nat.le_refl _) (fun _ => pays_ret (Nat.zero_le _))
    · split <;> exact pays_ret (Nat.zero_le _)

theorem readBasicInfo_pays (fd : Nat) (path : Bytes) (n : Nat) :
    Pays fPrice (fGain sb sl) (5 + n) (fun _ => n) (readBasicInfo fd path) := by
  unfold readBasicInfo
  refine pays_ask_bind (by show 1 ≤ _; omega) (fun d => ?_)
  show Pays fPrice (fGain sb sl) (5 + n - 1 + 0) _ _
  split
  · exact pays_ret (by omega)
  · refine pays_ask_bind (by show 1 ≤ _; omega) (fun d => ?_)
    refine pays_ask_bind (by show 1 ≤ 5 + n - 1 + 0 - 1 + 0; omega) (fun d => ?_)
    refine pays_ask_bind (by show 1 ≤ 5 + n - 1 + 0 - 1 + 0 - 1 + 0; omega) (fun d => ?_)
    show Pays fPrice (fGain sb sl) (5 + n - 1 + 0 - 1 + 0 - 1 + 0 - 1 + 0) _ _
    split
    · exact pays_ret (by omega)
    · exact pays_bind (c := fun _ => n) (pays_mono (basicTable_pays ..) (by omega) (fun _ => by omega))
        (fun _ => pays_ret (Nat.le_refl _))

theorem idEntries_pays (names : List Bytes) (m : List (Bytes × Bytes)) (n : Nat) :
    Pays fPrice (fGain sb sl) (names.length + n) (fun _ => n) (idEntries names m) := by
  induction names generalizing m with
  | nil => exact pays_ret (by simp)
  | cons x xs ih =>
    have hm : ∀ m k, xs.length + n ≤ k → Pays fPrice (fGain sb sl) k (fun _ => n) (idEntries xs m) :=
      fun m k hk => pays_mono (ih m) hk (fun _ => by omega)
    unfold idEntries
    refine pays_ite (hm _ _ (by simp only [List.length_cons]; omega)) ?_
    refine pays_ask_bind (by show 1 ≤ _; simp only [List.length_cons]; omega) (fun r => ?_)
    show Pays fPrice (fGain sb sl) ((x :: xs).length + n - 1 + 0) _ _
    split
    · exact pays_ret (by simp only [List.length_cons]; omega)
    · exact hm _ _ (by simp only [List.length_cons]; omega)

theorem getIdInfo_pays (order : List (Bytes × Bytes) → List (Bytes × Bytes)) (path : Bytes) (n : Nat) :
    Pays fPrice (fGain sb 1) (3 + n) (fun _ => n) (getIdInfo order path) := by
  unfold getIdInfo
  refine pays_ask_bind (by show 1 ≤ _; omega) (fun d => ?_)
  have e : fGain sb 1 (.readDir idPath) d = d.names.length := by
    show worth sb 1 idPath d.names = _
    unfold worth idPath
    rw [if_neg (by decide), if_pos rfl, Nat.mul_zero, Nat.one_mul]
    omega
  rw [e]
  show Pays fPrice (fGain sb 1) (3 + n - 1 + d.names.length) _ _
  split
  · exact pays_ret (by omega)
  · refine pays_bind (c := fun _ => 2 + n) (pays_mono (idEntries_pays d.names [] (2 + n)) (by omega) (fun _ => by omega))
      (fun x => ?_)
    split
    · exact pays_panic
    · exact pays_ret (by omega)
    · refine pays_ask_bind (by show 1 ≤ _; omega) (fun v => ?_)
      refine pays_ask_bind (by show 1 ≤ 2 + n - 1 + 0; omega) (fun v => ?_)
      refine pays_ret ?_
      show n ≤ 2 + n - 1 + 0 - 1 + 0
      omega

theorem tryDriver_pays (fd i n : Nat) (o : Opened) (m k : Nat) (hm : fPrice (.tryDriver i fd) + secPrice i + k ≤ m)
    (rest : ∀ o, Pays fPrice (fGain sb sl) k (fun _ => 0) (tryDrivers fd n (i + 1) o)) :
    Pays fPrice (fGain sb sl) m (fun _ => 0) (tryDrivers fd (n + 1) i o) := by
  have hr : ∀ o j, k ≤ j → Pays fPrice (fGain sb sl) j (fun _ => 0) (tryDrivers fd n (i + 1) o) :=
    fun o j hj => pays_mono (rest o) hj (fun _ => Nat.zero_le _)
  unfold tryDrivers
  refine pays_ask_bind (by omega) (fun r => ?_)
  show Pays fPrice (fGain sb sl) (m - fPrice (.tryDriver i fd) + 0) _ _
  split
  · exact hr _ _ (by omega)
  · dsimp only
    refine pays_bind (onDriver_pays (drivingType_pays i _ _)) (fun t => ?_)
    refine pays_bind (onDriver_pays (driverName_pays i _ _)) (fun t => ?_)
    refine pays_bind (c := fun _ => k) (onDriver_pays (pays_mono (init_pays i _) (by omega) (fun _ => by omega))) (fun t => ?_)
    exact rest _

theorem tryDrivers_pays (fd : Nat) (o : Opened) : Pays fPrice (fGain sb sl) 8 (fun _ => 0) (tryDrivers fd 2 0 o) := by
  refine tryDriver_pays fd 0 1 o 8 6 (by show 1 + 1 + 6 ≤ 8; omega) (fun o => ?_)
  refine tryDriver_pays fd 1 0 o 6 0 (by show 2 + 4 + 0 ≤ 6; omega) (fun o => ?_)
  exact pays_ret (Nat.zero_le _)

theorem openByFd_pays (order : List (Bytes × Bytes) → List (Bytes × Bytes)) (fd : Nat) (path : Bytes) (n : Nat) :
    Pays fPrice (fGain sb 1) (16 + n) (fun x => if x.2 = none then n else n + 1) (openByFd 2 order fd path) := by
  unfold openByFd
  refine pays_bind (c := fun _ => 11 + n) (pays_mono (readBasicInfo_pays fd path (11 + n)) (by omega) (fun _ => by omega))
    (fun b => ?_)
  refine pays_bind (c := fun _ => 8 + n) (pays_mono (getIdInfo_pays order path (8 + n)) (by omega) (fun _ => by omega))
    (fun x => ?_)
  refine pays_bind (c := fun _ => n) (pays_mono (tryDrivers_pays fd _) (by omega) (fun _ => by omega)) (fun o => ?_)
  refine pays_ret ?_
  show (if (none : Option GoErr) = none then n else n + 1) ≤ n
  rw [if_pos rfl]
  exact Nat.le_refl _

theorem openByPath_pays (order : List (Bytes × Bytes) → List (Bytes × Bytes)) (path : Bytes) (n : Nat) :
    Pays fPrice (fGain sb 1) (17 + n) (fun _ => n) (openByPath 2 order path) := by
  unfold openByPath
  refine pays_ask_bind (by show 1 ≤ _; omega) (fun r => ?_)
  show Pays fPrice (fGain sb 1) (17 + n - 1 + 0) _ _
  split
  · exact pays_ret (by omega)
  · refine pays_bind (c := fun x => if x.2 = none then n else n + 1) (pays_mono (openByFd_pays order r.fd path n) (by omega) (fun _ => by omega)) (fun x => ?_)
    obtain ⟨o, e⟩ := x
    cases e with
    | none => exact pays_ret (by simp)
    | some e =>
      refine pays_ask_bind (by show 1 ≤ _; simp) (fun _ => pays_ret ?_)
      show n ≤ _ - 1 + 0
      simp

theorem openedClose_pays (o : Opened) (n : Nat) : Pays fPrice (fGain sb sl) (1 + n) (fun _ => n) o.close := by
  have : Pays fPrice (fGain sb sl) 1 (fun _ => 0) o.close := by
    unfold Opened.close
    split
    · exact pays_bind (c := fun _ => 0) (onDriver_pays (close_pays _ _)) (fun _ => pays_ret (Nat.zero_le _))
    · exact pays_bind (c := fun _ => 0) (onDriver_pays (close_pays _ _)) (fun _ => pays_ret (Nat.zero_le _))
  exact pays_mono this (by omega) (fun _ => by omega)

theorem enumLoop_pays (order : List (Bytes × Bytes) → List (Bytes × Bytes)) (names : List Bytes) :
    Pays fPrice (fGain sb 1) (19 * names.length) (fun _ => 0) (enumLoop 2 order names) := by
  induction names with
  | nil => exact pays_ret (Nat.zero_le _)
  | cons x xs ih =>
    have hl : 19 * (x :: xs).length = 19 * xs.length + 19 := by simp only [List.length_cons]; omega
    have hm : ∀ k, 19 * xs.length ≤ k → Pays fPrice (fGain sb 1) k (fun _ => 0) (enumLoop 2 order xs) :=
      fun k hk => pays_mono ih hk (fun _ => by omega)
    unfold enumLoop
    refine pays_ite (hm _ (by omega)) ?_
    refine pays_ask_bind (by show 1 ≤ _; omega) (fun s => ?_)
    show Pays fPrice (fGain sb 1) (19 * (x :: xs).length - 1 + 0) _ _
    refine pays_ite (pays_ite (hm _ (by omega)) ?_) (hm _ (by omega))
    refine pays_bind (c := fun _ => 19 * xs.length + 1)
      (pays_mono (openByPath_pays order _ (19 * xs.length + 1)) (by omega) (fun _ => by omega)) (fun r => ?_)
    cases r with
    | panic => exact pays_panic
    | err e => exact hm _ (by omega)
    | ok o =>
      refine pays_bind (c := fun _ => 0) (pays_defer ih ?_) (fun os => pays_ret (Nat.zero_le _))
      exact pays_bind (openedClose_pays o 0) (fun _ => pays_ret (Nat.zero_le _))

theorem enumDrives_pays (order : List (Bytes × Bytes) → List (Bytes × Bytes)) :
    Pays fPrice (fGain 19 1) 1 (fun _ => 0) (enumDrives 2 order) := by
  unfold enumDrives
  refine pays_ask_bind (by show 1 ≤ _; omega) (fun d => ?_)
  have e : fGain 19 1 (.readDir (ascii "/sys/block")) d = 19 * d.names.length := by
    show worth 19 1 (ascii "/sys/block") d.names = _
    unfold worth
    rw [if_pos rfl, if_neg (by decide)]
    omega
  rw [e]
  show Pays fPrice (fGain 19 1) (1 - 1 + 19 * d.names.length) _ _
  split
  · exact pays_ret (Nat.zero_le _)
  · exact pays_bind (c := fun _ => 0) (pays_mono (enumLoop_pays order d.names) (by omega) (fun _ => by omega))
      (fun _ => pays_ret (Nat.zero_le _))

theorem parentInfo_pays (parent : Bytes) (n : Nat) : Pays fPrice (fGain sb sl) (6 + n) (fun _ => n) (parentInfo parent) := by
  unfold parentInfo
  refine pays_ask_bind (by show 1 ≤ _; omega) (fun r => ?_)
  show Pays fPrice (fGain sb sl) (6 + n - 1 + 0) _ _
  split
  · exact pays_ret (by omega)
  · refine pays_bind (c := fun _ => n) (pays_mono (readBasicInfo_pays r.fd parent n) (by omega) (fun _ => by omega))
      (fun x => ?_)
    cases x with
    | ok b => exact pays_ret (Nat.le_refl _)
    | err e => exact pays_ret (Nat.le_refl _)
    | panic => exact pays_ret (Nat.le_refl _)

theorem volLine_pays (vols : VolMap) (line : Bytes) (n : Nat) :
    Pays fPrice (fGain sb sl) (6 + n) (fun _ => n) (volLine vols line) := by
  unfold volLine
  split
  dsimp only
  split
  · exact pays_ret (by omega)
  · refine pays_bind (parentInfo_pays _ n) (fun x => ?_)
    cases x with
    | none => exact pays_ret (Nat.le_refl _)
    | some b =>
      refine pays_lift_bind (fun y => ?_)
      cases y with
      | none => exact pays_ret (Nat.le_refl _)
      | some p => exact pays_ret (Nat.le_refl _)

theorem volLoop_pays (lines : List (Bytes × Option GoErr)) (vols : VolMap) :
    Pays fPrice (fGain sb sl) (6 * lines.length) (fun _ => 0) (volLoop lines vols) := by
  induction lines generalizing vols with
  | nil => exact pays_ret (Nat.zero_le _)
  | cons x xs ih =>
    obtain ⟨line, e⟩ := x
    have hl : 6 * ((line, e) :: xs).length = 6 + 6 * xs.length := by simp only [List.length_cons]; omega
    rw [hl]
    unfold volLoop
    refine pays_bind (volLine_pays vols line (6 * xs.length)) (fun v => ?_)
    cases e with
    | some e => exact pays_ret (Nat.zero_le _)
    | none => exact ih v

theorem enumVolumes_pays (m : Mounts) : Pays fPrice (fGain sb sl) (6 * m.lines.length) (fun _ => 0) (enumVolumes m) := by
  unfold enumVolumes
  split
  · exact pays_ret (Nat.zero_le _)
  · exact volLoop_pays _ _

theorem openVolume_pays (order : List (Bytes × Bytes) → List (Bytes × Bytes)) (vols : VolMap) (path : Bytes) :
    Pays fPrice (fGain sb 1) 17 (fun _ => 0) (openDriveByVolumePath 2 order vols path) := by
  unfold openDriveByVolumePath
  dsimp only
  split
  · exact pays_ret (Nat.zero_le _)
  · refine pays_ite ?_ (pays_ret (Nat.zero_le _))
    exact pays_bind (openByPath_pays order _ 0) (fun _ => pays_ret (Nat.zero_le _))

end Dparm
