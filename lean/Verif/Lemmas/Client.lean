import Verif.Lemmas.Policy
import Verif.Lemmas.LinuxSystem
import Verif.Spec.Client
/-!
# Descriptors along the runs of a client
-/
namespace Dparm
open Spec

/-- The descriptor protocol of the whole program: only open descriptors are used; `open` gives a new one. -/
def fdsA : Policy AReq ARep (List Nat) where
  allowed s q := ∀ fd, usesFd q = some fd → fd ∈ s
  answers s q r := ∀ path, q = .sys (.os (.openDev path)) → r.sys.os.err = none → r.sys.os.fd ∉ s
  next s q r := fdsAfter s (q, r)

theorem openFds_after (t : Prog.Trace AReq ARep) : openFds t = fdsA.after [] t := rfl

theorem fresh_sound {env : Prog.Env AReq ARep} (h : FreshFds env) : fdsA.Sound [] env := by
  intro hist q path hq herr
  subst hq
  exact h hist path herr

/-- The same for the system calls. -/
def fdsL : Policy LReq LRep (List Nat) where
  allowed s q := fdsA.allowed s (.sys q)
  answers s q r := fdsA.answers s (.sys q) { sys := r }
  next s q r := fdsAfter s (.sys q, { sys := r })

/-- The descriptor of a call of the factory. -/
def fUsesFd : FReq → Option Nat
  | .sectorSize fd => some fd
  | .totalSize fd => some fd
  | .geometry fd => some fd
  | .tryDriver _ fd => some fd
  | .drv _ fd _ => some fd
  | .closeFd fd => some fd
  | _ => none

/-- The open descriptors after a call of the factory. -/
def fNext (s : List Nat) (r : FRep) : FReq → List Nat
  | .openDev _ => if r.err = none then r.fd :: s else s
  | .closeFd fd => s.filter (· ≠ fd)
  | .drv _ fd .close => s.filter (· ≠ fd)
  | _ => s

/-- The same for the factory with its drivers. -/
def fdsF : Policy FReq FRep (List Nat) where
  allowed s q := ∀ fd, fUsesFd q = some fd → fd ∈ s
  answers s q r := ∀ path, q = .openDev path → r.err = none → r.fd ∉ s
  next s q r := fNext s r q

theorem sysCall_safe {B : List Nat → Prop} (q : LReq) (s : List Nat) (hB : B s) (h : fdsL.allowed s q) :
    OutT.Safe fdsA B (sysCall q) s (fun r s' => fdsL.answers s q r ∧ s' = fdsL.next s q r) :=
  OutT.safe_ask_bind hB h (fun r hr => OutT.safe_ret ⟨fun path hq he => hr path hq he, rfl⟩)

/-- No descriptor is listed twice. -/
theorem run_nodup {env : Prog.Env AReq ARep} (hf : FreshFds env) {α : Type} (p : AM α) : ∀ h : Prog.Trace AReq ARep,
    (openFds h).Nodup → (openFds (h ++ (OutT.run env h p).2)).Nodup := by
  have : ∀ (p : Prog AReq ARep (Out α)) (h : Prog.Trace AReq ARep), (openFds h).Nodup →
      (openFds (h ++ (Prog.run env h p).2)).Nodup := by
    intro p
    induction p with
    | done o => intro h hn; rw [Prog.run_done, List.append_nil]; exact hn
    | ask q k ih =>
      intro h hn
      rw [Prog.run_ask]
      have hstep : (openFds (h ++ [(q, env h q)])).Nodup := by
        rw [openFds_after, fdsA.after_append, ← openFds_after]
        show (fdsAfter (openFds h) (q, env h q)).Nodup
        unfold fdsAfter
        split
        · rename_i path hq
          dsimp only at hq
          split
          · rename_i he
            subst hq
            exact List.nodup_cons.2 ⟨hf h path he, hn⟩
          · exact hn
        · exact hn.filter _
        · exact hn
      have := ih (env h q) (h ++ [(q, env h q)]) hstep
      rw [List.append_assoc] at this
      exact this
  exact this p

/-! ## the drivers -/

theorem nvAdmin_asks (a : BitVec 64) (c : NvmeCmd) : OutT.Asks (· ≠ NvReq.close) (nvAdmin a c) := by
  unfold nvAdmin
  exact OutT.asks_bind (OutT.asks_ask (by simp)) (fun _ => OutT.asks_ret _)

theorem nvOpen_asks (a : BitVec 64) : OutT.Asks (· ≠ NvReq.close) (nvOpen a) := by
  unfold nvOpen
  refine OutT.asks_bind (nvAdmin_asks a _) (fun x => ?_)
  obtain ⟨e, d⟩ := x
  dsimp only
  split
  · exact OutT.asks_ret _
  · split <;> exact OutT.asks_ret _

theorem logPageLoop_asks (nsid logId : BitVec 32) (rae : Bool) (size : Nat) : ∀ (n offset : Nat) (buf : Bytes)
    (last : Option GoErr), size - offset ≤ n →
    OutT.Asks (fun q => ∃ c, q = DrvReq.nvmeAdmin c) (logPageLoop nsid logId rae size offset buf last) := by
  intro n
  induction n with
  | zero =>
    intro offset buf last h
    rw [logPageLoop, dif_pos (by omega)]
    exact OutT.asks_ret _
  | succ n ih =>
    intro offset buf last h
    rw [logPageLoop]
    split
    · exact OutT.asks_ret _
    · refine OutT.asks_bind (OutT.asks_ask ⟨_, rfl⟩) (fun r => ?_)
      dsimp only
      split
      · exact OutT.asks_ret _
      · exact ih _ _ _ (by omega)

theorem nvmeLogPage_asks (nsid logId : BitVec 32) (rae : Bool) (size : Int) :
    OutT.Asks (fun q => ∃ c, q = DrvReq.nvmeAdmin c) (nvmeLogPage nsid logId rae size) := by
  unfold nvmeLogPage
  split
  · exact OutT.asks_panic
  · exact logPageLoop_asks _ _ _ _ _ _ _ _ (Nat.le_refl _)

theorem nvDriver0_asks (a : BitVec 64) (b : Nat → Byte) (q : DrvReq) (h : q ≠ .close) :
    OutT.Asks (· ≠ NvReq.close) (nvDriver0 a b q) := by
  cases q with
  | close => exact absurd rfl h
  | nvmeAdmin c => exact OutT.asks_bind (nvAdmin_asks a c) (fun _ => OutT.asks_ret _)
  | _ => trivial

theorem nvDriver_asks (a : BitVec 64) (b : Nat → Byte) (q : DrvReq) (h : q ≠ .close) :
    OutT.Asks (· ≠ NvReq.close) (nvDriver a b q) := by
  cases q with
  | close => exact absurd rfl h
  | logPage nsid logId rae size =>
    refine OutT.asks_bind (OutT.asks_interp _ _ (nvmeLogPage_asks ..) (fun q ⟨c, hc⟩ => ?_)) (fun _ => OutT.asks_ret _)
    subst hc
    exact nvDriver0_asks a b _ (by simp)
  | _ => exact nvDriver0_asks a b _ h

theorem sgTaskFile_asks (rw dma : Bool) (tf : Tf) (data : Option Bytes) (addr base t : Nat) :
    OutT.Asks (· ≠ KReq.close) (sgTaskFile rw dma tf data addr base t) := by
  unfold sgTaskFile
  refine OutT.asks_bind (OutT.asks_lift _) (fun x => ?_)
  refine OutT.asks_bind (OutT.asks_ask (by simp)) (fun r => ?_)
  refine OutT.asks_bind (OutT.asks_lift _) (fun d => ?_)
  dsimp only
  split
  · exact OutT.asks_ret _
  · refine OutT.asks_bind (OutT.asks_ask (by simp)) (fun r2 => ?_)
    split <;> exact OutT.asks_ret _

theorem sgSecurity_asks (rw : Bool) (p : Byte) (c : BitVec 16) (data : Bytes) (addr base t : Nat) :
    OutT.Asks (· ≠ KReq.close) (sgSecurity rw p c data addr base t) := by
  unfold sgSecurity
  refine OutT.asks_bind (OutT.asks_lift _) (fun x => ?_)
  refine OutT.asks_bind (OutT.asks_ask (by simp)) (fun r => ?_)
  refine OutT.asks_bind (OutT.asks_lift _) (fun d => ?_)
  dsimp only
  split
  · exact OutT.asks_ret _
  · refine OutT.asks_bind (OutT.asks_ask (by simp)) (fun r2 => ?_)
    split <;> exact OutT.asks_ret _

theorem sgOpen_asks (b b' : Nat) : OutT.Asks (· ≠ KReq.close) (sgOpen b b') := by
  unfold sgOpen
  refine OutT.asks_bind (sgTaskFile_asks ..) (fun x => ?_)
  obtain ⟨e, _, d⟩ := x
  dsimp only
  split
  · exact OutT.asks_ret _
  · exact OutT.asks_bind (OutT.asks_lift _) (fun _ => OutT.asks_ret _)

theorem sgDriver_asks (addr base : Nat) (b : Nat → Byte) (q : DrvReq) (h : q ≠ .close) :
    OutT.Asks (· ≠ KReq.close) (sgDriver addr base b q) := by
  cases q with
  | close => exact absurd rfl h
  | sec => exact OutT.asks_bind (sgSecurity_asks ..) (fun _ => OutT.asks_ret _)
  | taskFile => exact OutT.asks_bind (sgTaskFile_asks ..) (fun _ => OutT.asks_ret _)
  | taskNil => exact OutT.asks_bind (sgTaskFile_asks ..) (fun _ => OutT.asks_ret _)
  | _ => trivial

/-- System calls of a driver other than closing its descriptor. -/
def isWork (fd : Nat) : LReq → Prop
  | .place => True
  | .nvme f _ _ _ => f = fd
  | .nvmeIo f _ _ => f = fd
  | .sgIo f _ => f = fd
  | .os _ => False

theorem isWork_keeps {fd : Nat} {s : List Nat} (h : fd ∈ s) (q : LReq) (hq : isWork fd q) :
    fdsL.allowed s q ∧ ∀ r, fdsL.next s q r = s := by
  cases q with
  | os _ => exact hq.elim
  | place => exact ⟨(fun _ h => by cases h), fun _ => rfl⟩
  | nvme f _ _ _ => exact ⟨(fun _ h' => by cases h'; rw [show f = fd from hq]; exact h), fun _ => rfl⟩
  | nvmeIo f _ _ => exact ⟨(fun _ h' => by cases h'; rw [show f = fd from hq]; exact h), fun _ => rfl⟩
  | sgIo f _ => exact ⟨(fun _ h' => by cases h'; rw [show f = fd from hq]; exact h), fun _ => rfl⟩

theorem nvSys_work {α : Type} (fd : Nat) {p : NvM α} (h : OutT.Asks (· ≠ NvReq.close) p) :
    OutT.Asks (isWork fd) (OutT.interp (nvSys fd) p) := by
  refine OutT.asks_interp _ _ h (fun q hq => ?_)
  cases q with
  | close => exact absurd rfl hq
  | _ => exact OutT.asks_bind (OutT.asks_ask rfl) (fun _ => OutT.asks_ret _)

theorem sgSys_work {α : Type} (fd : Nat) {p : SgM α} (h : OutT.Asks (· ≠ KReq.close) p) :
    OutT.Asks (isWork fd) (OutT.interp (sgSys fd) p) := by
  refine OutT.asks_interp _ _ h (fun q hq => ?_)
  cases q with
  | close => exact absurd rfl hq
  | _ => exact OutT.asks_bind (OutT.asks_ask rfl) (fun _ => OutT.asks_ret _)

theorem tryNv_work (fd : Nat) : OutT.Asks (isWork fd) (tryNv fd) := by
  unfold tryNv
  refine OutT.asks_bind (OutT.asks_ask trivial) (fun p => OutT.asks_bind (nvSys_work fd (nvOpen_asks _)) (fun x => ?_))
  cases x <;> trivial

theorem trySg_work (fd : Nat) : OutT.Asks (isWork fd) (trySg fd) := by
  unfold trySg
  refine OutT.asks_bind (OutT.asks_ask trivial) (fun p => OutT.asks_bind (sgSys_work fd (sgOpen_asks ..)) (fun x => ?_))
  cases x <;> trivial

theorem drvNv_work (fd : Nat) (q : DrvReq) (h : q ≠ .close) : OutT.Asks (isWork fd) (drvNv fd q) := by
  unfold drvNv
  exact OutT.asks_bind (OutT.asks_ask trivial) (fun p =>
    OutT.asks_bind (nvSys_work fd (nvDriver_asks _ _ q h)) (fun _ => OutT.asks_ret _))

theorem drvSg_work (fd : Nat) (q : DrvReq) (h : q ≠ .close) : OutT.Asks (isWork fd) (drvSg fd q) := by
  unfold drvSg
  exact OutT.asks_bind (OutT.asks_ask trivial) (fun p =>
    OutT.asks_bind (sgSys_work fd (sgDriver_asks _ _ _ q h)) (fun _ => OutT.asks_ret _))

theorem work_safe {B : List Nat → Prop} {α : Type} {fd : Nat} {s : List Nat} {p : LM α} (hB : B s) (hfd : fd ∈ s)
    (hp : OutT.Asks (isWork fd) p) : OutT.Safe fdsL B p s (fun _ s' => s' = s) :=
  OutT.safe_mono (OutT.safe_of_asks hB hp (fun q hq => isWork_keeps hfd q hq) (OutT.returns_any p)) (fun _ _ h => h.2)

theorem drvNv_close {B : List Nat → Prop} {fd : Nat} {s : List Nat} (hB : B s) (hfd : fd ∈ s) :
    OutT.Safe fdsL B (drvNv fd .close) s (fun _ s' => s' = s.filter (· ≠ fd)) := by
  refine OutT.safe_ask_bind hB (fun _ h => by cases h) (fun r _ => ?_)
  refine OutT.safe_ask_bind (P := fdsL) (q := .os (.closeFd fd)) (s := s) hB
    (fun f h => by cases h; exact hfd) (fun r _ => ?_)
  exact OutT.safe_ret rfl

theorem drvSg_close {B : List Nat → Prop} {fd : Nat} {s : List Nat} (hB : B s) (hfd : fd ∈ s) :
    OutT.Safe fdsL B (drvSg fd .close) s (fun _ s' => s' = s.filter (· ≠ fd)) := by
  refine OutT.safe_ask_bind hB (fun _ h => by cases h) (fun r _ => ?_)
  refine OutT.safe_ask_bind (P := fdsL) (q := .os (.closeFd fd)) (s := s) hB
    (fun f h => by cases h; exact hfd) (fun r _ => ?_)
  exact OutT.safe_ret rfl

theorem drv_answers {s : List Nat} {i fd : Nat} {q : DrvReq} {r : FRep} : fdsF.answers s (.drv i fd q) r :=
  fun _ h => by cases h
theorem try_answers {s : List Nat} {i fd : Nat} {r : FRep} : fdsF.answers s (.tryDriver i fd) r := fun _ h => by cases h

theorem fNext_drv {s : List Nat} {r : FRep} {i fd : Nat} {q : DrvReq} (h : q ≠ .close) : fNext s r (.drv i fd q) = s := by
  cases q with
  | close => exact absurd rfl h
  | _ => rfl

/-- The step from the factory's calls to the system calls keeps the protocol. -/
theorem linuxStep_safe {B : List Nat → Prop} (q : FReq) (s : List Nat) (hB : B s) (h : fdsF.allowed s q) :
    OutT.Safe fdsL B (linuxStep q) s (fun r s' => fdsF.answers s q r ∧ s' = fdsF.next s q r) := by
  cases q with
  | tryDriver i fd =>
    have hfd := h fd rfl
    match i with
    | 0 => exact OutT.safe_mono (work_safe hB hfd (tryNv_work fd)) (fun _ _ h => ⟨try_answers, h⟩)
    | 1 => exact OutT.safe_mono (work_safe hB hfd (trySg_work fd)) (fun _ _ h => ⟨try_answers, h⟩)
    | _ + 2 => exact OutT.safe_panic hB
  | drv i fd q =>
    have hfd := h fd rfl
    by_cases hq : q = .close
    · subst hq
      match i with
      | 0 => exact OutT.safe_mono (drvNv_close hB hfd) (fun _ _ h => ⟨drv_answers, h⟩)
      | 1 => exact OutT.safe_mono (drvSg_close hB hfd) (fun _ _ h => ⟨drv_answers, h⟩)
      | _ + 2 => exact OutT.safe_panic hB
    · match i with
      | 0 => exact OutT.safe_mono (work_safe hB hfd (drvNv_work fd q hq))
               (fun _ _ h => ⟨drv_answers, h.trans (fNext_drv hq).symm⟩)
      | 1 => exact OutT.safe_mono (work_safe hB hfd (drvSg_work fd q hq))
               (fun _ _ h => ⟨drv_answers, h.trans (fNext_drv hq).symm⟩)
      | _ + 2 => exact OutT.safe_panic hB
  | openDev path =>
    refine OutT.safe_ask_bind hB (fun _ h => by cases h) (fun r hr => OutT.safe_ret ⟨?_, rfl⟩)
    exact fun p hp he => hr path rfl he
  | closeFd fd =>
    exact OutT.safe_ask_bind hB (fun f hf => by cases hf; exact h fd rfl)
      (fun r hr => OutT.safe_ret ⟨(fun _ h => by cases h), rfl⟩)
  | sectorSize fd =>
    exact OutT.safe_ask_bind hB (fun f hf => by cases hf; exact h fd rfl)
      (fun r hr => OutT.safe_ret ⟨(fun _ h => by cases h), rfl⟩)
  | totalSize fd =>
    exact OutT.safe_ask_bind hB (fun f hf => by cases hf; exact h fd rfl)
      (fun r hr => OutT.safe_ret ⟨(fun _ h => by cases h), rfl⟩)
  | geometry fd =>
    exact OutT.safe_ask_bind hB (fun f hf => by cases hf; exact h fd rfl)
      (fun r hr => OutT.safe_ret ⟨(fun _ h => by cases h), rfl⟩)
  | _ => exact OutT.safe_ask_bind hB (fun _ h => by cases h) (fun r hr => OutT.safe_ret ⟨(fun _ h => by cases h), rfl⟩)

/-- A program of the factory that keeps the protocol, down to the system calls. -/
theorem onLinux_safe {B : List Nat → Prop} {α : Type} {p : FM α} {s : List Nat} {K : α → List Nat → Prop}
    (h : OutT.Safe fdsF B p s K) : OutT.Safe fdsA B (OutT.interp sysCall (onLinux p)) s K :=
  OutT.safe_interp sysCall (fun q s hB h => sysCall_safe q s hB h)
    (OutT.safe_interp linuxStep (fun q s hB h => linuxStep_safe q s hB h) h)

/-! ## the factory -/

/-- Calls of the factory that work on one descriptor and open or close nothing. -/
def Keeps (fd : Nat) (q : FReq) : Prop := (∀ f, fUsesFd q = some f → f = fd) ∧ ∀ s r, fNext s r q = s

theorem keeps_none {fd : Nat} {q : FReq} (h : fUsesFd q = none) (hn : ∀ s r, fNext s r q = s) : Keeps fd q :=
  ⟨(fun f hf => by rw [h] at hf; cases hf), hn⟩

theorem basicTable_keeps (fd : Nat) (path : Bytes) (t : PartTable) (b : BasicInfo) :
    OutT.Asks (Keeps fd) (basicTable path t b) := by
  unfold basicTable
  split
  · exact OutT.asks_ret _
  · exact OutT.asks_ret _
  · refine OutT.asks_bind (OutT.asks_interp _ _ (OutT.asks_true mbrRead)
      (fun q _ => OutT.asks_bind (OutT.asks_ask (keeps_none rfl (fun _ _ => rfl))) (fun _ => OutT.asks_ret _))) (fun r => ?_)
    split <;> exact OutT.asks_ret _

theorem keeps_own {fd : Nat} {q : FReq} (h : fUsesFd q = some fd) (hn : ∀ s r, fNext s r q = s) : Keeps fd q :=
  ⟨(fun f hf => by rw [h] at hf; cases hf; rfl), hn⟩

theorem readBasicInfo_keeps (fd : Nat) (path : Bytes) : OutT.Asks (Keeps fd) (readBasicInfo fd path) := by
  unfold readBasicInfo
  refine OutT.asks_bind (OutT.asks_ask (keeps_none rfl (fun _ _ => rfl))) (fun d => ?_)
  split
  · exact OutT.asks_ret _
  · refine OutT.asks_bind (OutT.asks_ask (keeps_own rfl (fun _ _ => rfl))) (fun _ => ?_)
    refine OutT.asks_bind (OutT.asks_ask (keeps_own rfl (fun _ _ => rfl))) (fun _ => ?_)
    refine OutT.asks_bind (OutT.asks_ask (keeps_own rfl (fun _ _ => rfl))) (fun _ => ?_)
    split
    · exact OutT.asks_ret _
    · exact OutT.asks_bind (basicTable_keeps ..) (fun _ => OutT.asks_ret _)

theorem idEntries_keeps (fd : Nat) (names : List Bytes) : ∀ m, OutT.Asks (Keeps fd) (idEntries names m) := by
  induction names with
  | nil => intro m; exact OutT.asks_ret _
  | cons name rest ih =>
    intro m
    unfold idEntries
    split
    · exact ih m
    · refine OutT.asks_bind (OutT.asks_ask (keeps_none rfl (fun _ _ => rfl))) (fun r => ?_)
      split
      · exact OutT.asks_ret _
      · exact ih _

theorem getIdInfo_keeps (fd : Nat) (order : List (Bytes × Bytes) → List (Bytes × Bytes)) (path : Bytes) :
    OutT.Asks (Keeps fd) (getIdInfo order path) := by
  unfold getIdInfo
  refine OutT.asks_bind (OutT.asks_ask (keeps_none rfl (fun _ _ => rfl))) (fun d => ?_)
  split
  · exact OutT.asks_ret _
  · refine OutT.asks_bind (idEntries_keeps ..) (fun x => ?_)
    split
    · exact OutT.asks_panic
    · exact OutT.asks_ret _
    · exact OutT.asks_bind (OutT.asks_ask (keeps_none rfl (fun _ _ => rfl))) (fun _ =>
        OutT.asks_bind (OutT.asks_ask (keeps_none rfl (fun _ _ => rfl))) (fun _ => OutT.asks_ret _))

theorem onDriver_keeps {α : Type} (i fd : Nat) {p : DrvM α} (hp : OutT.Asks (· ≠ DrvReq.close) p) :
    OutT.Asks (Keeps fd) (onDriver i fd p) := by
  refine OutT.asks_mono ?_ (onDriver_asks i fd hp)
  rintro q ⟨d, hd, rfl⟩
  exact keeps_own rfl (fun _ _ => fNext_drv hd)

theorem security_not_close (q : DrvReq) (h : isSecurityCall q) : q ≠ .close := by
  cases q with
  | close => exact h.elim
  | _ => intro h'; cases h'

theorem getDrivingType_asks (h : Handle) : OutT.Asks (· ≠ DrvReq.close) h.getDrivingType := by
  unfold Handle.getDrivingType
  split
  · exact OutT.asks_panic
  · exact OutT.asks_bind (OutT.asks_ask (by simp)) (fun _ => OutT.asks_ret _)

theorem getDriverName_asks (h : Handle) : OutT.Asks (· ≠ DrvReq.close) h.getDriverName := by
  unfold Handle.getDriverName
  split
  · exact OutT.asks_panic
  · exact OutT.asks_bind (OutT.asks_ask (by simp)) (fun _ => OutT.asks_ret _)

theorem tryDrivers_keeps (fd n : Nat) : ∀ i o, OutT.Asks (Keeps fd) (tryDrivers fd n i o) := by
  induction n with
  | zero => intro i o; exact OutT.asks_ret _
  | succ n ih =>
    intro i o
    unfold tryDrivers
    refine OutT.asks_bind (OutT.asks_ask (keeps_own rfl (fun _ _ => rfl))) (fun r => ?_)
    split
    · exact ih _ _
    · refine OutT.asks_bind (onDriver_keeps i fd (getDrivingType_asks _)) (fun t => ?_)
      refine OutT.asks_bind (onDriver_keeps i fd (getDriverName_asks _)) (fun nm => ?_)
      refine OutT.asks_bind (onDriver_keeps i fd (OutT.asks_mono security_not_close (init_asks _))) (fun x => ?_)
      exact ih _ _

/-- A handle with a driver has that driver on the descriptor `fd`. -/
def OnFd (fd : Nat) (o : Opened) : Prop := o.handle.dh ≠ none → ∃ i, o.source = some (i, fd)

theorem tryDrivers_onFd (fd n : Nat) : ∀ i o, OnFd fd o → OutT.Returns (OnFd fd) (tryDrivers fd n i o) := by
  induction n with
  | zero => intro i o h; exact OutT.returns_ret h
  | succ n ih =>
    intro i o h
    unfold tryDrivers
    refine OutT.returns_bind (OutT.returns_any _) (fun r _ => ?_)
    split
    · exact ih _ _ h
    · refine OutT.returns_bind (OutT.returns_any _) (fun t _ => ?_)
      refine OutT.returns_bind (OutT.returns_any _) (fun nm _ => ?_)
      refine OutT.returns_bind (OutT.returns_any _) (fun x _ => ?_)
      exact ih _ _ (fun _ => ⟨i, rfl⟩)

theorem openByFd_keeps (n : Nat) (order : List (Bytes × Bytes) → List (Bytes × Bytes)) (fd : Nat) (path : Bytes) :
    OutT.Asks (Keeps fd) (openByFd n order fd path) := by
  unfold openByFd
  refine OutT.asks_bind (readBasicInfo_keeps ..) (fun b => ?_)
  refine OutT.asks_bind (getIdInfo_keeps ..) (fun x => ?_)
  exact OutT.asks_bind (tryDrivers_keeps ..) (fun _ => OutT.asks_ret _)

theorem basicOpened_dh (path : Bytes) (b : Res BasicInfo) (id : IdInfo) : (basicOpened path b id).handle.dh = none := by
  unfold basicOpened
  dsimp only
  split <;> rfl

theorem openByFd_onFd (n : Nat) (order : List (Bytes × Bytes) → List (Bytes × Bytes)) (fd : Nat) (path : Bytes) :
    OutT.Returns (fun x => x.2 = none ∧ OnFd fd x.1) (openByFd n order fd path) := by
  unfold openByFd
  refine OutT.returns_bind (OutT.returns_any _) (fun b _ => ?_)
  refine OutT.returns_bind (OutT.returns_any _) (fun x _ => ?_)
  exact OutT.returns_bind (tryDrivers_onFd fd n 0 _ (fun h => absurd (basicOpened_dh ..) h))
    (fun o ho => OutT.returns_ret ⟨rfl, ho⟩)

theorem keeps_safe {B : List Nat → Prop} {α : Type} {fd : Nat} {s : List Nat} {p : FM α} (hB : B s) (hfd : fd ∈ s)
    (hp : OutT.Asks (Keeps fd) p) {C : α → Prop} (hr : OutT.Returns C p) :
    OutT.Safe fdsF B p s (fun a s' => C a ∧ s' = s) :=
  OutT.safe_of_asks hB hp (fun q hq => ⟨(fun f hf => by rw [hq.1 f hf]; exact hfd), fun r => hq.2 s r⟩) hr

/-- What opening a drive leaves: nothing after an error, otherwise one new descriptor, the one of the driver. -/
def Opening (s : List Nat) (r : Res Opened) (s' : List Nat) : Prop :=
  match r with
  | .ok o => ∃ fd, fd ∉ s ∧ s' = fd :: s ∧ OnFd fd o
  | _ => s' = s

theorem openByPath_safe {B : List Nat → Prop} (n : Nat) (order : List (Bytes × Bytes) → List (Bytes × Bytes))
    (path : Bytes) (s : List Nat) (hB : B s) (hmono : ∀ fd, B (fd :: s)) :
    OutT.Safe fdsF B (openByPath n order path) s (Opening s) := by
  unfold openByPath
  refine OutT.safe_ask_bind hB (fun _ h => by cases h) (fun r hr => ?_)
  show OutT.Safe fdsF B _ (fNext s r (.openDev path)) _
  cases he : r.err with
  | some e =>
    dsimp only
    rw [fNext, if_neg (by simp [he])]
    exact OutT.safe_ret rfl
  | none =>
    dsimp only
    rw [fNext, if_pos he]
    refine OutT.safe_bind' (keeps_safe (hmono _) (List.mem_cons_self ..) (openByFd_keeps n order r.fd path)
      (openByFd_onFd n order r.fd path)) ?_
    rintro ⟨o, e⟩ s' ⟨⟨h1, h2⟩, rfl⟩
    dsimp only at h1 h2
    subst h1
    exact OutT.safe_ret ⟨r.fd, hr path rfl he, rfl, h2⟩

/-- Closing a handle: the descriptor of its driver goes, if it has one. -/
theorem close_safe {B : List Nat → Prop} (o : Opened) (s : List Nat) (hB : B s)
    (ho : o.handle.dh ≠ none → ∃ i fd, o.source = some (i, fd) ∧ fd ∈ s) :
    OutT.Safe fdsF B o.close s (fun o' s' => o'.handle.dh = none ∧ o'.source = o.source ∧
      ((o.handle.dh = none ∧ s' = s) ∨ (o.handle.dh ≠ none ∧ ∃ i fd, o.source = some (i, fd) ∧ s' = s.filter (· ≠ fd)))) := by
  cases hd : o.handle.dh with
  | none =>
    unfold Opened.close Handle.close
    rw [hd]
    cases o.source <;> exact OutT.safe_ret ⟨hd, rfl, .inl ⟨rfl, rfl⟩⟩
  | some d =>
    obtain ⟨i, fd, h1, h2⟩ := ho (by rw [hd]; simp)
    unfold Opened.close Handle.close
    rw [hd, h1]
    refine OutT.safe_bind' (C := fun h' s' => h'.dh = none ∧ s' = s.filter (· ≠ fd)) ?_ ?_
    · exact OutT.safe_ask_bind hB (fun f hf => by cases hf; exact h2) (fun r _ => OutT.safe_ret ⟨rfl, rfl⟩)
    · rintro h' s' ⟨h3, rfl⟩
      exact OutT.safe_ret ⟨h3, rfl, .inr ⟨by simp, i, fd, rfl, rfl⟩⟩

/-- All of `s` is still open. -/
abbrev Still (s : List Nat) (s' : List Nat) : Prop := ∀ x ∈ s, x ∈ s'

theorem filter_ne_length {l : List Nat} {a : Nat} (hn : l.Nodup) (ha : a ∈ l) : (l.filter (· ≠ a)).length + 1 = l.length := by
  have h1 := List.length_erase_of_mem ha
  rw [hn.erase_eq_filter] at h1
  have h2 : (l.filter (· ≠ a)) = l.filter (· != a) := by
    congr 1
    funext x
    simp [bne, BEq.beq]
  have := List.length_pos_of_mem ha
  rw [h2, h1]
  omega

/-- What an enumeration that reports `os` leaves. -/
structure EnumeratedFds (s : List Nat) (os : List Opened) (s' : List Nat) : Prop where
  still : Still s s'
  rest : (∀ o ∈ os, o.handle.dh ≠ none) → ∀ x ∈ s', x ∈ s
  nodup : s.Nodup → s'.Nodup
  count : s.Nodup → s'.length = s.length + driverless os

theorem enumLoop_safe (n : Nat) (order : List (Bytes × Bytes) → List (Bytes × Bytes)) (names : List Bytes) :
    ∀ s : List Nat, OutT.Safe fdsF (Still s) (enumLoop n order names) s (EnumeratedFds s) := by
  induction names with
  | nil => intro s; exact OutT.safe_ret ⟨fun _ h => h, fun _ _ h => h, fun h => h, fun _ => rfl⟩
  | cons name rest ih =>
    intro s
    unfold enumLoop
    split
    · exact ih s
    · refine OutT.safe_ask_bind (fun _ h => h) (fun _ h => by cases h) (fun r _ => ?_)
      show OutT.Safe fdsF _ _ s _
      split
      · split
        · exact ih s
        · refine OutT.safe_bind' (openByPath_safe n order _ s (fun _ h => h) (fun fd x h => List.mem_cons_of_mem _ h)) ?_
          intro res s1 h1
          cases res with
          | panic => exact OutT.safe_panic (by rw [show s1 = s from h1]; exact fun _ h => h)
          | err e =>
            rw [show s1 = s from h1]
            exact ih s
          | ok o =>
            obtain ⟨fd, hfd, rfl, ho⟩ := h1
            dsimp only
            have hclose : ∀ s', Still (fd :: s) s' → OutT.Safe fdsF (Still s) o.deferredClose s' (fun _ s'' =>
                Still s s'' ∧ (o.handle.dh = none → s'' = s') ∧ (o.handle.dh ≠ none → s'' = s'.filter (· ≠ fd))) := by
              intro s' hs'
              have hs : Still s s' := fun x hx => hs' x (List.mem_cons_of_mem _ hx)
              refine OutT.safe_bind' (close_safe o s' hs (fun hd => ?_)) ?_
              · obtain ⟨i, hi⟩ := ho hd
                exact ⟨i, fd, hi, hs' fd (List.mem_cons_self ..)⟩
              · rintro o' s'' ⟨_, _, ⟨hd, rfl⟩ | ⟨hd, i, f, hi, rfl⟩⟩
                · exact OutT.safe_ret ⟨hs, fun _ => rfl, fun h => absurd hd h⟩
                · obtain ⟨j, hj⟩ := ho hd
                  rw [hj] at hi
                  cases hi
                  refine OutT.safe_ret ⟨fun x hx => ?_, fun h => absurd h hd, fun _ => rfl⟩
                  rw [List.mem_filter]
                  refine ⟨hs x hx, ?_⟩
                  have : x ≠ fd := fun h => hfd (h ▸ hx)
                  simpa using this
            refine OutT.safe_bind' (C := fun os s' => EnumeratedFds s (o :: os) s') ?_ (fun os s' h => OutT.safe_ret h)
            refine OutT.safe_defer (ih (fd :: s)) (fun s' h x hx => h x (List.mem_cons_of_mem _ hx))
              (fun s' h => OutT.safe_mono (hclose s' h) (fun _ _ h => h.1)) ?_
            intro os s' hE
            refine OutT.safe_mono (hclose s' hE.still) (fun _ s'' h => ⟨h.1, fun hall x hx => ?_, fun hn => ?_, fun hn => ?_⟩)
            · rw [h.2.2 (hall o (List.mem_cons_self ..)), List.mem_filter] at hx
              have := hE.rest (fun o' ho' => hall o' (List.mem_cons_of_mem _ ho')) x hx.1
              rcases List.mem_cons.1 this with rfl | h
              · simp at hx
              · exact h
            · have hn' := hE.nodup (List.nodup_cons.2 ⟨hfd, hn⟩)
              by_cases hd : o.handle.dh = none
              · rw [h.2.1 hd]; exact hn'
              · rw [h.2.2 hd]; exact hn'.filter _
            · have hn' := hE.nodup (List.nodup_cons.2 ⟨hfd, hn⟩)
              have hc := hE.count (List.nodup_cons.2 ⟨hfd, hn⟩)
              rw [List.length_cons] at hc
              unfold driverless at hc ⊢
              rw [List.countP_cons]
              by_cases hd : o.handle.dh = none
              · rw [h.2.1 hd, if_pos (by rw [hd]; rfl)]; omega
              · have := filter_ne_length hn' (hE.still fd (List.mem_cons_self ..))
                rw [h.2.2 hd, if_neg (by simp [hd])]; omega
      · exact ih s

theorem enumDrives_safe (n : Nat) (order : List (Bytes × Bytes) → List (Bytes × Bytes)) (s : List Nat) :
    OutT.Safe fdsF (Still s) (enumDrives n order) s (fun r s' =>
      match r with
      | .ok os => EnumeratedFds s os s'
      | _ => s' = s) := by
  unfold enumDrives
  refine OutT.safe_ask_bind (fun _ h => h) (fun _ h => by cases h) (fun r _ => ?_)
  show OutT.Safe fdsF _ _ s _
  split
  · exact OutT.safe_ret rfl
  · exact OutT.safe_bind' (enumLoop_safe n order _ s) (fun os s' h => OutT.safe_ret h)

theorem parentInfo_safe (s₀ : List Nat) (parent : Bytes) (s : List Nat) (h : Still s₀ s) :
    OutT.Safe fdsF (Still s₀) (parentInfo parent) s (fun _ s' => Still s₀ s') := by
  unfold parentInfo
  refine OutT.safe_ask_bind h (fun _ h => by cases h) (fun r _ => ?_)
  show OutT.Safe fdsF _ _ (fNext s r (.openDev parent)) _
  cases he : r.err with
  | some e =>
    dsimp only
    rw [fNext, if_neg (by simp [he])]
    exact OutT.safe_ret h
  | none =>
    dsimp only
    rw [fNext, if_pos he]
    have h' : Still s₀ (r.fd :: s) := fun x hx => List.mem_cons_of_mem _ (h x hx)
    refine OutT.safe_bind' (keeps_safe h' (List.mem_cons_self ..) (readBasicInfo_keeps ..) (OutT.returns_any _)) ?_
    rintro b s' ⟨_, rfl⟩
    cases b <;> exact OutT.safe_ret h'

theorem volLine_safe (s₀ : List Nat) (vols : VolMap) (line : Bytes) (s : List Nat) (h : Still s₀ s) :
    OutT.Safe fdsF (Still s₀) (volLine vols line) s (fun _ s' => Still s₀ s') := by
  unfold volLine
  dsimp only
  split
  · exact OutT.safe_ret h
  · refine OutT.safe_bind' (parentInfo_safe s₀ _ s h) (fun b s' h' => ?_)
    cases b with
    | none => exact OutT.safe_ret h'
    | some b =>
      dsimp only
      refine OutT.safe_bind' (C := fun _ s'' => Still s₀ s'') ?_ (fun x s'' h'' => ?_)
      · generalize partitionOf _ _ _ _ = y
        cases y with
        | ret a => exact OutT.safe_ret h'
        | panic => exact OutT.safe_panic h'
      · cases x <;> exact OutT.safe_ret h''

theorem volLoop_safe (s₀ : List Nat) (lines : List (Bytes × Option GoErr)) : ∀ (vols : VolMap) (s : List Nat), Still s₀ s →
    OutT.Safe fdsF (Still s₀) (volLoop lines vols) s (fun _ s' => Still s₀ s') := by
  induction lines with
  | nil => intro vols s h; exact OutT.safe_ret h
  | cons l rest ih =>
    intro vols s h
    obtain ⟨line, e⟩ := l
    unfold volLoop
    refine OutT.safe_bind' (volLine_safe s₀ vols line s h) (fun v s' h' => ?_)
    cases e with
    | some e => exact OutT.safe_ret h'
    | none => exact ih v s' h'

theorem enumVolumes_safe (m : Mounts) (s : List Nat) :
    OutT.Safe fdsF (Still s) (enumVolumes m) s (fun _ s' => Still s s') := by
  unfold enumVolumes
  split
  · exact OutT.safe_ret (fun _ h => h)
  · exact volLoop_safe s _ _ s (fun _ h => h)

/-! ## the methods of a handle -/

/-- A method that calls no driver if there is none, and never closes it. -/
def Gentle {α : Type} (h : Handle) (p : DrvM α) : Prop :=
  OutT.Asks (· ≠ DrvReq.close) p ∧ (h.dh = none → OutT.Asks (fun _ => False) p)

theorem onHandle_safe {B : List Nat → Prop} {α : Type} (o : Opened) (p : DrvM α) (s : List Nat) (hp : Gentle o.handle p)
    (hB : B s) (ho : o.handle.dh ≠ none → ∃ i fd, o.source = some (i, fd) ∧ fd ∈ s) {C : α → Prop} (hr : OutT.Returns C p) :
    OutT.Safe fdsF B (o.onHandle p) s (fun a s' => C a ∧ s' = s) := by
  by_cases hd : o.handle.dh = none
  · have h0 : ∀ i fd, OutT.Safe fdsF B (onDriver i fd p) s (fun a s' => C a ∧ s' = s) := fun i fd =>
      OutT.safe_of_asks hB (onDriver_asks i fd (hp.2 hd)) (fun q ⟨_, h, _⟩ => h.elim) (onDriver_returns i fd hr)
    unfold Opened.onHandle
    split <;> exact h0 _ _
  · obtain ⟨i, fd, h1, h2⟩ := ho hd
    unfold Opened.onHandle
    rw [h1]
    exact keeps_safe hB h2 (onDriver_keeps i fd hp.1) (onDriver_returns i fd hr)

theorem gentle_drivingType (h : Handle) : Gentle h h.getDrivingType :=
  ⟨getDrivingType_asks h, fun hd => by unfold Handle.getDrivingType; rw [hd]; exact OutT.asks_panic⟩

theorem gentle_driverName (h : Handle) : Gentle h h.getDriverName :=
  ⟨getDriverName_asks h, fun hd => by unfold Handle.getDriverName; rw [hd]; exact OutT.asks_panic⟩

theorem gentle_ata (h : Handle) (rw dma : Bool) (tf : Tf) (b : Bytes) (t : Nat) :
    Gentle h (h.ataDoTaskFileCmd rw dma tf b t) := by
  refine ⟨?_, fun hd => by unfold Handle.ataDoTaskFileCmd; rw [hd]; exact OutT.asks_ret _⟩
  unfold Handle.ataDoTaskFileCmd
  split
  · exact OutT.asks_ret _
  · split
    · exact OutT.asks_bind (OutT.asks_ask (by simp)) (fun _ => OutT.asks_ret _)
    · exact OutT.asks_ret _

theorem gentle_ataNil (h : Handle) (rw dma : Bool) (tf : Tf) (t : Nat) : Gentle h (h.ataDoTaskFileNil rw dma tf t) := by
  refine ⟨?_, fun hd => by unfold Handle.ataDoTaskFileNil; rw [hd]; exact OutT.asks_ret _⟩
  unfold Handle.ataDoTaskFileNil
  split
  · exact OutT.asks_ret _
  · split
    · exact OutT.asks_bind (OutT.asks_ask (by simp)) (fun _ => OutT.asks_ret _)
    · exact OutT.asks_ret _

theorem gentle_logPage (h : Handle) (nsid logId : BitVec 32) (rae : Bool) (size : Nat) :
    Gentle h (h.nvmeGetLogPage nsid logId rae size) := by
  refine ⟨?_, fun hd => by unfold Handle.nvmeGetLogPage; rw [hd]; exact OutT.asks_ret _⟩
  unfold Handle.nvmeGetLogPage
  split
  · exact OutT.asks_ret _
  · split
    · exact OutT.asks_bind (OutT.asks_ask (by simp)) (fun _ => OutT.asks_ret _)
    · exact OutT.asks_ret _

theorem gentle_security (h : Handle) (rw dma : Bool) (p : Byte) (c : BitVec 16) (b : Bytes) (t : Nat) :
    Gentle h (h.securityCommand rw dma p c b t) :=
  ⟨OutT.asks_mono security_not_close (securityCommand_asks ..),
    fun hd => by unfold Handle.securityCommand; rw [hd]; exact OutT.asks_ret _⟩

theorem gentle_discovery (h : Handle) : Gentle h h.tcgDiscovery0 := by
  refine ⟨OutT.asks_mono security_not_close (tcgDiscovery0_asks h), fun hd => ?_⟩
  unfold Handle.tcgDiscovery0
  refine OutT.asks_bind ((gentle_security ..).2 hd) (fun r => ?_)
  split
  · exact OutT.asks_ret _
  · exact OutT.asks_bind (OutT.asks_lift _) (fun _ => OutT.asks_ret _)

theorem discovery_returns (h : Handle) : OutT.Returns (fun x => x.1.dh = h.dh) h.tcgDiscovery0 := by
  unfold Handle.tcgDiscovery0
  refine OutT.returns_bind (OutT.returns_any _) (fun r _ => ?_)
  split
  · exact OutT.returns_ret rfl
  · exact OutT.returns_bind (OutT.returns_any _) (fun a _ => OutT.returns_ret rfl)

/-- Security commands, the clock and sleeping keep all descriptors. -/
theorem tcgOnLinux_safe {B : List Nat → Prop} {α : Type} (o : Opened) (p : TcgM α) (s : List Nat) (hB : B s)
    (ho : o.handle.dh ≠ none → ∃ i fd, o.source = some (i, fd) ∧ fd ∈ s) :
    OutT.Safe fdsA B (tcgOnLinux o p) s (fun _ s' => s' = s) := by
  let T : Policy SecReq SecRep (List Nat) := ⟨fun s' _ => s' = s, fun _ _ _ => True, fun s' _ _ => s'⟩
  refine OutT.safe_interp (P := T) (secOnLinux o) ?_ ?_
  · intro q s' hB' hs'
    obtain rfl : s' = s := hs'
    cases q with
    | sec rw dma p c data to =>
      exact OutT.safe_mono (onLinux_safe (onHandle_safe o _ s' (gentle_security ..) hB' ho (OutT.returns_any _)))
        (fun _ _ h => ⟨trivial, h.2⟩)
    | now => exact OutT.safe_ask_bind hB' (fun _ h => by cases h) (fun _ _ => OutT.safe_ret ⟨trivial, rfl⟩)
    | sleep ns => exact OutT.safe_ask_bind hB' (fun _ h => by cases h) (fun _ _ => OutT.safe_ret ⟨trivial, rfl⟩)
  · exact OutT.safe_mono (OutT.safe_of_asks hB (OutT.asks_true p) (fun q _ => ⟨rfl, fun _ => rfl⟩) (OutT.returns_any p))
      (fun _ _ h => h.2)

end Dparm
