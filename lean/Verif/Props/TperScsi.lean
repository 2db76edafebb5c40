import Verif.Lemmas.TperScsiOpen
import Verif.Props.TperLinux
/-!
# Properties: a conforming TCG drive opened by the Linux factory behind the SCSI generic driver (C131)
-/
namespace Dparm
open Spec

/-- **C131, opening.** A conforming drive the SCSI generic driver answers for: after opening it, `NewTcgDevice` recognises an Opal
device with the drive's own base ComID, and the drive's state is what it was. -/
theorem open_conforming_scsi {fd : Nat} {dr : Drive} {W : Nat} {env : Prog.Env AReq ARep}
    {st : Prog.Trace AReq ARep → DriveState} (hc : ScsiConforming fd dr W env st)
    (order : List (Bytes × Bytes) → List (Bytes × Bytes)) (path : Bytes) (h : Prog.Trace AReq ARep) (o : Opened)
    (t : Prog.Trace AReq ARep)
    (hrun : OutT.run env h (OutT.interp sysCall (linuxOpenByPath order path)) = (.ret (.ok o), t))
    (ho : o.source = some (1, fd)) :
    (o.tcgDevice.kind = .opal1 ∨ o.tcgDevice.kind = .opal2) ∧ o.tcgDevice.baseComId = dr.comId ∧ st (h ++ t) = st h := by
  obtain ⟨-, a, b, c⟩ := open_conforming' hc order path h o (by rw [hrun]) ho
  rw [hrun] at c
  exact ⟨a, b, c⟩

/-- **C131, opening succeeds.** If the node opens as that descriptor, IDENTIFY DEVICE succeeds there without sense data,
then whatever the rest of the system answers, opening gives a drive of the SCSI generic driver on it. -/
theorem open_succeeds_scsi {fd : Nat} {dr : Drive} {W : Nat} {env : Prog.Env AReq ARep}
    {st : Prog.Trace AReq ARep → DriveState} (hc : ScsiConforming fd dr W env st) (path : Bytes) (hn : ScsiNode fd path env)
    (order : List (Bytes × Bytes) → List (Bytes × Bytes)) (h : Prog.Trace AReq ARep) :
    ∃ o, (OutT.run env h (OutT.interp sysCall (linuxOpenByPath order path))).1 = .ret (.ok o) ∧ o.source = some (1, fd) :=
  open_succeeds' hc hn order h

/-- **C131, PSID revert.** On a drive opened that way, at any later time: with a session left, `RevertTPer` with the
drive's PSID succeeds and the drive is in factory state; with any other password it fails with TCG error 1 and changes
neither credential nor content. -/
theorem psid_revert_scsi {fd : Nat} {dr : Drive} {W : Nat} {env : Prog.Env AReq ARep}
    {st : Prog.Trace AReq ARep → DriveState} (hc : ScsiConforming fd dr W env st) (hp : PromptSystem env)
    (order : List (Bytes × Bytes) → List (Bytes × Bytes)) (path : Bytes) (h₀ : Prog.Trace AReq ARep) (o : Opened)
    (hopen : (OutT.run env h₀ (OutT.interp sysCall (linuxOpenByPath order path))).1 = .ret (.ok o))
    (ho : o.source = some (1, fd))
    (ctx : Ctx) (hf : W < ctx.fuel) (pw : Bytes) (adm : Bool) (hl : pw.length ≤ 400) (hne : dr.psid ≠ [])
    (h : Prog.Trace AReq ARep) (hroom : (st h).sessions.length < dr.maxSessions)
    (r : Out (Option GoErr)) (t : Prog.Trace AReq ARep)
    (hrun : OutT.run env h (tcgOnLinux o (o.tcgDevice.revertTPer ctx pw true adm)) = (r, t)) :
    (pw = dr.psid → r = .ret none ∧ st (h ++ t) = ⟨dr.msid, [], none, 0, (st h).reverts + 1⟩) ∧
    (pw ≠ dr.psid → r = .ret (some (.tcg 1)) ∧ (st (h ++ t)).reverts = (st h).reverts ∧
      (st (h ++ t)).sid = (st h).sid) := by
  obtain ⟨hn, hk, hd, -⟩ := open_conforming' hc order path h₀ o hopen ho
  obtain ⟨e1, e2⟩ := run_on_scsi hn _ _ (revertTPer_asks ctx o.tcgDevice pw true adm) env h st
  rw [hrun] at e1 e2
  have := psid_revert_conforming (conforming_on_scsi hc hn h) (prompt_on hp h) ctx hf o.tcgDevice hk hd pw adm hl hne
    [] hroom _ _ (Prod.eta _).symm
  rw [← e1, List.nil_append, ← e2] at this
  exact this

/-- **C131, SID revert.** The same with the SID: success exactly if the drive's SID credential is `D0 20` followed by the
32 byte key derived from the (non-empty) password. -/
theorem sid_revert_scsi {fd : Nat} {dr : Drive} {W : Nat} {env : Prog.Env AReq ARep}
    {st : Prog.Trace AReq ARep → DriveState} (hc : ScsiConforming fd dr W env st) (hp : PromptSystem env)
    (order : List (Bytes × Bytes) → List (Bytes × Bytes)) (path : Bytes) (h₀ : Prog.Trace AReq ARep) (o : Opened)
    (hopen : (OutT.run env h₀ (OutT.interp sysCall (linuxOpenByPath order path))).1 = .ret (.ok o))
    (ho : o.source = some (1, fd))
    (ctx : Ctx) (hf : W < ctx.fuel) (pw : Bytes) (adm : Bool)
    (h : Prog.Trace AReq ARep) (hroom : (st h).sessions.length < dr.maxSessions)
    (r : Out (Option GoErr)) (t : Prog.Trace AReq ARep)
    (hrun : OutT.run env h (tcgOnLinux o (o.tcgDevice.revertTPer ctx pw false adm)) = (r, t)) :
    (pw ≠ [] ∧ (st h).sid = [0xd0, 0x20] ++ ctx.kdf.key (pw.take 32) o.tcgDevice.serial →
      r = .ret none ∧ st (h ++ t) = ⟨dr.msid, [], none, 0, (st h).reverts + 1⟩) ∧
    (pw = [] ∨ (st h).sid ≠ [0xd0, 0x20] ++ ctx.kdf.key (pw.take 32) o.tcgDevice.serial →
      r = .ret (some (.tcg 1)) ∧ (st (h ++ t)).reverts = (st h).reverts ∧ (st (h ++ t)).sid = (st h).sid) := by
  obtain ⟨hn, hk, hd, -⟩ := open_conforming' hc order path h₀ o hopen ho
  obtain ⟨e1, e2⟩ := run_on_scsi hn _ _ (revertTPer_asks ctx o.tcgDevice pw false adm) env h st
  rw [hrun] at e1 e2
  have := sid_revert_conforming (conforming_on_scsi hc hn h) (prompt_on hp h) ctx hf o.tcgDevice hk hd pw adm
    [] hroom _ _ (Prod.eta _).symm
  rw [← e1, List.nil_append, ← e2] at this
  exact this

/-- **C131, safety.** However slow the drive, however many sessions are open: success is only reported when the drive
is in factory state and the password was right; a wrong password never reverts the drive. -/
theorem revert_safe_scsi {fd : Nat} {dr : Drive} {W : Nat} {env : Prog.Env AReq ARep}
    {st : Prog.Trace AReq ARep → DriveState} (hc : ScsiConforming fd dr W env st)
    (order : List (Bytes × Bytes) → List (Bytes × Bytes)) (path : Bytes) (h₀ : Prog.Trace AReq ARep) (o : Opened)
    (hopen : (OutT.run env h₀ (OutT.interp sysCall (linuxOpenByPath order path))).1 = .ret (.ok o))
    (ho : o.source = some (1, fd))
    (ctx : Ctx) (hf : W < ctx.fuel) (pw : Bytes) (psid adm : Bool) (hl : psid = true → pw.length ≤ 400)
    (h : Prog.Trace AReq ARep) (r : Out (Option GoErr)) (t : Prog.Trace AReq ARep)
    (hrun : OutT.run env h (tcgOnLinux o (o.tcgDevice.revertTPer ctx pw psid adm)) = (r, t)) :
    (r = .ret none → st (h ++ t) = ⟨dr.msid, [], none, 0, (st h).reverts + 1⟩ ∧ pw ≠ [] ∧
      (if psid then pw = dr.psid else
        (st h).sid = [0xd0, 0x20] ++ ctx.kdf.key (pw.take 32) o.tcgDevice.serial)) ∧
    ((if psid then pw ≠ dr.psid else
        (st h).sid ≠ [0xd0, 0x20] ++ ctx.kdf.key (pw.take 32) o.tcgDevice.serial) →
      (st (h ++ t)).reverts = (st h).reverts ∧ (st (h ++ t)).sid = (st h).sid) := by
  obtain ⟨hn, hk, hd, -⟩ := open_conforming' hc order path h₀ o hopen ho
  obtain ⟨e1, e2⟩ := run_on_scsi hn _ _ (revertTPer_asks ctx o.tcgDevice pw psid adm) env h st
  rw [hrun] at e1 e2
  have := revert_conforming_safe (conforming_on_scsi hc hn h) ctx hf o.tcgDevice hk hd pw psid adm hl
    [] _ _ (Prod.eta _).symm
  rw [← e1, List.nil_append, ← e2] at this
  exact this

/-- **C131, default password.** `GetDefaultPassword` returns the drive's MSID while a session is left, and uses one up
for good; then it fails with TCG error 7. -/
theorem default_password_scsi {fd : Nat} {dr : Drive} {W : Nat} {env : Prog.Env AReq ARep}
    {st : Prog.Trace AReq ARep → DriveState} (hc : ScsiConforming fd dr W env st) (hp : PromptSystem env)
    (order : List (Bytes × Bytes) → List (Bytes × Bytes)) (path : Bytes) (h₀ : Prog.Trace AReq ARep) (o : Opened)
    (hopen : (OutT.run env h₀ (OutT.interp sysCall (linuxOpenByPath order path))).1 = .ret (.ok o))
    (ho : o.source = some (1, fd))
    (ctx : Ctx) (hf : W < ctx.fuel) (h : Prog.Trace AReq ARep)
    (r : Out (Bytes × Option GoErr)) (t : Prog.Trace AReq ARep)
    (hrun : OutT.run env h (tcgOnLinux o (o.tcgDevice.getDefaultPassword ctx)) = (r, t)) :
    (st (h ++ t)).sid = (st h).sid ∧ (st (h ++ t)).reverts = (st h).reverts ∧
    ((st h).sessions.length < dr.maxSessions → r = .ret (dr.msid, none) ∧
      (st (h ++ t)).sessions.length = (st h).sessions.length + 1) ∧
    (dr.maxSessions ≤ (st h).sessions.length → r = .ret ([], some (.tcg 7)) ∧
      (st (h ++ t)).sessions = (st h).sessions) := by
  obtain ⟨hn, hk, hd, -⟩ := open_conforming' hc order path h₀ o hopen ho
  obtain ⟨e1, e2⟩ := run_on_scsi hn _ _ (getDefaultPassword_asks ctx o.tcgDevice) env h st
  rw [hrun] at e1 e2
  have := default_password_conforming (conforming_on_scsi hc hn h) (prompt_on hp h) ctx hf o.tcgDevice hk hd
    [] _ _ (Prod.eta _).symm
  rw [← e1, List.nil_append, ← e2] at this
  exact this

/-! ## A drive that meets the hypotheses -/

/-- The security command in an SG_IO request on `fd`. -/
def asSecScsi (fd : Nat) : AReq → Option SecReq
  | .sys (.sgIo fd' q) =>
    match q.dxferp with
    | .mem _ buf =>
      if fd' = fd ∧ q.cdb[0]? = some 0xb5 then
        some (.sec true false ((q.cdb[1]?).getD 0) (BitVec.ofNat 16 (beVal (slice q.cdb 2 2))) buf 0)
      else if fd' = fd ∧ q.cdb[0]? = some 0xa2 then
        some (.sec false false ((q.cdb[1]?).getD 0) (BitVec.ofNat 16 (beVal (slice q.cdb 2 2))) buf 0)
      else none
    | _ => none
  | _ => none

/-- What a request does to the drive. -/
def idealScsiStep (fd : Nat) (dr : Drive) (s : DriveState) (q : AReq) : DriveState :=
  match asSecScsi fd q with
  | some q => idealStep dr s q
  | none => s

/-- Its state after a history. -/
def idealScsiState (fd : Nat) (dr : Drive) (s0 : DriveState) (h : Prog.Trace AReq ARep) : DriveState :=
  h.foldl (fun s x => idealScsiStep fd dr s x.1) s0

/-- The system: every node opens as `fd`, NVMe ioctls are not supported. -/
def idealScsi (fd : Nat) (dr : Drive) (s0 : DriveState) : Prog.Env AReq ARep := fun h q =>
  match q with
  | .sys (.os (.openDev _)) => { sys := { os := { fd := fd } } }
  | .sys (.nvme _ _ _ _) => { sys := { nv := { errno := 25 } } }
  | .sys (.sgIo _ _) =>
    match asSecScsi fd q with
    | some (.sec false _ _ c _ _) =>
      if c = 1 then { sys := { sg := { data := discoveryBlock dr.comId } } }
      else match (idealScsiState fd dr s0 h).answer with
        | some a => { sys := { sg := { data := idealBlock (idealTokens a) } } }
        | none => {}
    | _ => {}
  | _ => {}

theorem idealScsiState_snoc (fd : Nat) (dr : Drive) (s0 : DriveState) (h : Prog.Trace AReq ARep) (q : AReq) (r : ARep) :
    idealScsiState fd dr s0 (h ++ [(q, r)]) = idealScsiStep fd dr (idealScsiState fd dr s0 h) q := by
  simp [idealScsiState, List.foldl_append]

theorem idealScsi_inv (fd : Nat) (dr : Drive) (hm : dr.msid.length ≤ 1900) (s0 : DriveState) (h0 : IdealInv s0)
    (h : Prog.Trace AReq ARep) : IdealInv (idealScsiState fd dr s0 h) := by
  unfold idealScsiState
  induction h generalizing s0 with
  | nil => exact h0
  | cons x xs ih =>
    refine ih _ ?_
    show IdealInv (idealScsiStep fd dr s0 x.1)
    unfold idealScsiStep
    split
    · exact idealInv_step dr hm s0 h0 _
    · exact h0

theorem asSecScsi_security {fd : Nat} {out : Bool} {c : BitVec 16} {n : Nat} {q : SgReq}
    (hq : IsSecurityProtocol out 1 c n q) {buf : Bytes} (hm : HasMemory q buf) :
    asSecScsi fd (sgIoctl fd q) = some (.sec out false 1 c buf 0) := by
  obtain ⟨addr, hm⟩ := hm
  have h2 : BitVec.ofNat 16 (beVal (slice q.cdb 2 2)) = c := by rw [hq.comId]; simp
  unfold asSecScsi sgIoctl
  simp only [hm, hq.opcode, hq.protocol, h2, true_and]
  cases out <;> simp

theorem asSecScsi_other {fd : Nat} {dr : Drive} {q : AReq} (h : ¬ TouchesTcgScsi fd dr.comId q) (s : DriveState) :
    idealScsiStep fd dr s q = s := by
  unfold idealScsiStep
  match q with
  | .now => rfl
  | .sleep _ => rfl
  | .sys (.os _) => rfl
  | .sys .place => rfl
  | .sys (.nvmeIo _ _ _) => rfl
  | .sys (.nvme _ _ _ _) => rfl
  | .sys (.sgIo fd' q) =>
    have hlt2 : beVal (slice q.cdb 2 2) < 65536 := by
      have := beVal_lt (slice q.cdb 2 2)
      refine Nat.lt_of_lt_of_le this ?_
      have hl : (slice q.cdb 2 2).length ≤ 2 := by unfold slice; simp; omega
      exact Nat.pow_le_pow_right (by decide) hl
    have key : (q.cdb[0]? = some 0xa2 ∨ q.cdb[0]? = some 0xb5) → fd' = fd →
        ¬ ((q.cdb[1]?).getD 0 = 1 ∧ BitVec.ofNat 16 (beVal (slice q.cdb 2 2)) = dr.comId) := by
      rintro ho hfd ⟨h1, h2⟩
      refine h ⟨hfd, .inl ⟨ho, ?_, ?_⟩⟩
      · cases hx : q.cdb[1]? with
        | none => rw [hx] at h1; exact absurd h1 (by decide)
        | some b => rw [hx] at h1; exact congrArg some h1
      · have := congrArg BitVec.toNat h2
        simp only [BitVec.toNat_ofNat] at this
        omega
    unfold asSecScsi
    simp only
    split
    · rename_i x hx
      split at hx
      · split at hx
        · rename_i hc
          cases hx
          simp only [idealStep]
          rw [if_neg (key (.inr hc.2) hc.1)]
        · split at hx
          · rename_i hc
            cases hx
            simp only [idealStep]
            rw [if_neg (key (.inl hc.2) hc.1)]
          · cases hx
      · cases hx
    · rfl

/-- It conforms. -/
theorem idealScsi_conforming (fd : Nat) (dr : Drive) (hm : dr.msid.length ≤ 1900) (hcid : dr.comId ≠ 1) (s0 : DriveState)
    (ha : s0.answer = none) (hw : s0.wait = 0) : ScsiConforming fd dr 0 (idealScsi fd dr s0) (idealScsiState fd dr s0) := by
  have hinv := idealScsi_inv fd dr hm s0 ⟨hw, fun a h => by rw [ha] at h; cases h⟩
  constructor
  · intro h q data p hq hmm _ _ hp hc
    have hs := asSecScsi_security (fd := fd) hq hmm
    refine ⟨?_, ((idealScsiState fd dr s0 h).sessions.length + 1) % 2 ^ 32, 0, Nat.mod_lt _ (by decide), Nat.le_refl _, ?_⟩
    · unfold idealScsi
      simp only [hs]
    · rw [idealScsiState_snoc]
      unfold idealScsiStep
      simp only [hs, idealStep, hp, and_self, if_true, if_pos hc]
  · intro h q a w _ _ _ hw'
    rw [(hinv h).1] at hw'
    cases hw'
  · intro h q a hq hmm hans _
    have hs := asSecScsi_security (fd := fd) hq hmm
    have hf := (hinv h).2 a hans
    have he : idealScsi fd dr s0 h (sgIoctl fd q) = { sys := { sg := { data := idealBlock (idealTokens a) } } } := by
      unfold idealScsi
      simp only [hs, hans, if_neg hcid]
    refine ⟨by rw [he], ⟨idealTokens a, idealTokens_encodes hf, ?_⟩, ?_⟩
    · rw [he]
      exact idealBlock_carries (idealTokens_WF hf) (idealTokens_length hf)
    · rw [idealScsiState_snoc]
      unfold idealScsiStep
      simp only [hs, idealStep, and_self, if_true]
  · intro h q hq hmm
    have hs := asSecScsi_security (fd := fd) hq hmm
    have he : idealScsi fd dr s0 h (sgIoctl fd q) = { sys := { sg := { data := discoveryBlock dr.comId } } } := by
      unfold idealScsi
      simp only [hs, if_true]
    rw [he]
    exact ⟨rfl, discoveryBlock_announces _⟩
  · intro h q hq
    rw [idealScsiState_snoc]
    exact asSecScsi_other hq _
  · intro h op k buf
    show (25 : Nat) ≠ 0
    decide
  · exact hcid

theorem idealScsi_prompt (fd : Nat) (dr : Drive) (s0 : DriveState) : PromptSystem (idealScsi fd dr s0) := by
  intro h h'
  exact Nat.le_add_right _ _

theorem idealScsi_node (fd : Nat) (dr : Drive) (s0 : DriveState) (path : Bytes) : ScsiNode fd path (idealScsi fd dr s0) := by
  constructor
  · intro h; exact ⟨rfl, rfl⟩
  · intro h q hat
    have hnone : asSecScsi fd (sgIoctl fd q) = none := by
      unfold isAtaCommand at hat
      cases hs : satDecode q.cdb with
      | none => rw [hs] at hat; cases hat
      | some s =>
        obtain ⟨x, y⟩ := satDecode_op hs
        unfold asSecScsi sgIoctl
        simp only
        split
        · rw [if_neg (fun h => y h.2), if_neg (fun h => x h.2)]
        · rfl
    unfold idealScsi
    simp only [hnone]
    exact ⟨trivial, trivial⟩

/-- Opening it gives the SCSI drive. -/
theorem opens_owned_scsi : ∃ o, (OutT.run (idealScsi 3 shippedDrive ownedState) [] (openNode (ascii "/dev/sda"))).1
    = .ret (.ok o) ∧ o.source = some (1, 3) :=
  open_succeeds_scsi (idealScsi_conforming 3 shippedDrive (by decide) (by decide) ownedState rfl rfl) _
    (idealScsi_node _ _ _ _) _ _

/-- Opened, the drive is reverted by its PSID, and not by another password. -/
example : ∃ o, (OutT.run (idealScsi 3 shippedDrive ownedState) []
      (openNode (ascii "/dev/sda"))).1 = .ret (.ok o) ∧
    o.tcgDevice.baseComId = 0x07fe ∧
    (∀ h, (idealScsiState 3 shippedDrive ownedState h).sessions.length < 1 →
      (OutT.run (idealScsi 3 shippedDrive ownedState) h (tcgOnLinux o (o.tcgDevice.revertTPer sampleCtx [0x50, 0x31] true true))).1
        = .ret none ∧
      (OutT.run (idealScsi 3 shippedDrive ownedState) h (tcgOnLinux o (o.tcgDevice.revertTPer sampleCtx [0x50, 0x32] true true))).1
        = .ret (some (.tcg 1))) := by
  have hc := idealScsi_conforming 3 shippedDrive (by decide) (by decide) ownedState rfl rfl
  obtain ⟨o, ho, hs⟩ := opens_owned_scsi
  have hpr := idealScsi_prompt 3 shippedDrive ownedState
  refine ⟨o, ho, (open_conforming' hc _ _ [] o ho hs).2.2.1, fun h hroom => ?_⟩
  exact ⟨((psid_revert_scsi hc hpr _ _ [] o ho hs sampleCtx (by decide) [0x50, 0x31] true (by decide) (by decide) h hroom _ _
      (Prod.eta _).symm).1 rfl).1,
    ((psid_revert_scsi hc hpr _ _ [] o ho hs sampleCtx (by decide) [0x50, 0x32] true (by decide) (by decide) h hroom _ _
      (Prod.eta _).symm).2 (by decide)).1⟩

/-- The MSID is read, the SID revert succeeds with the owner's password, and a wrong PSID reverts nothing. -/
example : ∃ o, (OutT.run (idealScsi 3 shippedDrive ownedState) [] (openNode (ascii "/dev/sda"))).1 = .ret (.ok o) ∧
    (OutT.run (idealScsi 3 shippedDrive ownedState) [] (tcgOnLinux o (o.tcgDevice.getDefaultPassword sampleCtx))).1
      = .ret ([0x4d, 0x31], none) ∧
    (OutT.run (idealScsi 3 shippedDrive ownedState) [] (tcgOnLinux o (o.tcgDevice.revertTPer sampleCtx [0x70, 0x77] false true))).1
      = .ret none ∧
    (OutT.run (idealScsi 3 shippedDrive ownedState) [] (tcgOnLinux o (o.tcgDevice.revertTPer sampleCtx [] false true))).1
      = .ret (some (.tcg 1)) ∧
    (idealScsiState 3 shippedDrive ownedState (OutT.run (idealScsi 3 shippedDrive ownedState) []
      (tcgOnLinux o (o.tcgDevice.revertTPer sampleCtx [0x50, 0x32] true true))).2).reverts = 0 := by
  have hc := idealScsi_conforming 3 shippedDrive (by decide) (by decide) ownedState rfl rfl
  obtain ⟨o, ho, hs⟩ := opens_owned_scsi
  have hpr := idealScsi_prompt 3 shippedDrive ownedState
  refine ⟨o, ho, ?_, ?_, ?_, ?_⟩
  · exact ((default_password_scsi hc hpr _ _ [] o ho hs sampleCtx (by decide) [] _ _ (Prod.eta _).symm).2.2.1 (by decide)).1
  · exact ((sid_revert_scsi hc hpr _ _ [] o ho hs sampleCtx (by decide) [0x70, 0x77] true [] (by decide) _ _
      (Prod.eta _).symm).1 ⟨by decide, rfl⟩).1
  · exact ((sid_revert_scsi hc hpr _ _ [] o ho hs sampleCtx (by decide) [] true [] (by decide) _ _
      (Prod.eta _).symm).2 (.inl rfl)).1
  · exact ((revert_safe_scsi hc _ _ [] o ho hs sampleCtx (by decide) [0x50, 0x32] true true (by decide) [] _ _
      (Prod.eta _).symm).2 (show ([0x50, 0x32] : Bytes) ≠ [0x50, 0x31] by decide)).1

end Dparm
