import Verif.Lemmas.TperOpen
/-!
# Properties: a conforming TCG drive opened by the Linux factory (C130)
-/
namespace Dparm
open Spec

/-- **C130, opening.** A conforming drive the NVMe driver answers for: after opening it, `NewTcgDevice` recognises an Opal
device with the drive's own base ComID, and the drive's state is what it was. -/
theorem open_conforming_nvme {fd : Nat} {dr : Drive} {W : Nat} {env : Prog.Env AReq ARep}
    {st : Prog.Trace AReq ARep → DriveState} (hc : NvmeConforming fd dr W env st)
    (order : List (Bytes × Bytes) → List (Bytes × Bytes)) (path : Bytes) (h : Prog.Trace AReq ARep) (o : Opened)
    (t : Prog.Trace AReq ARep)
    (hrun : OutT.run env h (OutT.interp sysCall (linuxOpenByPath order path)) = (.ret (.ok o), t))
    (ho : o.source = some (0, fd)) :
    (o.tcgDevice.kind = .opal1 ∨ o.tcgDevice.kind = .opal2) ∧ o.tcgDevice.baseComId = dr.comId ∧ st (h ++ t) = st h := by
  obtain ⟨-, a, b, c⟩ := open_conforming hc order path h o (by rw [hrun]) ho
  rw [hrun] at c
  exact ⟨a, b, c⟩

/-- **C130, opening succeeds.** If the node opens as that descriptor, NVMe Identify succeeds there and SG_IO is refused,
then whatever the rest of the system answers, opening gives a drive of the NVMe driver on it. -/
theorem open_succeeds_nvme {fd : Nat} {dr : Drive} {W : Nat} {env : Prog.Env AReq ARep}
    {st : Prog.Trace AReq ARep → DriveState} (hc : NvmeConforming fd dr W env st) (path : Bytes) (hn : NvmeNode fd path env)
    (order : List (Bytes × Bytes) → List (Bytes × Bytes)) (h : Prog.Trace AReq ARep) :
    ∃ o, (OutT.run env h (OutT.interp sysCall (linuxOpenByPath order path))).1 = .ret (.ok o) ∧ o.source = some (0, fd) :=
  open_succeeds hc hn order h

/-- **C130, PSID revert.** On a drive opened that way, at any later time: with a session left, `RevertTPer` with the
drive's PSID succeeds and the drive is in factory state; with any other password it fails with TCG error 1 and changes
neither credential nor content. -/
theorem psid_revert_nvme {fd : Nat} {dr : Drive} {W : Nat} {env : Prog.Env AReq ARep}
    {st : Prog.Trace AReq ARep → DriveState} (hc : NvmeConforming fd dr W env st) (hp : PromptSystem env)
    (order : List (Bytes × Bytes) → List (Bytes × Bytes)) (path : Bytes) (h₀ : Prog.Trace AReq ARep) (o : Opened)
    (hopen : (OutT.run env h₀ (OutT.interp sysCall (linuxOpenByPath order path))).1 = .ret (.ok o))
    (ho : o.source = some (0, fd))
    (ctx : Ctx) (hf : W < ctx.fuel) (pw : Bytes) (adm : Bool) (hl : pw.length ≤ 400) (hne : dr.psid ≠ [])
    (h : Prog.Trace AReq ARep) (hroom : (st h).sessions.length < dr.maxSessions)
    (r : Out (Option GoErr)) (t : Prog.Trace AReq ARep)
    (hrun : OutT.run env h (tcgOnLinux o (o.tcgDevice.revertTPer ctx pw true adm)) = (r, t)) :
    (pw = dr.psid → r = .ret none ∧ st (h ++ t) = ⟨dr.msid, [], none, 0, (st h).reverts + 1⟩) ∧
    (pw ≠ dr.psid → r = .ret (some (.tcg 1)) ∧ (st (h ++ t)).reverts = (st h).reverts ∧
      (st (h ++ t)).sid = (st h).sid) := by
  obtain ⟨hn, hk, hd, -⟩ := open_conforming hc order path h₀ o hopen ho
  obtain ⟨e1, e2⟩ := run_on_nvme hn _ _ (revertTPer_asks ctx o.tcgDevice pw true adm) env h st
  rw [hrun] at e1 e2
  have := psid_revert_conforming (conforming_on_nvme hc hn h) (prompt_on hp h) ctx hf o.tcgDevice hk hd pw adm hl hne
    [] hroom _ _ (Prod.eta _).symm
  rw [← e1, List.nil_append, ← e2] at this
  exact this

/-- **C130, SID revert.** The same with the SID: success exactly if the drive's SID credential is `D0 20` followed by the
32 byte key derived from the (non-empty) password. -/
theorem sid_revert_nvme {fd : Nat} {dr : Drive} {W : Nat} {env : Prog.Env AReq ARep}
    {st : Prog.Trace AReq ARep → DriveState} (hc : NvmeConforming fd dr W env st) (hp : PromptSystem env)
    (order : List (Bytes × Bytes) → List (Bytes × Bytes)) (path : Bytes) (h₀ : Prog.Trace AReq ARep) (o : Opened)
    (hopen : (OutT.run env h₀ (OutT.interp sysCall (linuxOpenByPath order path))).1 = .ret (.ok o))
    (ho : o.source = some (0, fd))
    (ctx : Ctx) (hf : W < ctx.fuel) (pw : Bytes) (adm : Bool)
    (h : Prog.Trace AReq ARep) (hroom : (st h).sessions.length < dr.maxSessions)
    (r : Out (Option GoErr)) (t : Prog.Trace AReq ARep)
    (hrun : OutT.run env h (tcgOnLinux o (o.tcgDevice.revertTPer ctx pw false adm)) = (r, t)) :
    (pw ≠ [] ∧ (st h).sid = [0xd0, 0x20] ++ ctx.kdf.key (pw.take 32) o.tcgDevice.serial →
      r = .ret none ∧ st (h ++ t) = ⟨dr.msid, [], none, 0, (st h).reverts + 1⟩) ∧
    (pw = [] ∨ (st h).sid ≠ [0xd0, 0x20] ++ ctx.kdf.key (pw.take 32) o.tcgDevice.serial →
      r = .ret (some (.tcg 1)) ∧ (st (h ++ t)).reverts = (st h).reverts ∧ (st (h ++ t)).sid = (st h).sid) := by
  obtain ⟨hn, hk, hd, -⟩ := open_conforming hc order path h₀ o hopen ho
  obtain ⟨e1, e2⟩ := run_on_nvme hn _ _ (revertTPer_asks ctx o.tcgDevice pw false adm) env h st
  rw [hrun] at e1 e2
  have := sid_revert_conforming (conforming_on_nvme hc hn h) (prompt_on hp h) ctx hf o.tcgDevice hk hd pw adm
    [] hroom _ _ (Prod.eta _).symm
  rw [← e1, List.nil_append, ← e2] at this
  exact this

/-- **C130, safety.** However slow the drive, however many sessions are open: success is only reported when the drive
is in factory state and the password was right; a wrong password never reverts the drive. -/
theorem revert_safe_nvme {fd : Nat} {dr : Drive} {W : Nat} {env : Prog.Env AReq ARep}
    {st : Prog.Trace AReq ARep → DriveState} (hc : NvmeConforming fd dr W env st)
    (order : List (Bytes × Bytes) → List (Bytes × Bytes)) (path : Bytes) (h₀ : Prog.Trace AReq ARep) (o : Opened)
    (hopen : (OutT.run env h₀ (OutT.interp sysCall (linuxOpenByPath order path))).1 = .ret (.ok o))
    (ho : o.source = some (0, fd))
    (ctx : Ctx) (hf : W < ctx.fuel) (pw : Bytes) (psid adm : Bool) (hl : psid = true → pw.length ≤ 400)
    (h : Prog.Trace AReq ARep) (r : Out (Option GoErr)) (t : Prog.Trace AReq ARep)
    (hrun : OutT.run env h (tcgOnLinux o (o.tcgDevice.revertTPer ctx pw psid adm)) = (r, t)) :
    (r = .ret none → st (h ++ t) = ⟨dr.msid, [], none, 0, (st h).reverts + 1⟩ ∧ pw ≠ [] ∧
      (if psid then pw = dr.psid else
        (st h).sid = [0xd0, 0x20] ++ ctx.kdf.key (pw.take 32) o.tcgDevice.serial)) ∧
    ((if psid then pw ≠ dr.psid else
        (st h).sid ≠ [0xd0, 0x20] ++ ctx.kdf.key (pw.take 32) o.tcgDevice.serial) →
      (st (h ++ t)).reverts = (st h).reverts ∧ (st (h ++ t)).sid = (st h).sid) := by
  obtain ⟨hn, hk, hd, -⟩ := open_conforming hc order path h₀ o hopen ho
  obtain ⟨e1, e2⟩ := run_on_nvme hn _ _ (revertTPer_asks ctx o.tcgDevice pw psid adm) env h st
  rw [hrun] at e1 e2
  have := revert_conforming_safe (conforming_on_nvme hc hn h) ctx hf o.tcgDevice hk hd pw psid adm hl
    [] _ _ (Prod.eta _).symm
  rw [← e1, List.nil_append, ← e2] at this
  exact this

/-- **C130, default password.** `GetDefaultPassword` returns the drive's MSID while a session is left, and uses one up
for good; then it fails with TCG error 7. -/
theorem default_password_nvme {fd : Nat} {dr : Drive} {W : Nat} {env : Prog.Env AReq ARep}
    {st : Prog.Trace AReq ARep → DriveState} (hc : NvmeConforming fd dr W env st) (hp : PromptSystem env)
    (order : List (Bytes × Bytes) → List (Bytes × Bytes)) (path : Bytes) (h₀ : Prog.Trace AReq ARep) (o : Opened)
    (hopen : (OutT.run env h₀ (OutT.interp sysCall (linuxOpenByPath order path))).1 = .ret (.ok o))
    (ho : o.source = some (0, fd))
    (ctx : Ctx) (hf : W < ctx.fuel) (h : Prog.Trace AReq ARep)
    (r : Out (Bytes × Option GoErr)) (t : Prog.Trace AReq ARep)
    (hrun : OutT.run env h (tcgOnLinux o (o.tcgDevice.getDefaultPassword ctx)) = (r, t)) :
    (st (h ++ t)).sid = (st h).sid ∧ (st (h ++ t)).reverts = (st h).reverts ∧
    ((st h).sessions.length < dr.maxSessions → r = .ret (dr.msid, none) ∧
      (st (h ++ t)).sessions.length = (st h).sessions.length + 1) ∧
    (dr.maxSessions ≤ (st h).sessions.length → r = .ret ([], some (.tcg 7)) ∧
      (st (h ++ t)).sessions = (st h).sessions) := by
  obtain ⟨hn, hk, hd, -⟩ := open_conforming hc order path h₀ o hopen ho
  obtain ⟨e1, e2⟩ := run_on_nvme hn _ _ (getDefaultPassword_asks ctx o.tcgDevice) env h st
  rw [hrun] at e1 e2
  have := default_password_conforming (conforming_on_nvme hc hn h) (prompt_on hp h) ctx hf o.tcgDevice hk hd
    [] _ _ (Prod.eta _).symm
  rw [← e1, List.nil_append, ← e2] at this
  exact this

/-! ## A drive that meets the hypotheses -/

/-- The security command in an admin ioctl on `fd`. -/
def asSec (fd : Nat) : AReq → Option SecReq
  | .sys (.nvme fd' _ k (some buf)) =>
    if fd' = fd ∧ k.opcode = 0x81 then
      some (.sec true false (BitVec.ofNat 8 (securityOf k).secp) (BitVec.ofNat 16 (securityOf k).spsp) buf 0)
    else if fd' = fd ∧ k.opcode = 0x82 then
      some (.sec false false (BitVec.ofNat 8 (securityOf k).secp) (BitVec.ofNat 16 (securityOf k).spsp) buf 0)
    else none
  | _ => none

/-- What a request does to the drive. -/
def idealNvmeStep (fd : Nat) (dr : Drive) (s : DriveState) (q : AReq) : DriveState :=
  match asSec fd q with
  | some q => idealStep dr s q
  | none => s

/-- Its state after a history. -/
def idealNvmeState (fd : Nat) (dr : Drive) (s0 : DriveState) (h : Prog.Trace AReq ARep) : DriveState :=
  h.foldl (fun s x => idealNvmeStep fd dr s x.1) s0

/-- Its discovery response: one descriptor, Opal 2. -/
def discoveryBlock (comId : BitVec 16) : Bytes :=
  beBytes 4 64 ++ zeros 44 ++ ([0x02, 0x03, 0x10, 0x10] ++ beBytes 2 comId.toNat ++ zeros 14) ++ zeros 1980

/-- The system: every node opens as `fd`, the SCSI generic driver is not supported. -/
def idealNvme (fd : Nat) (dr : Drive) (s0 : DriveState) : Prog.Env AReq ARep := fun h q =>
  match q with
  | .sys (.os (.openDev _)) => { sys := { os := { fd := fd } } }
  | .sys (.sgIo _ _) => { sys := { sg := { err := some (.errno 25) } } }
  | .sys (.nvme _ _ _ _) =>
    match asSec fd q with
    | some (.sec false _ _ c _ _) =>
      if c = 1 then { sys := { nv := { data := discoveryBlock dr.comId } } }
      else match (idealNvmeState fd dr s0 h).answer with
        | some a => { sys := { nv := { data := idealBlock (idealTokens a) } } }
        | none => {}
    | _ => {}
  | _ => {}

theorem idealNvmeState_snoc (fd : Nat) (dr : Drive) (s0 : DriveState) (h : Prog.Trace AReq ARep) (q : AReq) (r : ARep) :
    idealNvmeState fd dr s0 (h ++ [(q, r)]) = idealNvmeStep fd dr (idealNvmeState fd dr s0 h) q := by
  simp [idealNvmeState, List.foldl_append]

theorem idealNvme_inv (fd : Nat) (dr : Drive) (hm : dr.msid.length ≤ 1900) (s0 : DriveState) (h0 : IdealInv s0)
    (h : Prog.Trace AReq ARep) : IdealInv (idealNvmeState fd dr s0 h) := by
  unfold idealNvmeState
  induction h generalizing s0 with
  | nil => exact h0
  | cons x xs ih =>
    refine ih _ ?_
    show IdealInv (idealNvmeStep fd dr s0 x.1)
    unfold idealNvmeStep
    split
    · exact idealInv_step dr hm s0 h0 _
    · exact h0

theorem asSec_security {fd : Nat} {out : Bool} {c : BitVec 16} {n : Nat} {k : KNvme} (hk : IsNvmeSecurity out 1 c n k)
    (buf : Bytes) : asSec fd (adminIoctl fd k buf) = some (.sec out false 1 c buf 0) := by
  have h1 : BitVec.ofNat 8 (securityOf k).secp = 1 := by rw [hk.fields]; rfl
  have h2 : BitVec.ofNat 16 (securityOf k).spsp = c := by rw [hk.fields]; simp
  unfold asSec adminIoctl
  simp only [hk.opcode, h1, h2, true_and]
  cases out <;> simp

theorem asSec_other {fd : Nat} {dr : Drive} {q : AReq} (h : ¬ TouchesTcg fd dr.comId q) (s : DriveState) :
    idealNvmeStep fd dr s q = s := by
  unfold idealNvmeStep
  match q with
  | .now => rfl
  | .sleep _ => rfl
  | .sys (.os _) => rfl
  | .sys .place => rfl
  | .sys (.nvmeIo _ _ _) => rfl
  | .sys (.sgIo _ _) => rfl
  | .sys (.nvme _ _ _ none) => rfl
  | .sys (.nvme fd' op k (some buf)) =>
    have hlt : (securityOf k).secp < 256 := by
      show k.cdw10.toNat / 16777216 < 256
      have := k.cdw10.isLt
      omega
    have hlt2 : (securityOf k).spsp < 65536 := Nat.mod_lt _ (by decide)
    have key : (k.opcode = 0x81 ∨ k.opcode = 0x82) → fd' = fd →
        ¬ (BitVec.ofNat 8 (securityOf k).secp = 1 ∧ BitVec.ofNat 16 (securityOf k).spsp = dr.comId) := by
      rintro ho hfd ⟨h1, h2⟩
      refine h ⟨hfd, ho, ?_, ?_⟩
      · have := congrArg BitVec.toNat h1
        rw [BitVec.toNat_ofNat] at this
        change _ = 1 at this
        omega
      · have := congrArg BitVec.toNat h2
        simp only [BitVec.toNat_ofNat] at this
        omega
    unfold asSec
    simp only
    split
    · rename_i x hx
      split at hx
      · rename_i hc
        cases hx
        simp only [idealStep]
        rw [if_neg (key (.inl hc.2) hc.1)]
      · split at hx
        · rename_i hc
          cases hx
          simp only [idealStep]
          rw [if_neg (key (.inr hc.2) hc.1)]
        · cases hx
    · rfl

theorem discoveryBlock_announces (comId : BitVec 16) : AnnouncesOpal comId (discoveryBlock comId) := by
  have hb : (beBytes 2 comId.toNat).length = 2 := beBytes_length _ _
  have hlen : (discoveryBlock comId).length = 2048 := by
    simp [discoveryBlock, beBytes_length, zeros_length]
  obtain ⟨d, hd⟩ : ∃ d : Bytes, d = [0x02, 0x03, 0x10, 0x10] ++ beBytes 2 comId.toNat ++ zeros 14 := ⟨_, rfl⟩
  have hdl : d.length = 20 := by rw [hd]; simp [hb, zeros_length]
  have hcode : descCode d = 0x203 := by
    rw [hd]
    rw [List.append_assoc]
    generalize beBytes 2 comId.toNat ++ zeros 14 = x
    show beVal [0x02, 0x03] = _
    decide
  have h48 : (beBytes 4 64 ++ zeros 44 : Bytes).length = 48 := by simp [beBytes_length, zeros_length]
  have hblk : discoveryBlock comId = (beBytes 4 64 ++ zeros 44) ++ (d ++ zeros 1980) := by
    rw [hd]; simp [discoveryBlock]
  refine ⟨[d], hlen, ?_, ?_, ?_, ?_, .inr ⟨d, by simp, hcode⟩, ?_⟩
  · rw [hblk, slice_pad _ _ _ _ (by omega)]; decide
  · intro x hx
    simp only [List.mem_singleton] at hx
    subst hx
    exact ⟨0x02, 0x03, 0x10, 0x10, beBytes 2 comId.toNat ++ zeros 14, by rw [hd]; simp, by simp [hb, zeros_length]⟩
  · rw [hblk, List.drop_left' h48]
    simp
  · rw [hblk, List.append_assoc, List.take_left' (beBytes_length _ _)]
    rw [beVal_beBytes]
    simp [hdl]
  · intro x hx _
    simp only [List.mem_singleton] at hx
    rw [hx]
    refine ⟨by omega, ?_⟩
    have : slice d 4 2 = beBytes 2 comId.toNat := by
      rw [hd]; exact slice_mid3 _ _ _ 4 2 rfl hb
    rw [this, beVal_beBytes, Nat.mod_eq_of_lt comId.isLt]

/-- It conforms. -/
theorem idealNvme_conforming (fd : Nat) (dr : Drive) (hm : dr.msid.length ≤ 1900) (hcid : dr.comId ≠ 1) (s0 : DriveState)
    (ha : s0.answer = none) (hw : s0.wait = 0) : NvmeConforming fd dr 0 (idealNvme fd dr s0) (idealNvmeState fd dr s0) := by
  have hinv := idealNvme_inv fd dr hm s0 ⟨hw, fun a h => by rw [ha] at h; cases h⟩
  constructor
  · intro h k data p hk _ _ hp hc
    have hs := asSec_security (fd := fd) hk data
    refine ⟨?_, ((idealNvmeState fd dr s0 h).sessions.length + 1) % 2 ^ 32, 0, Nat.mod_lt _ (by decide), Nat.le_refl _, ?_⟩
    · unfold idealNvme
      simp only [hs]
      exact ⟨rfl, rfl⟩
    · rw [idealNvmeState_snoc]
      unfold idealNvmeStep
      simp only [hs, idealStep, hp, and_self, if_true, if_pos hc]
  · intro h k a w _ _ hw'
    rw [(hinv h).1] at hw'
    cases hw'
  · intro h k a hk hans _
    have hs := asSec_security (fd := fd) hk (zeros 2048)
    have hf := (hinv h).2 a hans
    have he : idealNvme fd dr s0 h (adminIoctl fd k (zeros 2048)) = { sys := { nv := { data := idealBlock (idealTokens a) } } } := by
      unfold idealNvme
      simp only [hs, hans, if_neg hcid]
    refine ⟨by rw [he]; exact ⟨rfl, rfl⟩, ⟨idealTokens a, idealTokens_encodes hf, ?_⟩, ?_⟩
    · rw [he]
      exact idealBlock_carries (idealTokens_WF hf) (idealTokens_length hf)
    · rw [idealNvmeState_snoc]
      unfold idealNvmeStep
      simp only [hs, idealStep, and_self, if_true]
  · intro h k hk
    have hs := asSec_security (fd := fd) hk (zeros 2048)
    have he : idealNvme fd dr s0 h (adminIoctl fd k (zeros 2048)) = { sys := { nv := { data := discoveryBlock dr.comId } } } := by
      unfold idealNvme
      simp only [hs, if_true]
    rw [he]
    exact ⟨⟨rfl, rfl⟩, discoveryBlock_announces _⟩
  · intro h q hq
    rw [idealNvmeState_snoc]
    exact asSec_other hq _
  · exact hcid

theorem idealNvme_prompt (fd : Nat) (dr : Drive) (s0 : DriveState) : PromptSystem (idealNvme fd dr s0) := by
  intro h h'
  exact Nat.le_add_right _ _

theorem idealNvme_node (fd : Nat) (dr : Drive) (s0 : DriveState) (path : Bytes) : NvmeNode fd path (idealNvme fd dr s0) := by
  constructor
  · intro h; exact ⟨rfl, rfl⟩
  · intro h op k buf hop
    unfold idealNvme
    have : asSec fd (.sys (.nvme fd op k buf)) = none := by
      cases buf with
      | none => rfl
      | some b => unfold asSec; simp [hop]
    simp only [this]
    exact ⟨rfl, rfl⟩
  · intro h q; simp [idealNvme]

/-- Opening a node. -/
abbrev openNode (path : Bytes) : AM (Res Opened) := OutT.interp sysCall (linuxOpenByPath (fun m => m) path)

/-- Opening it gives the NVMe drive. -/
theorem opens_owned : ∃ o, (OutT.run (idealNvme 3 shippedDrive ownedState) [] (openNode (ascii "/dev/nvme0n1"))).1
    = .ret (.ok o) ∧ o.source = some (0, 3) :=
  open_succeeds_nvme (idealNvme_conforming 3 shippedDrive (by decide) (by decide) ownedState rfl rfl) _
    (idealNvme_node _ _ _ _) _ _

/-- Opened, the drive is reverted by its PSID, and not by another password. -/
example : ∃ o, (OutT.run (idealNvme 3 shippedDrive ownedState) []
      (openNode (ascii "/dev/nvme0n1"))).1 = .ret (.ok o) ∧
    o.tcgDevice.baseComId = 0x07fe ∧
    (∀ h, (idealNvmeState 3 shippedDrive ownedState h).sessions.length < 1 →
      (OutT.run (idealNvme 3 shippedDrive ownedState) h (tcgOnLinux o (o.tcgDevice.revertTPer sampleCtx [0x50, 0x31] true true))).1
        = .ret none ∧
      (OutT.run (idealNvme 3 shippedDrive ownedState) h (tcgOnLinux o (o.tcgDevice.revertTPer sampleCtx [0x50, 0x32] true true))).1
        = .ret (some (.tcg 1))) := by
  have hc := idealNvme_conforming 3 shippedDrive (by decide) (by decide) ownedState rfl rfl
  obtain ⟨o, ho, hs⟩ := opens_owned
  have hpr := idealNvme_prompt 3 shippedDrive ownedState
  refine ⟨o, ho, (open_conforming hc _ _ [] o ho hs).2.2.1, fun h hroom => ?_⟩
  exact ⟨((psid_revert_nvme hc hpr _ _ [] o ho hs sampleCtx (by decide) [0x50, 0x31] true (by decide) (by decide) h hroom _ _
      (Prod.eta _).symm).1 rfl).1,
    ((psid_revert_nvme hc hpr _ _ [] o ho hs sampleCtx (by decide) [0x50, 0x32] true (by decide) (by decide) h hroom _ _
      (Prod.eta _).symm).2 (by decide)).1⟩

/-- The MSID is read, the SID revert succeeds with the owner's password, and a wrong PSID reverts nothing. -/
example : ∃ o, (OutT.run (idealNvme 3 shippedDrive ownedState) [] (openNode (ascii "/dev/nvme0n1"))).1 = .ret (.ok o) ∧
    (OutT.run (idealNvme 3 shippedDrive ownedState) [] (tcgOnLinux o (o.tcgDevice.getDefaultPassword sampleCtx))).1
      = .ret ([0x4d, 0x31], none) ∧
    (OutT.run (idealNvme 3 shippedDrive ownedState) [] (tcgOnLinux o (o.tcgDevice.revertTPer sampleCtx [0x70, 0x77] false true))).1
      = .ret none ∧
    (OutT.run (idealNvme 3 shippedDrive ownedState) [] (tcgOnLinux o (o.tcgDevice.revertTPer sampleCtx [] false true))).1
      = .ret (some (.tcg 1)) ∧
    (idealNvmeState 3 shippedDrive ownedState (OutT.run (idealNvme 3 shippedDrive ownedState) []
      (tcgOnLinux o (o.tcgDevice.revertTPer sampleCtx [0x50, 0x32] true true))).2).reverts = 0 := by
  have hc := idealNvme_conforming 3 shippedDrive (by decide) (by decide) ownedState rfl rfl
  obtain ⟨o, ho, hs⟩ := opens_owned
  have hpr := idealNvme_prompt 3 shippedDrive ownedState
  refine ⟨o, ho, ?_, ?_, ?_, ?_⟩
  · exact ((default_password_nvme hc hpr _ _ [] o ho hs sampleCtx (by decide) [] _ _ (Prod.eta _).symm).2.2.1 (by decide)).1
  · exact ((sid_revert_nvme hc hpr _ _ [] o ho hs sampleCtx (by decide) [0x70, 0x77] true [] (by decide) _ _
      (Prod.eta _).symm).1 ⟨by decide, rfl⟩).1
  · exact ((sid_revert_nvme hc hpr _ _ [] o ho hs sampleCtx (by decide) [] true [] (by decide) _ _
      (Prod.eta _).symm).2 (.inl rfl)).1
  · exact ((revert_safe_nvme hc _ _ [] o ho hs sampleCtx (by decide) [0x50, 0x32] true true (by decide) [] _ _
      (Prod.eta _).symm).2 (show ([0x50, 0x32] : Bytes) ≠ [0x50, 0x31] by decide)).1

end Dparm
