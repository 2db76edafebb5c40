import Verif.Lemmas.TperWin
import Verif.Props.TperLinux
/-!
# Properties: a conforming TCG drive behind the Windows miniport driver (C174)
-/
namespace Dparm
open Spec

/-- **C174, PSID revert.** On a drive of the miniport driver that was recognised as an Opal device with the drive's ComID:
with a session left, `RevertTPer` with the drive's PSID succeeds and the drive is in factory state; with any other password
it fails with TCG error 1 and changes neither credential nor content. -/
theorem psid_revert_miniport {sh : Nat} {dr : Drive} {W : Nat} {env : Prog.Env WAReq WARep}
    {st : Prog.Trace WAReq WARep → DriveState} (hc : MiniportConforming sh dr W env st) (hp : PromptWindows env)
    (o : WinOpened) (ho : MiniportDrive o sh) (hk : o.tcgDevice.kind = .opal1 ∨ o.tcgDevice.kind = .opal2)
    (hd : o.tcgDevice.baseComId = dr.comId)
    (ctx : Ctx) (hf : W < ctx.fuel) (pw : Bytes) (adm : Bool) (hl : pw.length ≤ 400) (hne : dr.psid ≠ [])
    (h : Prog.Trace WAReq WARep) (hroom : (st h).sessions.length < dr.maxSessions)
    (r : Out (Option GoErr)) (t : Prog.Trace WAReq WARep)
    (hrun : OutT.run env h (tcgOnWindows o (o.tcgDevice.revertTPer ctx pw true adm)) = (r, t)) :
    (pw = dr.psid → r = .ret none ∧ st (h ++ t) = ⟨dr.msid, [], none, 0, (st h).reverts + 1⟩) ∧
    (pw ≠ dr.psid → r = .ret (some (.tcg 1)) ∧ (st (h ++ t)).reverts = (st h).reverts ∧
      (st (h ++ t)).sid = (st h).sid) := by
  obtain ⟨e1, e2⟩ := run_on_miniport ho _ _ (revertTPer_asks ctx o.tcgDevice pw true adm) env h st
  rw [hrun] at e1 e2
  have := psid_revert_conforming (conforming_on_miniport hc ho h) (prompt_on_win hp h) ctx hf o.tcgDevice hk hd pw adm hl hne
    [] hroom _ _ (Prod.eta _).symm
  rw [← e1, List.nil_append, ← e2] at this
  exact this

/-- **C174, SID revert.** The same with the SID: success exactly if the drive's SID credential is `D0 20` followed by the
32 byte key derived from the (non-empty) password. -/
theorem sid_revert_miniport {sh : Nat} {dr : Drive} {W : Nat} {env : Prog.Env WAReq WARep}
    {st : Prog.Trace WAReq WARep → DriveState} (hc : MiniportConforming sh dr W env st) (hp : PromptWindows env)
    (o : WinOpened) (ho : MiniportDrive o sh) (hk : o.tcgDevice.kind = .opal1 ∨ o.tcgDevice.kind = .opal2)
    (hd : o.tcgDevice.baseComId = dr.comId)
    (ctx : Ctx) (hf : W < ctx.fuel) (pw : Bytes) (adm : Bool)
    (h : Prog.Trace WAReq WARep) (hroom : (st h).sessions.length < dr.maxSessions)
    (r : Out (Option GoErr)) (t : Prog.Trace WAReq WARep)
    (hrun : OutT.run env h (tcgOnWindows o (o.tcgDevice.revertTPer ctx pw false adm)) = (r, t)) :
    (pw ≠ [] ∧ (st h).sid = [0xd0, 0x20] ++ ctx.kdf.key (pw.take 32) o.tcgDevice.serial →
      r = .ret none ∧ st (h ++ t) = ⟨dr.msid, [], none, 0, (st h).reverts + 1⟩) ∧
    (pw = [] ∨ (st h).sid ≠ [0xd0, 0x20] ++ ctx.kdf.key (pw.take 32) o.tcgDevice.serial →
      r = .ret (some (.tcg 1)) ∧ (st (h ++ t)).reverts = (st h).reverts ∧ (st (h ++ t)).sid = (st h).sid) := by
  obtain ⟨e1, e2⟩ := run_on_miniport ho _ _ (revertTPer_asks ctx o.tcgDevice pw false adm) env h st
  rw [hrun] at e1 e2
  have := sid_revert_conforming (conforming_on_miniport hc ho h) (prompt_on_win hp h) ctx hf o.tcgDevice hk hd pw adm
    [] hroom _ _ (Prod.eta _).symm
  rw [← e1, List.nil_append, ← e2] at this
  exact this

/-- **C174, safety.** However slow the drive, however many sessions are open: success is only reported when the drive
is in factory state and the password was right; a wrong password never reverts the drive. -/
theorem revert_safe_miniport {sh : Nat} {dr : Drive} {W : Nat} {env : Prog.Env WAReq WARep}
    {st : Prog.Trace WAReq WARep → DriveState} (hc : MiniportConforming sh dr W env st)
    (o : WinOpened) (ho : MiniportDrive o sh) (hk : o.tcgDevice.kind = .opal1 ∨ o.tcgDevice.kind = .opal2)
    (hd : o.tcgDevice.baseComId = dr.comId)
    (ctx : Ctx) (hf : W < ctx.fuel) (pw : Bytes) (psid adm : Bool) (hl : psid = true → pw.length ≤ 400)
    (h : Prog.Trace WAReq WARep) (r : Out (Option GoErr)) (t : Prog.Trace WAReq WARep)
    (hrun : OutT.run env h (tcgOnWindows o (o.tcgDevice.revertTPer ctx pw psid adm)) = (r, t)) :
    (r = .ret none → st (h ++ t) = ⟨dr.msid, [], none, 0, (st h).reverts + 1⟩ ∧ pw ≠ [] ∧
      (if psid then pw = dr.psid else
        (st h).sid = [0xd0, 0x20] ++ ctx.kdf.key (pw.take 32) o.tcgDevice.serial)) ∧
    ((if psid then pw ≠ dr.psid else
        (st h).sid ≠ [0xd0, 0x20] ++ ctx.kdf.key (pw.take 32) o.tcgDevice.serial) →
      (st (h ++ t)).reverts = (st h).reverts ∧ (st (h ++ t)).sid = (st h).sid) := by
  obtain ⟨e1, e2⟩ := run_on_miniport ho _ _ (revertTPer_asks ctx o.tcgDevice pw psid adm) env h st
  rw [hrun] at e1 e2
  have := revert_conforming_safe (conforming_on_miniport hc ho h) ctx hf o.tcgDevice hk hd pw psid adm hl
    [] _ _ (Prod.eta _).symm
  rw [← e1, List.nil_append, ← e2] at this
  exact this

/-- **C174, default password.** `GetDefaultPassword` returns the drive's MSID while a session is left, and uses one up
for good; then it fails with TCG error 7. -/
theorem msid_on_miniport {sh : Nat} {dr : Drive} {W : Nat} {env : Prog.Env WAReq WARep}
    {st : Prog.Trace WAReq WARep → DriveState} (hc : MiniportConforming sh dr W env st) (hp : PromptWindows env)
    (o : WinOpened) (ho : MiniportDrive o sh) (hk : o.tcgDevice.kind = .opal1 ∨ o.tcgDevice.kind = .opal2)
    (hd : o.tcgDevice.baseComId = dr.comId)
    (ctx : Ctx) (hf : W < ctx.fuel) (h : Prog.Trace WAReq WARep)
    (r : Out (Bytes × Option GoErr)) (t : Prog.Trace WAReq WARep)
    (hrun : OutT.run env h (tcgOnWindows o (o.tcgDevice.getDefaultPassword ctx)) = (r, t)) :
    (st (h ++ t)).sid = (st h).sid ∧ (st (h ++ t)).reverts = (st h).reverts ∧
    ((st h).sessions.length < dr.maxSessions → r = .ret (dr.msid, none) ∧
      (st (h ++ t)).sessions.length = (st h).sessions.length + 1) ∧
    (dr.maxSessions ≤ (st h).sessions.length → r = .ret ([], some (.tcg 7)) ∧
      (st (h ++ t)).sessions = (st h).sessions) := by
  obtain ⟨e1, e2⟩ := run_on_miniport ho _ _ (getDefaultPassword_asks ctx o.tcgDevice) env h st
  rw [hrun] at e1 e2
  have := default_password_conforming (conforming_on_miniport hc ho h) (prompt_on_win hp h) ctx hf o.tcgDevice hk hd
    [] _ _ (Prod.eta _).symm
  rw [← e1, List.nil_append, ← e2] at this
  exact this

/-! ## A drive that meets the hypotheses -/

/-- The security command in a miniport request on `sh`. -/
def asMiniportSec (sh : Nat) : WAReq → Option SecReq
  | .sys (.ioctl h code inb _ _) =>
    let v := miniportView inb
    if h = sh ∧ code = 0x4d008 ∧ v.opcode = 0x81 then
      some (.sec true false (BitVec.ofNat 8 (v.cdw10 / 2 ^ 24)) (BitVec.ofNat 16 (v.cdw10 / 2 ^ 8)) (v.data.take v.cdw11) 0)
    else if h = sh ∧ code = 0x4d008 ∧ v.opcode = 0x82 then
      some (.sec false false (BitVec.ofNat 8 (v.cdw10 / 2 ^ 24)) (BitVec.ofNat 16 (v.cdw10 / 2 ^ 8)) (v.data.take v.cdw11) 0)
    else none
  | _ => none

/-- What a request does to the drive. -/
def idealWinStep (sh : Nat) (dr : Drive) (s : DriveState) (q : WAReq) : DriveState :=
  match asMiniportSec sh q with
  | some q => idealStep dr s q
  | none => s

/-- Its state after a history. -/
def idealWinState (sh : Nat) (dr : Drive) (s0 : DriveState) (h : Prog.Trace WAReq WARep) : DriveState :=
  h.foldl (fun s x => idealWinStep sh dr s x.1) s0

/-- The system: a path of a SCSI port opens as `sh`, any other as the next handle; the drive layout is not told. -/
def idealWin (sh : Nat) (dr : Drive) (s0 : DriveState) : Prog.Env WAReq WARep := fun h q =>
  match q with
  | .sys (.ioctl h' code inb n m) =>
    match asMiniportSec sh (.sys (.ioctl h' code inb n m)) with
    | some (.sec false _ _ c _ _) =>
      if c = 1 then { sys := { out := inb.take 152 ++ discoveryBlock dr.comId } }
      else match (idealWinState sh dr s0 h).answer with
        | some a => { sys := { out := inb.take 152 ++ delivered (zeros 2048) (idealBlock (idealTokens a)) } }
        | none => {}
    | _ => if code = 0x70050 then { sys := { err := some (.errno 1) } } else {}
  | .sys (.openDevice path) => { sys := { handle := if path.take 8 = ascii "\\\\.\\SCSI" then sh else sh + 1 } }
  | _ => {}

theorem idealWinState_snoc (sh : Nat) (dr : Drive) (s0 : DriveState) (h : Prog.Trace WAReq WARep) (q : WAReq) (r : WARep) :
    idealWinState sh dr s0 (h ++ [(q, r)]) = idealWinStep sh dr (idealWinState sh dr s0 h) q := by
  simp [idealWinState, List.foldl_append]

theorem idealWin_inv (sh : Nat) (dr : Drive) (hm : dr.msid.length ≤ 1900) (s0 : DriveState) (h0 : IdealInv s0)
    (h : Prog.Trace WAReq WARep) : IdealInv (idealWinState sh dr s0 h) := by
  unfold idealWinState
  induction h generalizing s0 with
  | nil => exact h0
  | cons x xs ih =>
    refine ih _ ?_
    show IdealInv (idealWinStep sh dr s0 x.1)
    unfold idealWinStep
    split
    · exact idealInv_step dr hm s0 h0 _
    · exact h0

theorem asMiniportSec_security {sh : Nat} {out : Bool} {c : BitVec 16} {buf inb : Bytes}
    (hk : IsMiniportSecurity out 1 c buf inb) (hb : buf.length ≤ 4096) :
    asMiniportSec sh (miniportIoctl sh inb) = some (.sec out false 1 c buf 0) := by
  have hv := hk.record
  have h10 : (miniportView inb).cdw10 = 1 * 2 ^ 24 + c.toNat * 2 ^ 8 := by rw [hv]; rfl
  have hop : (miniportView inb).opcode = if out then 0x81 else 0x82 := by rw [hv]; rfl
  have hdata : (miniportView inb).data.take (miniportView inb).cdw11 = buf := by
    rw [hv]
    show (delivered (zeros 4096) buf).take buf.length = buf
    unfold delivered
    rw [zeros_length, List.take_of_length_le hb, List.take_append_of_le_length (Nat.le_refl _), List.take_length]
  have hlt := c.isLt
  have h1 : BitVec.ofNat 8 ((miniportView inb).cdw10 / 2 ^ 24) = 1 := by
    rw [h10, show (1 * 2 ^ 24 + c.toNat * 2 ^ 8) / 2 ^ 24 = 1 by omega]; rfl
  have h2 : BitVec.ofNat 16 ((miniportView inb).cdw10 / 2 ^ 8) = c := by
    apply BitVec.eq_of_toNat_eq
    rw [h10, BitVec.toNat_ofNat]
    omega
  unfold asMiniportSec miniportIoctl
  simp only [hop, h1, h2, hdata, true_and]
  cases out <;> simp

theorem asMiniportSec_other {sh : Nat} {dr : Drive} {q : WAReq} (h : ¬ TouchesMiniport sh dr.comId q) (s : DriveState) :
    idealWinStep sh dr s q = s := by
  unfold idealWinStep
  match q with
  | .now => rfl
  | .sleep _ => rfl
  | .place => rfl
  | .sys (.ioctl h' code inb n m) =>
    have hlt : (miniportView inb).cdw10 < 2 ^ 32 := by
      show leVal (slice inb 92 4) < _
      have := leVal_lt (slice inb 92 4)
      have hl : (slice inb 92 4).length ≤ 4 := by unfold slice; rw [List.length_take]; omega
      exact Nat.lt_of_lt_of_le this (by
        calc 256 ^ (slice inb 92 4).length ≤ 256 ^ 4 := Nat.pow_le_pow_right (by decide) hl
          _ = 2 ^ 32 := by decide)
    have key : ((miniportView inb).opcode = 0x81 ∨ (miniportView inb).opcode = 0x82) → h' = sh → code = 0x4d008 →
        ¬ (BitVec.ofNat 8 ((miniportView inb).cdw10 / 2 ^ 24) = 1 ∧
           BitVec.ofNat 16 ((miniportView inb).cdw10 / 2 ^ 8) = dr.comId) := by
      rintro ho hfd hcode ⟨h1, h2⟩
      refine h ⟨hfd, hcode, ho, ?_, ?_⟩
      · have := congrArg BitVec.toNat h1
        rw [BitVec.toNat_ofNat] at this
        change _ = 1 at this
        omega
      · have := congrArg BitVec.toNat h2
        simp only [BitVec.toNat_ofNat] at this
        exact this
    unfold asMiniportSec
    simp only
    split
    · rename_i x hx
      split at hx
      · rename_i hc
        cases hx
        simp only [idealStep]
        rw [if_neg (key (.inl hc.2.2) hc.1 hc.2.1)]
      · split at hx
        · rename_i hc
          cases hx
          simp only [idealStep]
          rw [if_neg (key (.inr hc.2.2) hc.1 hc.2.1)]
        · cases hx
    · rfl
  | .sys (.openDevice _) => rfl
  | .sys (.closeHandle _) => rfl
  | .sys (.setupClass) => rfl
  | .sys (.setupDevice _ _) => rfl
  | .sys (.setupInterface _ _) => rfl
  | .sys (.setupDetail _ _ _) => rfl
  | .sys (.setupDestroy _) => rfl
  | .sys (.firstVolume) => rfl
  | .sys (.nextVolume _) => rfl
  | .sys (.closeFind _) => rfl
  | .sys (.volumePaths _) => rfl
  | .sys (.volumeInfo _) => rfl
  | .sys (.driveType _) => rfl
  | .sys (.openVolume _) => rfl
  | .sys (.setErrorMode _) => rfl

/-- A block of at most 2048 bytes returned in the data area. -/
theorem miniportReceived_of {inb d : Bytes} (hl : inb.length = 4248) (hd : d.length = 2048) (a : WARep)
    (ha : a.sys.out = inb.take 152 ++ d) : miniportReceived inb a = d := by
  unfold miniportReceived
  rw [miniportView_data, ha]
  unfold delivered slice
  have h152 : (inb.take 152).length = 152 := by rw [List.length_take]; omega
  have htk : (inb.take 152 ++ d).take inb.length = inb.take 152 ++ d :=
    List.take_of_length_le (by rw [List.length_append, h152]; omega)
  rw [htk, List.append_assoc, List.drop_left' h152, List.take_take, List.take_append_of_le_length (by omega), List.take_of_length_le (by omega)]

/-- It conforms. -/
theorem idealWin_conforming (sh : Nat) (dr : Drive) (hm : dr.msid.length ≤ 1900) (hcid : dr.comId ≠ 1) (s0 : DriveState)
    (ha : s0.answer = none) (hw : s0.wait = 0) : MiniportConforming sh dr 0 (idealWin sh dr s0) (idealWinState sh dr s0) := by
  have hinv := idealWin_inv sh dr hm s0 ⟨hw, fun a h => by rw [ha] at h; cases h⟩
  constructor
  · intro h inb data p hk hl _ hp hc
    have hs := asMiniportSec_security (sh := sh) hk hl
    refine ⟨?_, ((idealWinState sh dr s0 h).sessions.length + 1) % 2 ^ 32, 0, Nat.mod_lt _ (by decide), Nat.le_refl _, ?_⟩
    · unfold idealWin
      simp only [hs]
      rw [if_neg (by decide)]
    · rw [idealWinState_snoc]
      unfold idealWinStep
      simp only [hs, idealStep, hp, and_self, if_true, if_pos hc]
  · intro h k a w _ _ hw'
    rw [(hinv h).1] at hw'
    cases hw'
  · intro h inb a hk hans _
    have hs := asMiniportSec_security (sh := sh) hk (by rw [zeros_length]; omega)
    have hf := (hinv h).2 a hans
    have he : idealWin sh dr s0 h (miniportIoctl sh inb) =
        { sys := { out := inb.take 152 ++ delivered (zeros 2048) (idealBlock (idealTokens a)) } } := by
      unfold idealWin
      simp only [hs, hans, if_neg hcid]
    refine ⟨by rw [he], ⟨idealTokens a, idealTokens_encodes hf, ?_⟩, ?_⟩
    · rw [he, miniportReceived_of hk.length (by rw [delivered_length, zeros_length]) _ rfl]
      exact carries_delivered (idealBlock_carries (idealTokens_WF hf) (idealTokens_length hf))
    · rw [idealWinState_snoc]
      unfold idealWinStep
      simp only [hs, idealStep, and_self, if_true]
  · intro h q hq
    rw [idealWinState_snoc]
    exact asMiniportSec_other hq _

theorem idealWin_prompt (sh : Nat) (dr : Drive) (s0 : DriveState) : PromptWindows (idealWin sh dr s0) := by
  intro h h'
  exact Nat.le_add_right _ _

/-- A drive of the miniport driver with an Opal 2 security subsystem on the ComID of the reference drive. -/
def sampleWinOpal : WinOpened :=
  { drv := some (.nvmeWin 8 9),
    handle := { dh := some { ata := false, nvme := true, identity := [] },
                info := { level0 := { shippedDevice.info with made := true } } } }

example : MiniportDrive sampleWinOpal 9 ∧ sampleWinOpal.tcgDevice.kind = .opal2 ∧
    sampleWinOpal.tcgDevice.baseComId = shippedDrive.comId := ⟨⟨8, rfl, [], rfl⟩, rfl, by decide⟩

/-- The drive is reverted by its PSID, and not by another password; the SID revert succeeds with the owner's password only;
the MSID is read; a wrong PSID reverts nothing. -/
example (h : Prog.Trace WAReq WARep) (hroom : (idealWinState 9 shippedDrive ownedState h).sessions.length < 1) :
    let run := fun {α : Type} (h : Prog.Trace WAReq WARep) (p : TcgM α) =>
      OutT.run (idealWin 9 shippedDrive ownedState) h (tcgOnWindows sampleWinOpal p)
    let d := sampleWinOpal.tcgDevice
    (run h (d.revertTPer sampleCtx [0x50, 0x31] true true)).1 = .ret none ∧
    (run h (d.revertTPer sampleCtx [0x50, 0x32] true true)).1 = .ret (some (.tcg 1)) ∧
    (run [] (d.getDefaultPassword sampleCtx)).1 = .ret ([0x4d, 0x31], none) ∧
    (run [] (d.revertTPer sampleCtx [0x70, 0x77] false true)).1 = .ret none ∧
    (run [] (d.revertTPer sampleCtx [] false true)).1 = .ret (some (.tcg 1)) ∧
    (idealWinState 9 shippedDrive ownedState (run [] (d.revertTPer sampleCtx [0x50, 0x32] true true)).2).reverts = 0 := by
  have hc := idealWin_conforming 9 shippedDrive (by decide) (by decide) ownedState rfl rfl
  have hpr := idealWin_prompt 9 shippedDrive ownedState
  have ho : MiniportDrive sampleWinOpal 9 := ⟨8, rfl, [], rfl⟩
  have hk : sampleWinOpal.tcgDevice.kind = .opal1 ∨ sampleWinOpal.tcgDevice.kind = .opal2 := .inr rfl
  have hd : sampleWinOpal.tcgDevice.baseComId = shippedDrive.comId := by decide
  refine ⟨?_, ?_, ?_, ?_, ?_, ?_⟩
  · exact ((psid_revert_miniport hc hpr _ ho hk hd sampleCtx (by decide) [0x50, 0x31] true (by decide) (by decide) h hroom _ _
      (Prod.eta _).symm).1 rfl).1
  · exact ((psid_revert_miniport hc hpr _ ho hk hd sampleCtx (by decide) [0x50, 0x32] true (by decide) (by decide) h hroom _ _
      (Prod.eta _).symm).2 (by decide)).1
  · exact ((msid_on_miniport hc hpr _ ho hk hd sampleCtx (by decide) [] _ _ (Prod.eta _).symm).2.2.1 (by decide)).1
  · exact ((sid_revert_miniport hc hpr _ ho hk hd sampleCtx (by decide) [0x70, 0x77] true [] (by decide) _ _
      (Prod.eta _).symm).1 ⟨by decide, rfl⟩).1
  · exact ((sid_revert_miniport hc hpr _ ho hk hd sampleCtx (by decide) [] true [] (by decide) _ _
      (Prod.eta _).symm).2 (.inl rfl)).1
  · exact ((revert_safe_miniport hc _ ho hk hd sampleCtx (by decide) [0x50, 0x32] true true (by decide) [] _ _
      (Prod.eta _).symm).2 (show ([0x50, 0x32] : Bytes) ≠ [0x50, 0x31] by decide)).1

end Dparm
